import Verif.Spec.Style
import Verif.Proofs.Load
import Verif.Proofs.Bytes
import Mathlib.Data.List.Basic
/- Lemmas about style declarations: trimming, pieces, parseRaw. -/
namespace Verif.Proofs
open Verif.Go Verif.Model Verif.Spec

theorem styleWs_iff {c : UInt8} : styleWs c = true ↔ Blank c := by
  simp only [styleWs, Blank, Bool.or_eq_true, beq_iff_eq]; tauto

theorem styleWs_false_iff {c : UInt8} : styleWs c = false ↔ ¬ Blank c := by
  rw [← styleWs_iff]; simp

theorem dropWhile_nil_iff {p : UInt8 → Bool} {s : Str} : s.dropWhile p = [] ↔ ∀ c ∈ s, p c = true := by
  induction s with
  | nil => simp
  | cons x xs ih =>
    cases hx : p x with
    | true => rw [List.dropWhile_cons_of_pos hx, ih]; simp [hx]
    | false => rw [List.dropWhile_cons_of_neg (by simp [hx])]; simp [hx]

theorem trimRight_all {cut : UInt8 → Bool} : ∀ {s : Str}, (∀ c ∈ s, cut c = true) → trimRight cut s = [] := by
  intro s
  induction s with
  | nil => intro _; rfl
  | cons c cs ih =>
    intro h
    simp [trimRight, ih (fun x hx => h x (by simp [hx])), h c (by simp)]

theorem trim_all {cut : UInt8 → Bool} {s : Str} (h : ∀ c ∈ s, cut c = true) : trim cut s = [] := by
  have : s.dropWhile cut = [] := dropWhile_nil_iff.mpr h
  simp [trim, trimLeft, this, trimRight]

theorem trimRight_decomp (cut : UInt8 → Bool) : ∀ (s : Str), ∃ b, s = trimRight cut s ++ b ∧ (∀ c ∈ b, cut c = true) ∧
    (∀ c, (trimRight cut s).getLast? = some c → cut c = false) := by
  intro s
  induction s with
  | nil => exact ⟨[], by simp [trimRight]⟩
  | cons c cs ih =>
    obtain ⟨b, h1, h2, h3⟩ := ih
    cases ht : trimRight cut cs with
    | nil =>
      rw [ht] at h1 h3
      cases hc : cut c with
      | true =>
        refine ⟨c :: cs, by simp [trimRight, ht, hc], ?_, by simp [trimRight, ht, hc]⟩
        intro x hx
        simp only [List.mem_cons] at hx
        rcases hx with rfl | hx
        · exact hc
        · exact h2 x (by rw [h1] at hx; simpa using hx)
      | false =>
        refine ⟨cs, by simp [trimRight, ht, hc], ?_, by simp [trimRight, ht, hc]⟩
        intro x hx
        exact h2 x (by rw [h1] at hx; simpa using hx)
    | cons d ds =>
      rw [ht] at h1 h3
      refine ⟨b, ?_, h2, ?_⟩
      · simp only [trimRight, ht, List.cons_append]
        rw [h1]; rfl
      · simp only [trimRight, ht]
        intro x hx
        rw [List.getLast?_cons_cons] at hx
        exact h3 x hx

theorem strips_trimWS (t : Str) : Strips t (trimWS t) := by
  obtain ⟨b, h1, h2, h3⟩ := trimRight_decomp styleWs (t.dropWhile styleWs)
  refine ⟨t.takeWhile styleWs, b, ?_, ?_, ?_, ?_, ?_⟩
  · unfold trimWS trim trimLeft
    rw [List.append_assoc, ← h1, List.takeWhile_append_dropWhile]
  · intro c hc
    rw [← styleWs_iff]
    exact List.all_eq_true.mp (List.all_takeWhile (p := styleWs) (l := t)) c hc
  · intro c hc; rw [← styleWs_iff]; exact h2 c hc
  · intro c hc
    unfold trimWS trim trimLeft at hc
    rw [← styleWs_false_iff]
    have h4 : (t.dropWhile styleWs).head? = some c := by
      rw [h1, List.head?_append, hc]; rfl
    have := List.head?_dropWhile_not styleWs t
    rw [h4] at this
    simpa using this
  · intro c hc
    rw [← styleWs_false_iff]
    exact h3 c hc

theorem dropWhile_append_all {α : Type} {p : α → Bool} {a : List α} (h : ∀ c ∈ a, p c = true) (r : List α) :
    (a ++ r).dropWhile p = r.dropWhile p := by
  induction a with
  | nil => rfl
  | cons x xs ih =>
    simp only [List.cons_append]
    rw [List.dropWhile_cons_of_pos (h x (by simp))]
    exact ih (fun c hc => h c (by simp [hc]))

theorem trimRight_append_all {cut : UInt8 → Bool} (k : Str) {b : Str} (h : ∀ c ∈ b, cut c = true) :
    trimRight cut (k ++ b) = trimRight cut k := by
  induction k with
  | nil => simpa [trimRight] using trimRight_all h
  | cons x xs ih => simp [trimRight, ih]

theorem trimRight_id {cut : UInt8 → Bool} {k : Str} (h : ∀ c, k.getLast? = some c → cut c = false) : trimRight cut k = k := by
  rcases List.eq_nil_or_concat k with rfl | ⟨xs, x, rfl⟩
  · rfl
  · have := h x (by simp)
    have h2 := trimRight_append_of_not_cut cut xs [] x this
    simpa [trimRight] using h2

theorem dropWhile_id {p : UInt8 → Bool} {k : Str} (h : ∀ c, k.head? = some c → p c = false) : k.dropWhile p = k := by
  cases k with
  | nil => rfl
  | cons x xs => exact List.dropWhile_cons_of_neg (by simp [h x rfl])

theorem strips_unique {t k : Str} (h : Strips t k) : trimWS t = k := by
  obtain ⟨a, b, rfl, ha, hb, hh, hl⟩ := h
  have ha' : ∀ c ∈ a, styleWs c = true := fun c hc => styleWs_iff.mpr (ha c hc)
  have hb' : ∀ c ∈ b, styleWs c = true := fun c hc => styleWs_iff.mpr (hb c hc)
  unfold trimWS trim trimLeft
  rw [List.append_assoc, dropWhile_append_all ha']
  cases k with
  | nil =>
    have : b.dropWhile styleWs = [] := dropWhile_nil_iff.mpr hb'
    simp [this, trimRight]
  | cons x xs =>
    have hx : styleWs x = false := styleWs_false_iff.mpr (hh x rfl)
    rw [List.cons_append, List.dropWhile_cons_of_neg (by simp [hx]), ← List.cons_append, trimRight_append_all _ hb']
    exact trimRight_id (fun c hc => styleWs_false_iff.mpr (hl c hc))

theorem trimWS_nil_iff {t : Str} : trimWS t = [] ↔ ∀ c ∈ t, Blank c := by
  constructor
  · intro h
    obtain ⟨a, b, h1, ha, hb, _⟩ := strips_trimWS t
    rw [h] at h1
    intro c hc
    rw [h1] at hc
    simp at hc
    exact hc.elim (ha c) (hb c)
  · intro h
    exact trim_all (fun c hc => styleWs_iff.mpr (h c hc))

/-- Trimming before or after cutting off the value makes no difference. -/
theorem trimWS_decl {k v : Str} : trimWS (k ++ 58 :: v) = k.dropWhile styleWs ++ 58 :: trimRight styleWs v := by
  have h58 : styleWs 58 = false := by decide
  unfold trimWS trim trimLeft
  rw [List.dropWhile_append]
  split
  · rename_i h
    have h : k.dropWhile styleWs = [] := by simpa using h
    rw [h, List.dropWhile_cons_of_neg (by simp [h58])]
    exact trimRight_append_of_not_cut styleWs [] v 58 h58
  · exact trimRight_append_of_not_cut styleWs _ v 58 h58

theorem trimWS_dropWhile (k : Str) : trimWS (k.dropWhile styleWs) = trimWS k := by
  unfold trimWS trim trimLeft
  congr 1
  apply dropWhile_id
  intro c hc
  have := List.head?_dropWhile_not styleWs k
  rw [hc] at this
  simpa using this

theorem trimWS_trimRight (v : Str) : trimWS (trimRight styleWs v) = trimWS v := by
  obtain ⟨b, h1, h2, h3⟩ := trimRight_decomp styleWs v
  conv_rhs => rw [h1]
  unfold trimWS trim trimLeft
  rw [List.dropWhile_append]
  split
  · rename_i h
    have h : (trimRight styleWs v).dropWhile styleWs = [] := by simpa using h
    rw [h, dropWhile_nil_iff.mpr h2]
  · rw [trimRight_append_all _ h2]

theorem mem_dropWhile {p : UInt8 → Bool} {c : UInt8} {k : Str} (h : c ∈ k.dropWhile p) : c ∈ k :=
  (List.dropWhile_suffix p).subset h

theorem mem_trimRight {p : UInt8 → Bool} {c : UInt8} {k : Str} (h : c ∈ trimRight p k) : c ∈ k := by
  obtain ⟨b, h1, _⟩ := trimRight_decomp p k
  rw [h1]; simp [h]

/-- Cutting at the first separator. -/
theorem exists_cut {sep : UInt8} : ∀ {s : Str}, sep ∈ s → ∃ k v, s = k ++ sep :: v ∧ sep ∉ k := by
  intro s
  induction s with
  | nil => intro h; simp at h
  | cons c cs ih =>
    intro h
    by_cases hc : c = sep
    · exact ⟨[], cs, by simp [hc], by simp⟩
    · have : sep ∈ cs := by
        simp only [List.mem_cons] at h
        rcases h with h | h
        · exact absurd h.symm hc
        · exact h
      obtain ⟨k, v, h1, h2⟩ := ih this
      exact ⟨c :: k, v, by simp [h1], by simp [h2, Ne.symm hc]⟩

/-- The step of parseRaw on one piece. -/
def pieceStep (p : Str) : Option (List (Str × Str)) :=
  if (trimWS p).length = 0 then some []
  else match split 58 (trimWS p) with
    | [k, v] => some [(trimWS k, trimWS v)]
    | _ => none

theorem parseRawLoop_cons (p : Str) (ps : List Str) (raw : List (Str × Str)) :
    parseRawLoop (p :: ps) raw = match pieceStep p with
      | none => none
      | some d => parseRawLoop ps (d.foldl (fun m kv => mapSet kv.1 kv.2 m) raw) := by
  unfold pieceStep
  simp only [parseRawLoop]
  split
  · rfl
  · split
    · rename_i h; rw [h]; rfl
    · rename_i h; split
      · rfl
      · rename_i d hd
        split at hd
        · rename_i k v hkv; exact absurd hkv (h k v)
        · simp at hd

theorem pieceStep_of_piece {p : Str} {d : List (Str × Str)} (h : Piece p d) : pieceStep p = some d := by
  cases h with
  | blank h => simp [pieceStep, trimWS_nil_iff.mpr h]
  | @decl k v key val h hk hv h1 h2 =>
    subst h
    unfold pieceStep
    rw [trimWS_decl, if_neg (by simp), split_append_sep _ _ (fun hx => hk (mem_dropWhile hx)),
      split_line _ (fun hx => hv (mem_trimRight hx))]
    simp [trimWS_dropWhile, trimWS_trimRight, strips_unique h1, strips_unique h2]

theorem piece_of_pieceStep {p : Str} {d : List (Str × Str)} (h : pieceStep p = some d) : Piece p d := by
  unfold pieceStep at h
  split at h
  · rename_i h0
    simp at h; subst h
    exact .blank (trimWS_nil_iff.mp (List.length_eq_zero_iff.mp h0))
  · by_cases hm : (58 : UInt8) ∈ p
    · obtain ⟨k, v, rfl, hk⟩ := exists_cut hm
      rw [trimWS_decl, split_append_sep _ _ (fun hx => hk (mem_dropWhile hx))] at h
      by_cases hv : (58 : UInt8) ∈ trimRight styleWs v
      · obtain ⟨x, y, hxy, hx⟩ := exists_cut hv
        rw [hxy, split_append_sep _ _ hx] at h
        cases hs : split 58 y with
        | nil => exact absurd hs (split_ne_nil _ _)
        | cons z zs => rw [hs] at h; simp at h
      · rw [split_line _ hv] at h
        simp only [Option.some.injEq] at h
        subst h
        have hv' : (58 : UInt8) ∉ v := by
          obtain ⟨b, h1, h2, _⟩ := trimRight_decomp styleWs v
          rw [h1]
          intro hmem
          rcases List.mem_append.mp hmem with hmem | hmem
          · exact hv hmem
          · have := h2 _ hmem; simp [styleWs] at this
        refine .decl rfl hk hv' ?_ ?_
        · rw [trimWS_dropWhile]; exact strips_trimWS k
        · rw [trimWS_trimRight]; exact strips_trimWS v
    · have hn : (58 : UInt8) ∉ trimWS p := fun hx => by
        obtain ⟨a, b, h1, _⟩ := strips_trimWS p
        exact hm (by rw [h1]; simp [hx])
      rw [split_line _ hn] at h
      simp at h

theorem pieceStep_none_iff {p : Str} : pieceStep p = none ↔ (∃ c ∈ p, ¬ Blank c) ∧ p.count 58 ≠ 1 := by
  constructor
  · intro h
    constructor
    · by_contra hc
      have : ∀ c ∈ p, Blank c := by
        intro c hcp; by_contra hb; exact hc ⟨c, hcp, hb⟩
      rw [pieceStep_of_piece (.blank this)] at h
      simp at h
    · intro hc
      have hm : (58 : UInt8) ∈ p := List.count_pos_iff.mp (by omega)
      obtain ⟨k, v, rfl, hk⟩ := exists_cut hm
      have hv : (58 : UInt8) ∉ v := by
        rw [List.count_append, List.count_eq_zero_of_not_mem hk, List.count_cons_self] at hc
        exact List.count_eq_zero.mp (by omega)
      rw [pieceStep_of_piece (.decl rfl hk hv (strips_trimWS k) (strips_trimWS v))] at h
      simp at h
  · rintro ⟨⟨c, hc, hb⟩, h1⟩
    cases hp : pieceStep p with
    | none => rfl
    | some d =>
      exfalso
      cases piece_of_pieceStep hp with
      | blank h => exact hb (h c hc)
      | decl h hk hv _ _ =>
        subst h
        apply h1
        rw [List.count_append, List.count_eq_zero_of_not_mem hk, List.count_cons_self, List.count_eq_zero_of_not_mem hv]

/-- Entering declarations into the map. -/
def enterAll (ds : List (Str × Str)) (raw : List (Str × Str)) : List (Str × Str) :=
  ds.foldl (fun m kv => mapSet kv.1 kv.2 m) raw

theorem parseRawLoop_decls {s : Str} {ds : List (Str × Str)} (h : Decls s ds) :
    ∀ raw, parseRawLoop (split 59 s) raw = some (enterAll ds raw) := by
  induction h with
  | last hp hpc =>
    intro raw
    rw [split_line _ hp, parseRawLoop_cons, pieceStep_of_piece hpc]; rfl
  | more hp hpc _ ih =>
    intro raw
    rw [split_append_sep _ _ hp, parseRawLoop_cons, pieceStep_of_piece hpc]
    simp only [ih, enterAll, List.foldl_append]

theorem decls_of_parseRawLoop : ∀ (ls : List Str) (raw r : List (Str × Str)), ls ≠ [] → (∀ l ∈ ls, (59 : UInt8) ∉ l) →
    parseRawLoop ls raw = some r → ∃ ds, Decls (join ls [59]) ds ∧ r = enterAll ds raw := by
  intro ls
  induction ls with
  | nil => intro _ _ h; exact absurd rfl h
  | cons p ps ih =>
    intro raw r _ hno h
    rw [parseRawLoop_cons] at h
    cases hp : pieceStep p with
    | none => simp [hp] at h
    | some d =>
      simp only [hp] at h
      cases ps with
      | nil =>
        simp only [parseRawLoop, Option.some.injEq] at h
        exact ⟨d, .last (hno p (by simp)) (piece_of_pieceStep hp), h.symm⟩
      | cons q qs =>
        obtain ⟨ds, h1, h2⟩ := ih _ r (by simp) (fun l hl => hno l (by simp at hl ⊢; right; exact hl)) h
        refine ⟨d ++ ds, ?_, ?_⟩
        · have := Decls.more (hno p (by simp)) (piece_of_pieceStep hp) h1
          simpa [join] using this
        · rw [h2]; simp [enterAll]

theorem parseRaw_some_iff {s : Str} {r : List (Str × Str)} :
    parseRaw s = some r ↔ ∃ ds, Decls s ds ∧ r = enterAll ds [] := by
  constructor
  · intro h
    have := decls_of_parseRawLoop (split 59 s) [] r (split_ne_nil _ _) (fun l hl => split_pieces_no_sep s l hl) h
    rwa [join_split] at this
  · rintro ⟨ds, h, rfl⟩
    exact parseRawLoop_decls h []

theorem parseRawLoop_none : ∀ (ls : List Str) (raw : List (Str × Str)),
    parseRawLoop ls raw = none ↔ ∃ p ∈ ls, pieceStep p = none := by
  intro ls
  induction ls with
  | nil => intro raw; simp [parseRawLoop]
  | cons p ps ih =>
    intro raw
    rw [parseRawLoop_cons]
    cases hp : pieceStep p with
    | none => simp [hp]
    | some d => simp [hp, ih]

/-- The pieces of `split` are the maximal pieces of the specification. -/
theorem isPiece_iff {s p : Str} : IsPiece s p ↔ p ∈ split 59 s := by
  constructor
  · rintro ⟨hp, a, b, rfl, ha, hb⟩
    have key : p ∈ split 59 (p ++ b) := by
      rcases hb with rfl | ⟨b', rfl⟩
      · rw [List.append_nil, split_line _ hp]; simp
      · rw [split_append_sep _ _ hp]; simp
    rcases ha with rfl | ⟨a', rfl⟩
    · simpa using key
    · have : ∀ (n : Nat) (a : Str), a.length = n → ∀ r, p ∈ split 59 r → p ∈ split 59 (a ++ 59 :: r) := by
        intro n
        induction n using Nat.strongRecOn with
        | ind n ih =>
          intro a hn r hr
          by_cases hm : (59 : UInt8) ∈ a
          · obtain ⟨k, v, rfl, hk⟩ := exists_cut hm
            rw [List.append_assoc, List.cons_append, split_append_sep _ _ hk]
            simp only [List.mem_cons]
            right
            exact ih v.length (by simp at hn; omega) v rfl r hr
          · rw [split_append_sep _ _ hm]; simp [hr]
      have := this a'.length a' rfl (p ++ b) key
      simpa using this
  · have : ∀ (n : Nat) (s : Str), s.length = n → p ∈ split 59 s → IsPiece s p := by
      intro n
      induction n using Nat.strongRecOn with
      | ind n ih =>
        intro s hn h
        by_cases hm : (59 : UInt8) ∈ s
        · obtain ⟨k, v, rfl, hk⟩ := exists_cut hm
          rw [split_append_sep _ _ hk, List.mem_cons] at h
          rcases h with rfl | h
          · exact ⟨hk, [], 59 :: v, by simp, Or.inl rfl, Or.inr ⟨v, rfl⟩⟩
          · obtain ⟨h0, a, b, h1, h2, h3⟩ := ih v.length (by simp at hn; omega) v rfl h
            refine ⟨h0, k ++ 59 :: a, b, by simp [h1], Or.inr ?_, h3⟩
            rcases h2 with rfl | ⟨a', rfl⟩
            · exact ⟨k, by simp⟩
            · exact ⟨k ++ 59 :: a', by simp⟩
        · rw [split_line _ hm] at h
          simp only [List.mem_singleton] at h
          subst h
          exact ⟨hm, [], [], by simp, Or.inl rfl, Or.inl rfl⟩
    exact this s.length s rfl

/-! ### Maps -/

theorem mapGet_mapSet {β : Type} (k : Str) (v : β) (k' : Str) : ∀ (m : List (Str × β)),
    mapGet k' (mapSet k v m) = if k = k' then some v else mapGet k' m := by
  intro m
  induction m with
  | nil => simp [mapSet, mapGet]
  | cons e m ih =>
    obtain ⟨a, b⟩ := e
    simp only [mapSet]
    split
    · rename_i h
      subst h
      simp only [mapGet]
      split <;> simp_all
    · rename_i h
      simp only [mapGet, ih]
      split
      · rename_i h1; subst h1; simp [Ne.symm h]
      · rfl

theorem mapSet_keys {β : Type} (k : Str) (v : β) : ∀ (m : List (Str × β)),
    (mapSet k v m).map Prod.fst = if k ∈ m.map Prod.fst then m.map Prod.fst else m.map Prod.fst ++ [k] := by
  intro m
  induction m with
  | nil => simp [mapSet]
  | cons e m ih =>
    obtain ⟨a, b⟩ := e
    simp only [mapSet]
    split
    · rename_i h; subst h; simp
    · rename_i h
      simp only [List.map_cons, ih, List.mem_cons, Ne.symm h, false_or]
      split <;> simp

theorem mapSet_nodup {β : Type} (k : Str) (v : β) {m : List (Str × β)} (h : (m.map Prod.fst).Nodup) :
    ((mapSet k v m).map Prod.fst).Nodup := by
  rw [mapSet_keys]
  split
  · exact h
  · rename_i hk
    rw [List.nodup_append]
    exact ⟨h, by simp, by rintro a ha b hb rfl; simp at hb; exact hk (hb ▸ ha)⟩

theorem enterAll_nodup : ∀ (ds raw : List (Str × Str)), (raw.map Prod.fst).Nodup → ((enterAll ds raw).map Prod.fst).Nodup := by
  intro ds
  induction ds with
  | nil => intro raw h; exact h
  | cons d ds ih => intro raw h; exact ih _ (mapSet_nodup _ _ h)

theorem mapGet_enterAll (k : Str) : ∀ (ds raw : List (Str × Str)),
    mapGet k (enterAll ds raw) = (match lastValue k ds with | some v => some v | none => mapGet k raw) := by
  intro ds
  induction ds with
  | nil => intro raw; rfl
  | cons d ds ih =>
    intro raw
    obtain ⟨a, b⟩ := d
    have : enterAll ((a, b) :: ds) raw = enterAll ds (mapSet a b raw) := rfl
    rw [this, ih, lastValue, mapGet_mapSet]
    cases lastValue k ds with
    | some v => rfl
    | none => simp only; split <;> simp

theorem mem_of_mapGet {β : Type} {k : Str} {v : β} : ∀ {m : List (Str × β)}, mapGet k m = some v → (k, v) ∈ m := by
  intro m
  induction m with
  | nil => intro h; simp [mapGet] at h
  | cons e m ih =>
    obtain ⟨a, b⟩ := e
    intro h
    simp only [mapGet] at h
    split at h
    · rename_i hk; simp at h; simp [hk, h]
    · simp [ih h]

theorem mapGet_of_mem {β : Type} {k : Str} {v : β} : ∀ {m : List (Str × β)}, (m.map Prod.fst).Nodup → (k, v) ∈ m →
    mapGet k m = some v := by
  intro m
  induction m with
  | nil => intro _ h; simp at h
  | cons e m ih =>
    obtain ⟨a, b⟩ := e
    intro hn h
    simp only [List.map_cons, List.nodup_cons] at hn
    simp only [List.mem_cons, Prod.mk.injEq] at h
    simp only [mapGet]
    rcases h with ⟨rfl, rfl⟩ | h
    · simp
    · have : a ≠ k := by
        rintro rfl
        exact hn.1 (List.mem_map.mpr ⟨(a, v), h, rfl⟩)
      simp [this, ih hn.2 h]

end Verif.Proofs
