import Mathlib.Data.List.Sort
import Verif.Proofs.Pattern
/- Lemmas about Hyphenate. -/
namespace Verif.Proofs
open Verif.Go Verif.Model Verif.Spec

/-! ### Maxima -/

def maxOf (l : List Nat) : Nat := l.foldr max 0

theorem le_maxOf {l : List Nat} {x : Nat} (h : x ∈ l) : x ≤ maxOf l := by
  induction l with
  | nil => simp at h
  | cons a l ih =>
    simp only [maxOf, List.foldr_cons]
    simp only [List.mem_cons] at h
    rcases h with rfl | h
    · exact Nat.le_max_left _ _
    · exact Nat.le_trans (ih h) (Nat.le_max_right _ _)

theorem maxOf_attained (l : List Nat) : maxOf l = 0 ∨ maxOf l ∈ l := by
  induction l with
  | nil => left; rfl
  | cons a l ih =>
    simp only [maxOf, List.foldr_cons]
    have hm : maxOf l = l.foldr max 0 := rfl
    by_cases h : a ≤ maxOf l
    · rw [← hm, Nat.max_eq_right h]
      rcases ih with h0 | h1
      · left; exact h0
      · right; exact List.mem_cons_of_mem _ h1
    · rw [← hm, Nat.max_eq_left (by omega)]
      right; simp

/-- Folding steps that raise position `pos` to at least `c s pos`. -/
theorem foldM_max {σ : Type} (f : List Nat → σ → Option (List Nat)) (c : σ → Nat → Nat) (N : Nat) :
    ∀ (l : List σ), (∀ ws s, s ∈ l → ws.length = N → ∃ ws', f ws s = some ws' ∧ ws'.length = N ∧
        ∀ pos, ws'[pos]? = ws[pos]?.map (fun v => max v (c s pos))) →
    ∀ ws, ws.length = N → ∃ ws', l.foldlM f ws = some ws' ∧ ws'.length = N ∧
        ∀ pos, ws'[pos]? = ws[pos]?.map (fun v => max v (maxOf (l.map (fun s => c s pos)))) := by
  intro l
  induction l with
  | nil => intro _ ws h; exact ⟨ws, rfl, h, by intro pos; simp [maxOf]⟩
  | cons s l ih =>
    intro hstep ws hws
    obtain ⟨w1, e1, l1, p1⟩ := hstep ws s (by simp) hws
    obtain ⟨w2, e2, l2, p2⟩ := ih (fun ws t ht hw => hstep ws t (by simp [ht]) hw) w1 l1
    refine ⟨w2, ?_, l2, ?_⟩
    · simp [List.foldlM_cons, e1, e2]
    · intro pos
      rw [p2, p1, Option.map_map]
      congr 1
      funext v
      simp only [Function.comp, List.map_cons, maxOf, List.foldr_cons]
      omega

theorem updWeights_spec (i : Nat) : ∀ (r : List Nat) (iw : Nat) (ws : List Nat), i + iw + r.length ≤ ws.length →
    ∃ ws', updWeights i iw r ws = some ws' ∧ ws'.length = ws.length ∧
      ∀ pos, ws'[pos]? = ws[pos]?.map (fun v => max v (if i + iw ≤ pos then (r[pos - (i + iw)]?).getD 0 else 0)) := by
  intro r
  induction r with
  | nil => intro iw ws h; exact ⟨ws, rfl, rfl, by intro pos; simp⟩
  | cons w r ih =>
    intro iw ws h
    simp only [List.length_cons] at h
    have hlt : i + iw < ws.length := by omega
    have hget : ws[i + iw]? = some ws[i + iw] := List.getElem?_eq_getElem hlt
    have hl1 : (if w > ws[i + iw] then ws.set (i + iw) w else ws).length = ws.length := by split <;> simp
    obtain ⟨ws', e, l, p⟩ := ih (iw + 1) (if w > ws[i + iw] then ws.set (i + iw) w else ws) (by rw [hl1]; omega)
    refine ⟨ws', ?_, by rw [l, hl1], ?_⟩
    · simp only [updWeights, hget]; exact e
    · intro pos
      rw [p]
      by_cases hpos : pos = i + iw
      · subst hpos
        have a1 : ¬ (i + (iw + 1) ≤ i + iw) := by omega
        simp only [a1, if_false, Nat.le_refl, if_true, Nat.sub_self, List.getElem?_cons_zero, Option.getD_some, hget]
        split
        · rename_i hw
          simp [List.getElem?_set, hlt]; omega
        · simp [hget]; omega
      · have hsame : (if w > ws[i + iw] then ws.set (i + iw) w else ws)[pos]? = ws[pos]? := by
          split
          · rw [List.getElem?_set_ne (Ne.symm hpos)]
          · rfl
        rw [hsame]
        by_cases hle : i + iw ≤ pos
        · have hle' : i + (iw + 1) ≤ pos := by omega
          have hs : pos - (i + iw) = (pos - (i + (iw + 1))) + 1 := by omega
          simp only [hle, hle', if_true, hs, List.getElem?_cons_succ]
        · have hle' : ¬ i + (iw + 1) ≤ pos := by omega
          simp only [hle, hle', if_false]

/-- The weight the substring of length `n` at `i` gives to `pos`. -/
def contrib (pl : Lookup) (rs : List Nat) (n i pos : Nat) : Nat :=
  match find pl (encodeRunes ((rs.drop i).take n)) with
  | none => 0
  | some p => if i ≤ pos then (p.weights[pos - i]?).getD 0 else 0

theorem hyphStep_spec {pl : Lookup} (hok : LookupOk pl) {rs : List Nat} (hv : ∀ r ∈ rs, validRune r = true)
    {n i : Nat} (hi : i + n ≤ rs.length) (ws : List Nat) (hws : ws.length = rs.length + 1) :
    ∃ ws', hyphStep pl rs n i ws = some ws' ∧ ws'.length = rs.length + 1 ∧
      ∀ pos, ws'[pos]? = ws[pos]?.map (fun v => max v (contrib pl rs n i pos)) := by
  have hsl : slice? rs i (i + n) = some ((rs.drop i).take n) := by
    simp [slice?, hi]
  unfold hyphStep contrib
  rw [hsl]
  simp only
  cases hf : find pl (encodeRunes ((rs.drop i).take n)) with
  | none => exact ⟨ws, rfl, hws, by intro pos; simp⟩
  | some p =>
    have hsub : ∀ r ∈ (rs.drop i).take n, validRune r = true :=
      fun r hr => hv r (List.mem_of_mem_drop (List.mem_of_mem_take hr))
    have hlen := (find_weights_length hok hsub hf).2
    have hsublen : ((rs.drop i).take n).length = n := by simp; omega
    rw [hsublen] at hlen
    obtain ⟨ws', e, l, p'⟩ := updWeights_spec i p.weights 0 ws (by omega)
    refine ⟨ws', e, by rw [l, hws], ?_⟩
    simpa using p'

theorem hyphWeights_spec {pl : Lookup} (hok : LookupOk pl) {rs : List Nat} (hv : ∀ r ∈ rs, validRune r = true) :
    ∃ ws, hyphWeights pl rs = some ws ∧ ws.length = rs.length + 1 ∧
      ∀ pos, pos ≤ rs.length → ws[pos]? = some (maxOf ((List.range rs.length).map (fun k =>
        maxOf ((List.range (rs.length - (k + 1) + 1)).map (fun i => contrib pl rs (k + 1) i pos))))) := by
  have hinner : ∀ ws k, k ∈ List.range rs.length → ws.length = rs.length + 1 →
      ∃ ws', (List.range (rs.length - (k + 1) + 1)).foldlM (fun ws i => hyphStep pl rs (k + 1) i ws) ws = some ws' ∧
        ws'.length = rs.length + 1 ∧ ∀ pos, ws'[pos]? = ws[pos]?.map (fun v => max v
          (maxOf ((List.range (rs.length - (k + 1) + 1)).map (fun i => contrib pl rs (k + 1) i pos)))) := by
    intro ws k hk hws
    apply foldM_max (fun ws i => hyphStep pl rs (k + 1) i ws) (fun i pos => contrib pl rs (k + 1) i pos) (rs.length + 1)
    · intro ws i hi hws
      simp only [List.mem_range] at hi hk
      exact hyphStep_spec hok hv (by omega) ws hws
    · exact hws
  obtain ⟨ws', e, l, p⟩ := foldM_max
    (fun ws k => (List.range (rs.length - (k + 1) + 1)).foldlM (fun ws i => hyphStep pl rs (k + 1) i ws) ws)
    (fun k pos => maxOf ((List.range (rs.length - (k + 1) + 1)).map (fun i => contrib pl rs (k + 1) i pos)))
    (rs.length + 1) (List.range rs.length) hinner (List.replicate (rs.length + 1) 0) (by simp)
  refine ⟨ws', e, l, ?_⟩
  intro pos hpos
  rw [p]
  have : (List.replicate (rs.length + 1) 0)[pos]? = some 0 := by
    rw [List.getElem?_replicate]; simp; omega
  rw [this]
  simp

/-- The pattern table as a function from letters to weights. -/
def patFn (pl : Lookup) (letters : List Nat) : Option (List Nat) := (find pl (encodeRunes letters)).map (·.weights)

/-- The value computed for a position is the maximum of the spec. -/
theorem maxWeight_spec {pl : Lookup} (hok : LookupOk pl) {rs : List Nat} (hv : ∀ r ∈ rs, validRune r = true) (pos : Nat) :
    MaxWeight (patFn pl) rs pos (maxOf ((List.range rs.length).map (fun k =>
        maxOf ((List.range (rs.length - (k + 1) + 1)).map (fun i => contrib pl rs (k + 1) i pos))))) := by
  constructor
  · rintro w ⟨letters, weights, o, k, hne, hp, ho, ht, hw, rfl⟩
    have hlen : 0 < letters.length := List.length_pos_iff.mpr hne
    have hc : contrib pl rs letters.length o (o + k) = w := by
      unfold contrib
      rw [ht]
      unfold patFn at hp
      cases hf : find pl (encodeRunes letters) with
      | none => rw [hf] at hp; simp at hp
      | some p =>
        rw [hf] at hp
        simp only [Option.map_some, Option.some.injEq] at hp
        simp [hp, hw]
    have h1 : w ≤ maxOf ((List.range (rs.length - (letters.length - 1 + 1) + 1)).map
        (fun i => contrib pl rs (letters.length - 1 + 1) i (o + k))) := by
      apply le_maxOf
      rw [List.mem_map]
      refine ⟨o, ?_, ?_⟩
      · rw [List.mem_range]; omega
      · rw [Nat.sub_add_cancel hlen]; exact hc
    refine Nat.le_trans h1 (le_maxOf ?_)
    rw [List.mem_map]
    exact ⟨letters.length - 1, by rw [List.mem_range]; omega, rfl⟩
  · rcases maxOf_attained ((List.range rs.length).map (fun k =>
        maxOf ((List.range (rs.length - (k + 1) + 1)).map (fun i => contrib pl rs (k + 1) i pos)))) with h0 | h1
    · left; exact h0
    · rw [List.mem_map] at h1
      obtain ⟨k, hk, he⟩ := h1
      rw [← he]
      rcases maxOf_attained ((List.range (rs.length - (k + 1) + 1)).map (fun i => contrib pl rs (k + 1) i pos)) with h0 | h1
      · left; exact h0
      · rw [List.mem_map] at h1
        obtain ⟨i, hi, hc⟩ := h1
        rw [← hc]
        rw [List.mem_range] at hk hi
        have hsublen : ((rs.drop i).take (k + 1)).length = k + 1 := by simp; omega
        unfold contrib
        cases hf : find pl (encodeRunes ((rs.drop i).take (k + 1))) with
        | none => left; rfl
        | some p =>
          simp only
          split
          · rename_i hle
            cases hg : p.weights[pos - i]? with
            | none => left; rfl
            | some w =>
              right
              refine ⟨(rs.drop i).take (k + 1), p.weights, i, pos - i, ?_, ?_, ?_, ?_, hg, by omega⟩
              · intro h; rw [h] at hsublen; simp at hsublen
              · simp [patFn, hf]
              · omega
              · rw [hsublen]
          · left; rfl

theorem MaxWeight.unique {pats : List Nat → Option (List Nat)} {D : List Nat} {pos v v' : Nat}
    (h : MaxWeight pats D pos v) (h' : MaxWeight pats D pos v') : v = v' := by
  apply Nat.le_antisymm
  · rcases h.2 with rfl | hg
    · omega
    · exact h'.1 v hg
  · rcases h'.2 with rfl | hg
    · omega
    · exact h.1 v' hg

/-! ### Cutting -/

/-- The cut positions. -/
def cutsOf : (i last : Nat) → List Nat → List Nat
  | _, _, [] => []
  | i, last, w :: ws =>
    if w % 2 = 1 ∧ last + 2 ≤ i + 1 then (i + 1) :: cutsOf (i + 1) (i + 1) ws else cutsOf (i + 1) last ws

def lastOf (last : Nat) (cuts : List Nat) : Nat := cuts.getLast?.getD last

/-- Pieces before the rest. -/
def initPieces (s : Str) : (last : Nat) → List Nat → List Str
  | _, [] => []
  | last, c :: cs => (s.drop last).take (c - last) :: initPieces s c cs

theorem lastOf_cons (last c : Nat) (cs : List Nat) : lastOf last (c :: cs) = lastOf c cs := by
  cases cs with
  | nil => rfl
  | cons d ds => simp [lastOf, List.getLast?_cons]

theorem pieces_eq (s : Str) : ∀ (cuts : List Nat) (last : Nat),
    pieces s last cuts = initPieces s last cuts ++ [s.drop (lastOf last cuts)] := by
  intro cuts
  induction cuts with
  | nil => intro last; rfl
  | cons c cs ih => intro last; simp [pieces, initPieces, ih, lastOf_cons]

theorem cutLoop_spec (s : Str) : ∀ (ws : List Nat) (i : Nat) (sl : List Str) (last : Nat), last ≤ i →
    i + ws.length ≤ s.length →
    cutLoop s i ws sl last = some (sl ++ initPieces s last (cutsOf i last ws), lastOf last (cutsOf i last ws)) := by
  intro ws
  induction ws with
  | nil => intro i sl last _ _; simp [cutLoop, cutsOf, initPieces, lastOf]
  | cons w ws ih =>
    intro i sl last h1 h2
    simp only [List.length_cons] at h2
    simp only [cutLoop, cutsOf]
    by_cases hw : w % 2 = 1
    · have hsl : slice? s last (i + 1) = some ((s.drop last).take (i + 1 - last)) := by
        simp only [slice?]; rw [if_pos (by omega)]
      have hlen : ((s.drop last).take (i + 1 - last)).length = i + 1 - last := by simp; omega
      simp only [hw, if_true, hsl, true_and, hlen]
      by_cases hl : last + 2 ≤ i + 1
      · have : i + 1 - last > 1 := by omega
        simp only [this, if_true, hl]
        rw [ih (i + 1) _ (i + 1) (by omega) (by omega)]
        simp [initPieces, lastOf_cons]
      · have : ¬ i + 1 - last > 1 := by omega
        simp only [this, if_false, hl]
        exact ih (i + 1) sl last (by omega) (by omega)
    · simp only [hw, if_false, false_and]
      exact ih (i + 1) sl last (by omega) (by omega)

theorem cutsOf_range : ∀ (ws : List Nat) (i last : Nat), ∀ c ∈ cutsOf i last ws, i + 1 ≤ c ∧ c ≤ i + ws.length := by
  intro ws
  induction ws with
  | nil => intro i last c hc; simp [cutsOf] at hc
  | cons w ws ih =>
    intro i last c hc
    simp only [cutsOf] at hc
    simp only [List.length_cons]
    split at hc
    · simp only [List.mem_cons] at hc
      rcases hc with rfl | hc
      · omega
      · have := ih _ _ c hc; omega
    · have := ih _ _ c hc; omega

theorem cutsOf_sorted : ∀ (ws : List Nat) (i last : Nat), (cutsOf i last ws).Pairwise (· < ·) := by
  intro ws
  induction ws with
  | nil => intro i last; simp [cutsOf]
  | cons w ws ih =>
    intro i last
    simp only [cutsOf]
    split
    · refine List.Pairwise.cons ?_ (ih _ _)
      intro c hc
      have := cutsOf_range _ _ _ c hc; omega
    · exact ih _ _

/-- Consecutive cuts are at least two apart. -/
theorem initPieces_length (s : Str) : ∀ (ws : List Nat) (i last : Nat), i + ws.length ≤ s.length → last ≤ i →
    ∀ p ∈ initPieces s last (cutsOf i last ws), 2 ≤ p.length := by
  intro ws
  induction ws with
  | nil => intro i last _ _ p hp; simp [cutsOf, initPieces] at hp
  | cons w ws ih =>
    intro i last h1 h2 p hp
    simp only [List.length_cons] at h1
    simp only [cutsOf] at hp
    split at hp
    · rename_i hw
      simp only [initPieces, List.mem_cons] at hp
      rcases hp with rfl | hp
      · simp; omega
      · exact ih (i + 1) (i + 1) (by omega) (by omega) p hp
    · exact ih (i + 1) last (by omega) (by omega) p hp

def prevFrom (base : Nat) (cuts : List Nat) (k : Nat) : Nat := (cuts.filter (· < k)).foldl max base

theorem prevFrom_none {base : Nat} {cuts : List Nat} {k : Nat} (h : ∀ c ∈ cuts, k ≤ c) : prevFrom base cuts k = base := by
  have : cuts.filter (· < k) = [] := by
    rw [List.filter_eq_nil_iff]; intro c hc; have := h c hc; simp; omega
  simp [prevFrom, this]

theorem mem_cutsOf : ∀ (ws : List Nat) (i last k : Nat), last ≤ i → i + 1 ≤ k → k ≤ i + ws.length →
    (k ∈ cutsOf i last ws ↔ (∃ w, ws[k - 1 - i]? = some w ∧ w % 2 = 1) ∧ prevFrom last (cutsOf i last ws) k + 2 ≤ k) := by
  intro ws
  induction ws with
  | nil => intro i last k _ h1 h2; simp at h2; omega
  | cons w ws ih =>
    intro i last k hl h1 h2
    simp only [List.length_cons] at h2
    by_cases hk : k = i + 1
    · subst hk
      have hidx : i + 1 - 1 - i = 0 := by omega
      have hprev : prevFrom last (cutsOf i last (w :: ws)) (i + 1) = last := by
        apply prevFrom_none
        intro c hc
        exact (cutsOf_range _ _ _ c hc).1
      rw [hprev, hidx]
      simp only [List.getElem?_cons_zero, Option.some.injEq, exists_eq_left']
      simp only [cutsOf]
      split
      · rename_i hw; simp [hw]
      · rename_i hw
        constructor
        · intro hc
          have := cutsOf_range _ _ _ _ hc; omega
        · rintro ⟨a, b⟩; exact absurd ⟨a, b⟩ hw
    · have hidx : k - 1 - i = (k - 1 - (i + 1)) + 1 := by omega
      rw [hidx, List.getElem?_cons_succ]
      simp only [cutsOf]
      split
      · rename_i hw
        have := ih (i + 1) (i + 1) k (by omega) (by omega) (by omega)
        simp only [List.mem_cons, hk, false_or]
        rw [this]
        have hp : prevFrom last ((i + 1) :: cutsOf (i + 1) (i + 1) ws) k = prevFrom (i + 1) (cutsOf (i + 1) (i + 1) ws) k := by
          unfold prevFrom
          have : decide (i + 1 < k) = true := by simp; omega
          rw [List.filter_cons, if_pos this, List.foldl_cons, Nat.max_eq_right (by omega)]
        rw [hp]
      · exact ih (i + 1) last k (by omega) (by omega) (by omega)

/-! ### The whole function -/

theorem decodeRunes_dotted (lower : Nat → Nat) (s : Str) :
    decodeRunes ([46] ++ toLower lower s ++ [46]) = 46 :: decodeRunes (toLower lower s ++ [46]) := by
  have : [46] ++ toLower lower s ++ [46] = 46 :: (toLower lower s ++ [46]) := by simp
  rw [this, decodeRunes_ascii_cons (by decide)]
  rfl

/-- Runes of a text followed by an ASCII dot: the dot is never swallowed by an incomplete sequence. -/
theorem decodeAux_append_dot : ∀ (s : Str) (k : Nat), k ≤ s.length →
    decodeAux k (s ++ [46]) = decodeAux k s ++ [46] := by
  have h46 : ∀ lo hi : Nat, 0x80 ≤ lo → inRange lo hi 46 = false := by
    intro lo hi h
    have : (46 : UInt8).toNat = 46 := rfl
    simp [inRange, this]; omega
  have hlo : ∀ b, 0x80 ≤ secondLo b := by
    intro b; unfold secondLo; split
    · omega
    · split <;> omega
  have hdec : ∀ (c : UInt8) (cs : Str), decodeRune c (cs ++ [46]) = decodeRune c cs ∧ (decodeRune c cs).2 - 1 ≤ cs.length := by
    intro c cs
    unfold decodeRune
    simp only
    split
    · simp
    split
    · match cs with
      | [] => simp [h46 0x80 0xBF (by omega)]
      | b1 :: t =>
        simp only [List.cons_append]
        split <;> simp
    split
    · match cs with
      | [] => simp
      | [b1] => simp [h46 0x80 0xBF (by omega)]
      | b1 :: b2 :: t =>
        simp only [List.cons_append]
        split <;> simp
    split
    · match cs with
      | [] => simp
      | [b1] => simp
      | [b1, b2] => simp [h46 0x80 0xBF (by omega)]
      | b1 :: b2 :: b3 :: t =>
        simp only [List.cons_append]
        split <;> simp
    · simp
  intro s
  induction s with
  | nil =>
    intro k hk
    have : k = 0 := by simpa using hk
    subst this
    decide
  | cons c cs ih =>
    intro k hk
    cases k with
    | succ k =>
      simp only [List.cons_append, decodeAux]
      exact ih k (by simpa using hk)
    | zero =>
      simp only [List.cons_append, decodeAux, (hdec c cs).1]
      rw [ih _ (hdec c cs).2]

theorem dotted_runes (lower : Nat → Nat) (s : Str) :
    decodeRunes ([46] ++ toLower lower s ++ [46]) = 46 :: decodeRunes (toLower lower s) ++ [46] := by
  rw [decodeRunes_dotted]
  have := decodeAux_append_dot (toLower lower s) 0 (by omega)
  simp only [decodeRunes, this, List.cons_append]

/-- The values of `ws[2:len(ws)-2]` for a dotted word. -/
theorem hyphenate_eq {lower : Nat → Nat} {pl : Lookup} (hok : LookupOk pl) {s : Str}
    (h3 : 3 ≤ s.length) (hsp : 32 ∉ s) (h100 : s.length ≤ 100) :
    ∃ mid : List Nat, mid.length = (decodeRunes s).length - 1 ∧
      (∀ k v, mid[k]? = some v → MaxWeight (patFn pl) (46 :: decodeRunes (toLower lower s) ++ [46]) (k + 2) v) ∧
      hyphenate lower pl s = some (
        if (s.drop (lastOf 0 (cutsOf 0 0 mid))).length > 1 then pieces s 0 (cutsOf 0 0 mid)
        else initPieces s 0 (cutsOf 0 0 mid)) := by
  have hv : ∀ r ∈ decodeRunes ([46] ++ toLower lower s ++ [46]), validRune r = true := decodeRunes_valid _
  obtain ⟨ws, e, l, p⟩ := hyphWeights_spec hok hv
  have hDlen : (decodeRunes ([46] ++ toLower lower s ++ [46])).length = (decodeRunes s).length + 2 := by
    rw [dotted_runes]; simp [toLower_runes_length]
  have hn1 : 1 ≤ (decodeRunes s).length := by
    have : decodeRunes s ≠ [] := decodeRunes_ne_nil (by intro h; subst h; simp at h3)
    exact List.length_pos_iff.mpr this
  have hnle := decodeRunes_length_le s
  have hsl : slice? ws 2 (ws.length - 2) = some ((ws.drop 2).take (ws.length - 2 - 2)) := by
    unfold slice?; rw [if_pos]; constructor <;> omega
  refine ⟨(ws.drop 2).take (ws.length - 2 - 2), ?_, ?_, ?_⟩
  · simp; omega
  · intro k v hk
    rw [List.getElem?_take] at hk
    split at hk
    · rw [List.getElem?_drop] at hk
      have := p (2 + k) (by omega)
      rw [this] at hk
      injection hk with hk
      rw [← hk, ← dotted_runes, Nat.add_comm k 2]
      exact maxWeight_spec hok hv (2 + k)
    · cases hk
  · unfold hyphenate
    have a1 : ¬ s.length < 3 := by omega
    have a2 : ¬ s.length > 100 := by omega
    simp only [a1, if_false, hsp, a2, e, hsl]
    have hmid : ((ws.drop 2).take (ws.length - 2 - 2)).length = (decodeRunes s).length - 1 := by
      simp; omega
    rw [cutLoop_spec s _ 0 [] 0 (by omega) (by omega)]
    simp only [List.nil_append]
    have hlast : lastOf 0 (cutsOf 0 0 ((ws.drop 2).take (ws.length - 2 - 2))) ≤ s.length := by
      unfold lastOf
      cases hg : (cutsOf 0 0 ((ws.drop 2).take (ws.length - 2 - 2))).getLast? with
      | none => simp
      | some c =>
        have := cutsOf_range _ _ _ c (List.mem_of_getLast? hg)
        simp only [Option.getD_some]; omega
    have hs2 : slice? s (lastOf 0 (cutsOf 0 0 ((ws.drop 2).take (ws.length - 2 - 2)))) s.length
        = some (s.drop (lastOf 0 (cutsOf 0 0 ((ws.drop 2).take (ws.length - 2 - 2))))) := by
      unfold slice?; rw [if_pos ⟨hlast, Nat.le_refl _⟩]
      congr 1
      rw [List.take_of_length_le]; simp
    simp only [hs2, pieces_eq]

theorem cuts_unique {pats : List Nat → Option (List Nat)} {D : List Nat} {n : Nat} {cuts cuts' : List Nat}
    (h : LiangCuts pats D n cuts) (h' : LiangCuts pats D n cuts') : cuts = cuts' := by
  have key : ∀ k, (∀ j < k, j ∈ cuts ↔ j ∈ cuts') → prevCut cuts k = prevCut cuts' k := by
    intro k hj
    have : cuts.filter (· < k) = cuts'.filter (· < k) := by
      refine List.Pairwise.eq_of_mem_iff (r := (· < ·)) (h.1.filter _) (h'.1.filter _) fun j => ?_
      simp only [List.mem_filter, decide_eq_true_eq]
      constructor
      · rintro ⟨a, b⟩; exact ⟨(hj j b).mp a, b⟩
      · rintro ⟨a, b⟩; exact ⟨(hj j b).mpr a, b⟩
    unfold prevCut
    rw [this]
  refine List.Pairwise.eq_of_mem_iff (r := (· < ·)) h.1 h'.1 fun k => ?_
  induction k using Nat.strong_induction_on with
  | _ k ih => rw [h.2 k, h'.2 k, key k ih]

/-- The same with the cuts as specified. -/
theorem hyphenate_cuts {lower : Nat → Nat} {pl : Lookup} (hok : LookupOk pl) {s : Str}
    (h3 : 3 ≤ s.length) (hsp : 32 ∉ s) (h100 : s.length ≤ 100) :
    ∃ mid : List Nat, mid.length = (decodeRunes s).length - 1 ∧
      LiangCuts (patFn pl) (46 :: decodeRunes (toLower lower s) ++ [46]) (decodeRunes s).length (cutsOf 0 0 mid) ∧
      hyphenate lower pl s = some (
        if (s.drop (lastOf 0 (cutsOf 0 0 mid))).length > 1 then pieces s 0 (cutsOf 0 0 mid)
        else initPieces s 0 (cutsOf 0 0 mid)) := by
  obtain ⟨mid, hm, hw, e⟩ := hyphenate_eq (lower := lower) hok (s := s) h3 hsp h100
  refine ⟨mid, hm, ⟨cutsOf_sorted _ _ _, fun k => ?_⟩, e⟩
  have hpc : prevCut (cutsOf 0 0 mid) k = prevFrom 0 (cutsOf 0 0 mid) k := rfl
  constructor
  · intro hk
    have hr := cutsOf_range _ _ _ k hk
    have := (mem_cutsOf mid 0 0 k (by omega) (by omega) (by omega)).mp hk
    obtain ⟨⟨w, hwk, hodd⟩, hprev⟩ := this
    refine ⟨by omega, by rw [hpc]; exact hprev, w, ?_, hodd⟩
    have := hw _ w hwk
    have he : k - 1 - 0 + 2 = k + 1 := by omega
    rw [he] at this; exact this
  · rintro ⟨hk1, hk2, v, hv, hodd⟩
    rw [hpc] at hk2
    refine (mem_cutsOf mid 0 0 k (by omega) (by omega) (by omega)).mpr ⟨?_, hk2⟩
    have hlt : k - 1 - 0 < mid.length := by omega
    have hget : mid[k - 1 - 0]? = some mid[k - 1 - 0] := List.getElem?_eq_getElem hlt
    have := hw _ _ hget
    have he : k - 1 - 0 + 2 = k + 1 := by omega
    rw [he] at this
    refine ⟨_, hget, ?_⟩
    rw [MaxWeight.unique this hv]; exact hodd

end Verif.Proofs
