import Mathlib.Tactic.IntervalCases
import Verif.Go.Space
import Verif.Spec.Space
import Verif.Proofs.Utf8
import Verif.Proofs.Bytes
/-
White space in strings: `strings.Fields` and `strings.TrimSpace`.
-/
namespace Verif.Proofs
open Verif.Go Verif.Spec

theorem width_pos (c : UInt8) (cs : Str) : 1 ≤ (decodeRune c cs).2 := by
  unfold decodeRune; dsimp only; repeat' split
  all_goals simp

theorem width_le (c : UInt8) (cs : Str) : (decodeRune c cs).2 ≤ cs.length + 1 := by
  unfold decodeRune; dsimp only; repeat' split
  all_goals simp

theorem chunksAux_skip : ∀ (k : Nat) (s : Str), chunksAux k s = chunksAux 0 (s.drop k)
  | 0, s => by simp
  | k + 1, [] => by simp [chunksAux]
  | k + 1, c :: cs => by simp only [chunksAux, List.drop_succ_cons]; exact chunksAux_skip k cs

theorem chunks_cons (c : UInt8) (cs : Str) : chunks (c :: cs) =
    ((decodeRune c cs).1, (c :: cs).take (decodeRune c cs).2) :: chunks ((c :: cs).drop (decodeRune c cs).2) := by
  have h := width_pos c cs
  obtain ⟨n, hn⟩ : ∃ n, (decodeRune c cs).2 = n + 1 := ⟨_, (Nat.sub_add_cancel h).symm⟩
  unfold chunks
  rw [chunksAux, hn, chunksAux_skip]
  simp

/-- The bytes of the chunks. -/
def bytesOf (cs : List (Nat × Str)) : Str := cs.flatMap (·.2)

theorem flat_append (a b : List (Nat × Str)) : bytesOf (a ++ b) = bytesOf a ++ bytesOf b := by simp [bytesOf]

theorem flat_chunks : ∀ (n : Nat) (s : Str), s.length ≤ n → bytesOf (chunks s) = s
  | 0, s, h => by rw [List.length_eq_zero_iff.mp (Nat.le_zero.mp h)]; rfl
  | n + 1, [], _ => rfl
  | n + 1, c :: cs, h => by
      have hp := width_pos c cs
      rw [chunks_cons]
      show _ ++ bytesOf (chunks _) = _
      rw [flat_chunks n _ (by simp only [List.length_drop, List.length_cons] at h ⊢; omega), List.take_append_drop]

theorem flat_chunks' (s : Str) : bytesOf (chunks s) = s := flat_chunks _ s le_rfl

/-- Bytes that do not continue a character. -/
def Stop (x : UInt8) : Prop := x.toNat < 0x80 ∨ 0xC0 ≤ x.toNat

theorem inRange_stop {x : UInt8} (h : Stop x) (a : Nat) (b : Nat) (ha : 0x80 ≤ a) (hb : b ≤ 0xBF) : inRange a b x = false := by
  unfold inRange Stop at *
  simp only [Bool.and_eq_false_iff, decide_eq_false_iff_not]
  omega

theorem decodeRune_stop {x : UInt8} (h : Stop x) (c : UInt8) (cs t : Str) : decodeRune c (cs ++ x :: t) = decodeRune c cs := by
  have h1 := inRange_stop h 0x80 0xBF le_rfl le_rfl
  have h2 := inRange_stop h (secondLo c.toNat) (secondHi c.toNat) (by unfold secondLo; split_ifs <;> omega) (by unfold secondHi; split_ifs <;> omega)
  rcases cs with _ | ⟨a, _ | ⟨b, _ | ⟨d, cs⟩⟩⟩
  · rcases t with _ | ⟨u, _ | ⟨v, t⟩⟩ <;> simp [decodeRune, h1, h2]
  · rcases t with _ | ⟨u, t⟩ <;> simp [decodeRune, h1]
  · simp [decodeRune, h1]
  · simp [decodeRune]

theorem chunks_append {t : Str} (ht : ∀ x, t.head? = some x → Stop x) : ∀ (n : Nat) (w : Str), w.length ≤ n → chunks (w ++ t) = chunks w ++ chunks t
  | 0, w, h => by rw [List.length_eq_zero_iff.mp (Nat.le_zero.mp h)]; rfl
  | n + 1, [], _ => rfl
  | n + 1, c :: cs, h => by
      have hp := width_pos c cs
      have hl := width_le c cs
      have e : decodeRune c (cs ++ t) = decodeRune c cs := by
        cases t with
        | nil => simp
        | cons x t => exact decodeRune_stop (ht x rfl) c cs t
      rw [List.cons_append, chunks_cons, chunks_cons, e, ← List.cons_append, List.take_append_of_le_length (by simpa using hl),
        List.drop_append_of_le_length (by simpa using hl), chunks_append ht n _ (by simp only [List.length_drop, List.length_cons] at h ⊢; omega),
        List.cons_append]

theorem space_first {sp : Str} (h : sp ∈ spaceChars) : ∃ r, isSpaceRune r = true ∧ ∀ t, chunks (sp ++ t) = (r, sp) :: chunks t := by
  refine ⟨(decodeRunes sp).headD 0, ?_⟩
  simp only [spaceChars, List.mem_cons, List.not_mem_nil, or_false] at h
  rcases h with rfl | rfl | rfl | rfl | rfl | rfl | rfl | rfl | rfl | rfl | rfl | rfl | rfl | rfl | rfl | rfl | rfl | rfl | rfl | rfl | rfl | rfl |
    rfl | rfl | rfl <;> exact ⟨by decide, fun t => rfl⟩

theorem space_stop {sp : Str} (h : sp ∈ spaceChars) : ∃ x t, sp = x :: t ∧ Stop x := by
  simp only [spaceChars, List.mem_cons, List.not_mem_nil, or_false] at h
  rcases h with rfl | rfl | rfl | rfl | rfl | rfl | rfl | rfl | rfl | rfl | rfl | rfl | rfl | rfl | rfl | rfl | rfl | rfl | rfl | rfl | rfl | rfl |
    rfl | rfl | rfl <;> exact ⟨_, _, rfl, by unfold Stop; decide⟩

private theorem byte_eq {c : UInt8} {k : Nat} (h : c.toNat = k) (hk : k < 256) : c = UInt8.ofNat k := by
  apply UInt8.toNat_inj.mp; rw [h]; simp; omega

private theorem second_lo (b0 : Nat) : 0x80 ≤ secondLo b0 ∧ (b0 = 0xE0 → 0xA0 ≤ secondLo b0) ∧ (b0 = 0xF0 → 0x90 ≤ secondLo b0) := by
  unfold secondLo; split_ifs <;> omega

private theorem second_hi (b0 : Nat) : secondHi b0 ≤ 0xBF := by
  unfold secondHi; split_ifs <;> omega

private theorem three {c b1 b2 : Nat} (h1 : 0xE0 ≤ c) (h2 : c ≤ 0xEF) (h3 : 0x80 ≤ b1) (h4 : b1 ≤ 0xBF) (h5 : 0x80 ≤ b2) (h6 : b2 ≤ 0xBF)
    (h7 : c = 0xE0 → 0xA0 ≤ b1) {r : Nat} (h : ((((((((((9 ≤ r ∧ r ≤ 13) ∨ r = 0x20) ∨ r = 0x85) ∨ r = 0xA0) ∨ r = 0x1680) ∨ (0x2000 ≤ r ∧ r ≤ 0x200A)) ∨
      r = 0x2028) ∨ r = 0x2029) ∨ r = 0x202F) ∨ r = 0x205F) ∨ r = 0x3000)
    (hr : r = (c - 0xE0) * 0x1000 + (b1 - 0x80) * 0x40 + (b2 - 0x80) := by rfl) :
    (c = 0xE1 ∧ b1 = 0x9A ∧ b2 = 0x80) ∨ (c = 0xE2 ∧ b1 = 0x80 ∧ 0x80 ≤ b2 ∧ b2 ≤ 0x8A) ∨ (c = 0xE2 ∧ b1 = 0x80 ∧ b2 = 0xA8) ∨
      (c = 0xE2 ∧ b1 = 0x80 ∧ b2 = 0xA9) ∨ (c = 0xE2 ∧ b1 = 0x80 ∧ b2 = 0xAF) ∨ (c = 0xE2 ∧ b1 = 0x81 ∧ b2 = 0x9F) ∨
      (c = 0xE3 ∧ b1 = 0x80 ∧ b2 = 0x80) := by
  obtain ⟨x, rfl⟩ : ∃ x, c = x + 0xE0 := ⟨c - 0xE0, by omega⟩
  obtain ⟨y, rfl⟩ : ∃ y, b1 = y + 0x80 := ⟨b1 - 0x80, by omega⟩
  obtain ⟨z, rfl⟩ : ∃ z, b2 = z + 0x80 := ⟨b2 - 0x80, by omega⟩
  simp only [Nat.add_sub_cancel] at hr
  have h7' : x = 0 → 0x20 ≤ y := fun e => by have := h7 (by omega); omega
  clear h7
  have hx : x ≤ 3 := by omega
  rcases h with (((((((((h | h) | h) | h) | h) | h) | h) | h) | h) | h) | h
  · exfalso; interval_cases x <;> omega
  · exfalso; interval_cases x <;> omega
  · exfalso; interval_cases x <;> omega
  · exfalso; interval_cases x <;> omega
  · refine .inl ?_; interval_cases x <;> omega
  · refine .inr (.inl ?_); interval_cases x <;> omega
  · refine .inr (.inr (.inl ?_)); interval_cases x <;> omega
  · refine .inr (.inr (.inr (.inl ?_))); interval_cases x <;> omega
  · refine .inr (.inr (.inr (.inr (.inl ?_)))); interval_cases x <;> omega
  · refine .inr (.inr (.inr (.inr (.inr (.inl ?_))))); interval_cases x <;> omega
  · refine .inr (.inr (.inr (.inr (.inr (.inr ?_))))); interval_cases x <;> omega

theorem space_rune (c : UInt8) (cs : Str) (h : isSpaceRune (decodeRune c cs).1 = true) : (c :: cs).take (decodeRune c cs).2 ∈ spaceChars := by
  unfold decodeRune at h ⊢
  dsimp only at h ⊢
  split at h
  · rename_i h0
    rw [if_pos h0]
    simp only [isSpaceRune, Bool.or_eq_true, Bool.and_eq_true, beq_iff_eq, decide_eq_true_eq] at h
    have : c.toNat = 9 ∨ c.toNat = 10 ∨ c.toNat = 11 ∨ c.toNat = 12 ∨ c.toNat = 13 ∨ c.toNat = 32 := by omega
    rcases this with h | h | h | h | h | h <;> rw [byte_eq h (by omega)] <;> simp [spaceChars]
  rename_i h0
  rw [if_neg h0]
  split at h
  · rename_i h1
    rw [if_pos h1]
    split at h
    · split at h
      · rename_i b1 rest h2
        rw [if_pos h2]
        simp only [isSpaceRune, inRange, Bool.or_eq_true, Bool.and_eq_true, beq_iff_eq, decide_eq_true_eq] at h h1 h2
        have : c.toNat = 0xC2 ∧ (b1.toNat = 0x85 ∨ b1.toNat = 0xA0) := by omega
        obtain ⟨hc, hb | hb⟩ := this <;> rw [byte_eq hc (by omega), byte_eq hb (by omega)] <;> simp [spaceChars]
      · simp [isSpaceRune, runeError] at h
    · simp [isSpaceRune, runeError] at h
  rename_i h1
  rw [if_neg h1]
  split at h
  · rename_i h2
    rw [if_pos h2]
    split at h
    · split at h
      · rename_i b1 b2 rest h3
        rw [if_pos h3]
        simp only [isSpaceRune, inRange, Bool.or_eq_true, Bool.and_eq_true, beq_iff_eq, decide_eq_true_eq] at h h2 h3
        have hlo := second_lo c.toNat
        have hhi := second_hi c.toNat
        have := three h2.1 h2.2 (le_trans hlo.1 h3.1.1) (le_trans h3.1.2 hhi) h3.2.1 h3.2.2 (fun e => le_trans (hlo.2.1 e) h3.1.1) h
        rcases this with ⟨a, b, d⟩ | ⟨a, b, d, d'⟩ | ⟨a, b, d⟩ | ⟨a, b, d⟩ | ⟨a, b, d⟩ | ⟨a, b, d⟩ | ⟨a, b, d⟩
        · rw [byte_eq a (by omega), byte_eq b (by omega), byte_eq d (by omega)]; simp [spaceChars]
        · rw [byte_eq a (by omega), byte_eq b (by omega)]
          generalize hk : b2.toNat = k at d d'
          rw [byte_eq hk (by omega)]
          interval_cases k <;> simp [spaceChars]
        all_goals rw [byte_eq a (by omega), byte_eq b (by omega), byte_eq d (by omega)]; simp [spaceChars]
      · simp [isSpaceRune, runeError] at h
    · simp [isSpaceRune, runeError] at h
  rename_i h2
  rw [if_neg h2]
  split at h
  · rename_i h3
    split at h
    · split at h
      · rename_i b1 b2 b3 rest h4
        exfalso
        simp only [isSpaceRune, inRange, Bool.or_eq_true, Bool.and_eq_true, beq_iff_eq, decide_eq_true_eq] at h h3 h4
        have hlo := second_lo c.toNat
        have h90 : c.toNat = 0xF0 → 0x90 ≤ b1.toNat := fun e => le_trans (hlo.2.2 e) h4.1.1.1
        have h80 := le_trans hlo.1 h4.1.1.1
        by_cases e : c.toNat = 0xF0
        · have := h90 e; omega
        · omega
      · simp [isSpaceRune, runeError] at h
    · simp [isSpaceRune, runeError] at h
  · simp [isSpaceRune, runeError] at h

theorem space_chunk : ∀ (n : Nat) (s : Str), s.length ≤ n → ∀ c ∈ chunks s, isSpaceRune c.1 = true → c.2 ∈ spaceChars
  | 0, s, h, c, hc, _ => by rw [List.length_eq_zero_iff.mp (Nat.le_zero.mp h)] at hc; simp [chunks, chunksAux] at hc
  | n + 1, [], _, c, hc, _ => by simp [chunks, chunksAux] at hc
  | n + 1, b :: bs, h, c, hc, hs => by
      have hp := width_pos b bs
      rw [chunks_cons] at hc
      rcases List.mem_cons.mp hc with rfl | hc
      · exact space_rune b bs hs
      · exact space_chunk n _ (by simp only [List.length_drop, List.length_cons] at h ⊢; omega) c hc hs

theorem chunks_suffix : ∀ (A R : List (Nat × Str)) (s : Str), chunks s = A ++ R → chunks (bytesOf R) = R
  | [], R, s, h => by rw [List.nil_append] at h; rw [← h, flat_chunks']
  | a :: A, R, [], h => by simp [chunks, chunksAux] at h
  | a :: A, R, c :: cs, h => by
      rw [chunks_cons, List.cons_append, List.cons.injEq] at h
      exact chunks_suffix A R _ h.2

/-- White space stands for itself. -/
theorem chunks_blank {a : Str} (h : Whites a) : ∃ A : List (Nat × Str), (∀ c ∈ A, isSpaceRune c.1 = true) ∧ ∀ t, chunks (a ++ t) = A ++ chunks t := by
  obtain ⟨cs, hc, rfl⟩ := h
  induction cs with
  | nil => exact ⟨[], by simp, fun t => rfl⟩
  | cons c cs ih =>
    obtain ⟨A, hA, hA'⟩ := ih fun x hx => hc x (by simp [hx])
    obtain ⟨r, hr, hrt⟩ := space_first (hc c (by simp))
    refine ⟨(r, c) :: A, by rintro x (_ | ⟨_, hx⟩); exacts [hr, hA x hx], fun t => ?_⟩
    rw [List.flatten_cons, List.append_assoc, hrt, hA', List.cons_append]

theorem blank_flat {A : List (Nat × Str)} (h : ∀ c ∈ A, c.2 ∈ spaceChars) : Whites (bytesOf A) :=
  ⟨A.map (·.2), by simpa using fun y x hx => h (x, y) hx, by simp [bytesOf, List.flatMap_def]⟩

theorem blank_stop {b : Str} (h : Whites b) : ∀ x, b.head? = some x → Stop x := by
  obtain ⟨cs, hc, rfl⟩ := h
  cases cs with
  | nil => simp
  | cons c cs =>
    obtain ⟨x, t, rfl, hx⟩ := space_stop (hc c (by simp))
    intro y hy
    simp only [List.flatten_cons, List.cons_append, List.head?_cons, Option.some.injEq] at hy
    exact hy ▸ hx

theorem chunks_append' {t : Str} (ht : ∀ x, t.head? = some x → Stop x) (w : Str) : chunks (w ++ t) = chunks w ++ chunks t :=
  chunks_append ht _ w le_rfl

/-- If `sp` stands in `w`, then there is a space. -/
theorem infix_space {sp w : Str} (h : sp ∈ spaceChars) (hw : sp <:+: w) : ∃ c ∈ chunks w, isSpaceRune c.1 = true := by
  obtain ⟨u, v, rfl⟩ := hw
  obtain ⟨r, hr, e⟩ := space_first h
  obtain ⟨x, t, rfl, hx⟩ := space_stop h
  refine ⟨(r, x :: t), ?_, hr⟩
  rw [List.append_assoc, chunks_append' (by intro y hy; simp only [List.cons_append, List.head?_cons, Option.some.injEq] at hy; exact hy ▸ hx), e]
  simp

theorem chunk_infix {s : Str} {c : Nat × Str} (h : c ∈ chunks s) : c.2 <:+: s := by
  obtain ⟨A, B, e⟩ := List.append_of_mem h
  refine ⟨bytesOf A, bytesOf B, ?_⟩
  conv => rhs; rw [← flat_chunks' s, e]
  simp [bytesOf]

/-! ### strings.Fields -/

theorem fieldsAux_word : ∀ (W R : List (Nat × Str)) (cur : Str), (∀ c ∈ W, isSpaceRune c.1 = false) →
    fieldsAux cur (W ++ R) = fieldsAux (cur ++ bytesOf W) R
  | [], R, cur, _ => by simp [bytesOf]
  | c :: W, R, cur, h => by
      simp only [List.cons_append, fieldsAux, h c (by simp)]
      rw [if_neg (by simp), fieldsAux_word W R _ (fun x hx => h x (by simp [hx]))]
      simp [bytesOf]

theorem fieldsAux_seps : ∀ (A R : List (Nat × Str)), (∀ c ∈ A, isSpaceRune c.1 = true) → fieldsAux [] (A ++ R) = fieldsAux [] R
  | [], R, _ => rfl
  | c :: A, R, h => by
      simp only [List.cons_append, fieldsAux, h c (by simp), if_true]
      exact fieldsAux_seps A R (fun x hx => h x (by simp [hx]))

private theorem rest_stop {rest : Str} (h : rest = [] ∨ ∃ c ∈ spaceChars, c <+: rest) : ∀ x, rest.head? = some x → Stop x := by
  rcases h with rfl | ⟨c, hc, t, rfl⟩
  · simp
  · obtain ⟨x, u, rfl, hx⟩ := space_stop hc
    intro y hy
    simp only [List.cons_append, List.head?_cons, Option.some.injEq] at hy
    exact hy ▸ hx

theorem fields_words {s : Str} {ws : List Str} (h : Words s ws) : fields s = ws := by
  unfold fields
  induction h with
  | @nil s h =>
    obtain ⟨A, hA, e⟩ := chunks_blank h
    have := e []
    rw [List.append_nil] at this
    rw [this, fieldsAux_seps A _ hA]; rfl
  | @cons a w rest ws ha hw hww hr _ ih =>
    obtain ⟨A, hA, e⟩ := chunks_blank ha
    have hW : ∀ c ∈ chunks w, isSpaceRune c.1 = false := by
      intro c hc
      cases hs : isSpaceRune c.1 with
      | false => rfl
      | true => exact absurd (chunk_infix hc) (hww _ (space_chunk _ w le_rfl c hc hs))
    rw [e, chunks_append' (rest_stop hr), fieldsAux_seps _ _ hA, fieldsAux_word _ _ _ hW, List.nil_append, flat_chunks']
    rcases hr with rfl | ⟨c, hc, t, rfl⟩
    · simp only [chunks, chunksAux, fieldsAux, if_neg hw] at ih ⊢; rw [← ih]; rfl
    · obtain ⟨r, hr, e⟩ := space_first hc
      rw [e] at ih ⊢
      simp only [fieldsAux, hr, if_true, if_neg hw] at ih ⊢
      rw [ih]

theorem words_exist : ∀ (k : Nat) (s : Str), s.length = k → ∃ ws, Words s ws := by
  intro k
  induction k using Nat.strongRecOn with
  | ind k ih =>
    intro s hk
    let p : Nat × Str → Bool := fun c => isSpaceRune c.1
    have hs : chunks s = (chunks s).takeWhile p ++ (chunks s).dropWhile p := (List.takeWhile_append_dropWhile).symm
    have hin : ∀ c ∈ chunks s, isSpaceRune c.1 = true → c.2 ∈ spaceChars := space_chunk _ s le_rfl
    have ha : Whites (bytesOf ((chunks s).takeWhile p)) := blank_flat fun c hc => hin c ((List.takeWhile_prefix p).subset hc)
      (List.all_eq_true.mp (List.all_takeWhile (p := p) (l := chunks s)) c hc)
    have hsf : s = bytesOf ((chunks s).takeWhile p) ++ bytesOf ((chunks s).dropWhile p) := by rw [← flat_append, ← hs, flat_chunks']
    cases hd : (chunks s).dropWhile p with
    | nil => rw [hd] at hsf; refine ⟨[], .nil ?_⟩; rw [hsf]; simpa [bytesOf] using ha
    | cons c r =>
      have hc : p c = false := by
        have := List.head?_dropWhile_not p (chunks s)
        rw [hd] at this; simpa using this
      let T := c :: r
      have hT : T = T.takeWhile (fun c => !p c) ++ T.dropWhile (fun c => !p c) := (List.takeWhile_append_dropWhile).symm
      set W := T.takeWhile (fun c => !p c) with hW
      set R := T.dropWhile (fun c => !p c) with hR
      have hWc : ∃ W', W = c :: W' := by rw [hW]; simp [T, hc]
      have hW2 : ∀ x ∈ W, isSpaceRune x.1 = false := by
        intro x hx
        have := List.all_eq_true.mp (List.all_takeWhile (p := fun c => !p c) (l := T)) x hx
        simpa [p] using this
      have hTc : chunks (bytesOf T) = T := chunks_suffix ((chunks s).takeWhile p) T s (by show _ = _ ++ (c :: r); rw [← hd]; exact hs)
      have hRc : chunks (bytesOf R) = R := chunks_suffix ((chunks s).takeWhile p ++ W) R s (by rw [List.append_assoc, ← hT]; show _ = _ ++ (c :: r); rw [← hd]; exact hs)
      have hTs : ∀ x ∈ T, x ∈ chunks s := fun x hx => by rw [hs, hd]; exact List.mem_append_right _ hx
      have hrest : bytesOf R = [] ∨ ∃ c ∈ spaceChars, c <+: bytesOf R := by
        cases hRe : R with
        | nil => exact .inl rfl
        | cons x R' =>
          have h := List.head?_dropWhile_not (fun c => !p c) T
          rw [← hR, hRe] at h
          simp only [List.head?_cons, Bool.not_not] at h
          exact .inr ⟨x.2, hin x (hTs x (by rw [hT, hRe]; simp)) (by simpa [p] using h), bytesOf R', by simp [bytesOf]⟩
      have hTf : bytesOf T = bytesOf W ++ bytesOf R := by rw [← flat_append, ← hT]
      have hWc' : chunks (bytesOf W) = W := by
        have := chunks_append' (rest_stop hrest) (bytesOf W)
        rw [← hTf, hTc, hRc, hT] at this
        exact (List.append_cancel_right this).symm
      have hlen : (bytesOf R).length < k := by
        have h2 := congrArg List.length hsf
        rw [hd, show (c :: r) = T from rfl, hTf] at h2
        have h3 : bytesOf W ≠ [] := by
          intro h0
          obtain ⟨W', hW'⟩ := hWc
          rw [h0] at hWc'
          rw [hW'] at hWc'
          simp [chunks, chunksAux] at hWc'
        have := List.length_pos_iff.mpr h3
        simp only [List.length_append] at h2
        omega
      obtain ⟨ws, hws⟩ := ih _ hlen _ rfl
      refine ⟨bytesOf W :: ws, ?_⟩
      have := Words.cons (w := bytesOf W) ha (by
          intro h0
          obtain ⟨W', hW'⟩ := hWc
          rw [h0] at hWc'
          rw [hW'] at hWc'
          simp [chunks, chunksAux] at hWc') (fun sp hsp hi => by
          obtain ⟨x, hx, hx2⟩ := infix_space hsp hi
          rw [hWc'] at hx
          rw [hW2 x hx] at hx2; exact absurd hx2 (by simp)) hrest hws
      rw [← hTf, show T = c :: r from rfl, ← hd, ← hsf] at this
      exact this

/-! ### strings.TrimSpace -/

private theorem trimRight_spaces (cut : Nat × Str → Bool) : ∀ (B : List (Nat × Str)), (∀ c ∈ B, cut c = true) → trimRight cut B = []
  | [], _ => rfl
  | b :: B, h => by rw [trimRight, trimRight_spaces cut B fun x hx => h x (by simp [hx])]; simp [h b (by simp)]

private theorem trimRight_keeps (cut : Nat × Str → Bool) (B : List (Nat × Str)) (hB : ∀ c ∈ B, cut c = true) : ∀ (W : List (Nat × Str)),
    (∀ c, W.getLast? = some c → cut c = false) → trimRight cut (W ++ B) = W
  | [], _ => by simpa using trimRight_spaces cut B hB
  | [w], h => by
      have := h w rfl
      rw [List.singleton_append, trimRight, trimRight_spaces cut B hB]; simp [this]
  | w :: v :: W, h => by
      rw [List.cons_append, trimRight, trimRight_keeps cut B hB (v :: W) (by simpa using h)]

private theorem trimRight_split (cut : Nat × Str → Bool) : ∀ (T : List (Nat × Str)), ∃ B, T = trimRight cut T ++ B ∧ (∀ c ∈ B, cut c = true) ∧
    ∀ c, (trimRight cut T).getLast? = some c → cut c = false
  | [] => ⟨[], by simp [trimRight]⟩
  | t :: T => by
      obtain ⟨B, h1, h2, h3⟩ := trimRight_split cut T
      rw [trimRight]
      cases hr : trimRight cut T with
      | nil =>
        rw [hr, List.nil_append] at h1
        by_cases hc : cut t = true
        · refine ⟨t :: B, by simp [hc, ← h1], by rintro x (_ | ⟨_, hx⟩); exacts [hc, h2 x hx], by simp [hc]⟩
        · refine ⟨B, by simp [hc, ← h1], h2, by simp [hc]⟩
      | cons x xs =>
        rw [hr] at h1 h3
        exact ⟨B, by simp [h1], h2, by simpa using h3⟩

theorem trimWhite_iff (v w : Str) : trimWhite v = w ↔ Stripped v w := by
  let p : Nat × Str → Bool := fun c => isSpaceRune c.1
  constructor
  · rintro rfl
    have hin : ∀ c ∈ chunks v, p c = true → c.2 ∈ spaceChars := space_chunk _ v le_rfl
    have hs : chunks v = (chunks v).takeWhile p ++ (chunks v).dropWhile p := (List.takeWhile_append_dropWhile).symm
    obtain ⟨B, h1, h2, h3⟩ := trimRight_split p ((chunks v).dropWhile p)
    set W := trimRight p ((chunks v).dropWhile p) with hW
    have hw : trimWhite v = bytesOf W := rfl
    have hsub : ∀ c ∈ W ++ B, c ∈ chunks v := fun c hc => by rw [hs, h1]; exact List.mem_append_right _ hc
    have hb : Whites (bytesOf B) := blank_flat fun c hc => hin c (hsub c (by simp [hc])) (h2 c hc)
    have hTc : chunks (bytesOf (W ++ B)) = W ++ B := chunks_suffix _ _ v (by rw [← h1]; exact hs)
    have hBc : chunks (bytesOf B) = B := chunks_suffix ((chunks v).takeWhile p ++ W) _ v (by rw [List.append_assoc, ← h1]; exact hs)
    have hWc : chunks (bytesOf W) = W := by
      rw [flat_append, chunks_append' (blank_stop hb), hBc] at hTc
      exact List.append_cancel_right hTc
    refine ⟨bytesOf ((chunks v).takeWhile p), bytesOf B, ?_, blank_flat fun c hc => hin c ((List.takeWhile_prefix p).subset hc)
      (List.all_eq_true.mp (List.all_takeWhile (p := p) (l := chunks v)) c hc), hb, fun sp hsp => ⟨?_, ?_⟩⟩
    · rw [hw, ← flat_append, ← flat_append, ← h1, ← hs, flat_chunks']
    · rintro ⟨t, ht⟩
      obtain ⟨r, hr, e⟩ := space_first hsp
      rw [hw] at ht
      have hh : W.head? = some (r, sp) := by rw [← hWc, ← ht, e]; rfl
      have h4 : ((chunks v).dropWhile p).head? = some (r, sp) := by rw [h1, List.head?_append, hh]; rfl
      have := List.head?_dropWhile_not p (chunks v)
      rw [h4] at this
      simp [p, hr] at this
    · rintro ⟨t, ht⟩
      obtain ⟨r, hr, e⟩ := space_first hsp
      obtain ⟨x, u, hx, hst⟩ := space_stop hsp
      rw [hw] at ht
      have hh : W.getLast? = some (r, sp) := by
        have e0 := e []
        rw [List.append_nil] at e0
        rw [← hWc, ← ht, chunks_append' (by rw [hx]; intro y hy; simp only [List.head?_cons, Option.some.injEq] at hy; exact hy ▸ hst), e0]
        simp [chunks, chunksAux]
      have := h3 _ hh
      simp [p, hr] at this
  · rintro ⟨a, b, rfl, ha, hb, hw⟩
    obtain ⟨A, hA, eA⟩ := chunks_blank ha
    obtain ⟨B, hB, eB⟩ := chunks_blank hb
    have eB' := eB []
    rw [List.append_nil] at eB'
    have hBB : ∀ c ∈ chunks b, p c = true := by rw [eB']; simpa [chunks, chunksAux] using fun x y h => hB (x, y) h
    have hin : ∀ c ∈ chunks w, p c = true → c.2 ∈ spaceChars := space_chunk _ w le_rfl
    have hdrop : ∀ (A R : List (Nat × Str)), (∀ c ∈ A, p c = true) → (A ++ R).dropWhile p = R.dropWhile p := by
      intro A R h
      induction A with
      | nil => rfl
      | cons x xs ih => rw [List.cons_append, List.dropWhile_cons_of_pos (h x (by simp)), ih fun c hc => h c (by simp [hc])]
    have hlast : ∀ c, (chunks w).getLast? = some c → p c = false := by
      intro c hc
      cases hs : p c with
      | false => rfl
      | true =>
        obtain ⟨W', e⟩ := List.getLast?_eq_some_iff.mp hc
        exact absurd ⟨bytesOf W', by (conv => rhs; rw [← flat_chunks' w, e, flat_append]); simp [bytesOf]⟩ (hw _ (hin c (by rw [e]; simp) hs)).2
    unfold trimWhite
    rw [eA, chunks_append' (blank_stop hb)]
    show bytesOf (trimRight p ((A ++ (chunks w ++ chunks b)).dropWhile p)) = w
    rw [hdrop A _ hA]
    cases hcw : chunks w with
    | nil =>
      have hw0 : w = [] := by rw [← flat_chunks' w, hcw]; rfl
      have : (chunks b).dropWhile p = [] := by have := hdrop (chunks b) [] hBB; simpa using this
      rw [List.nil_append, this, hw0]; rfl
    | cons c W =>
      have hc : p c = false := by
        cases hs : p c with
        | false => rfl
        | true =>
          exact absurd ⟨bytesOf W, by (conv => rhs; rw [← flat_chunks' w, hcw]); simp [bytesOf]⟩ (hw _ (hin c (by rw [hcw]; simp) hs)).1
      rw [List.cons_append, List.dropWhile_cons_of_neg (by simp [hc]), ← List.cons_append, trimRight_keeps p _ hBB _ (by rw [← hcw]; exact hlast), ← hcw,
        flat_chunks']

end Verif.Proofs
