import Verif.Proofs.Hyphen
import Verif.Proofs.Tables
import Verif.Proofs.TableLatin
import Verif.Proofs.TableEnUs
/-
Properties C04-C11: hyphenation (/repo/hyphenation).
-/
namespace Verif.Props
open Verif.Go Verif.Model Verif.Spec Verif.Proofs Verif.Model.Tables

/-! ### C04 -/

/-- C04: `Hyphenate` returns (no panic) for every string and every hyphenator that `Load` produced. -/
theorem C04_no_panic (nd : Nat → Bool) (lower : Nat → Nat) (text : Str) (pl : Lookup)
    (h : parsePatterns nd text = some pl) (s : Str) : ∃ parts, hyphenate lower pl s = some parts := by
  by_cases h3 : s.length < 3
  · exact ⟨[s], by simp [hyphenate, h3]⟩
  by_cases hsp : 32 ∈ s
  · exact ⟨[s], by simp [hyphenate, h3, hsp]⟩
  by_cases h100 : s.length > 100
  · exact ⟨[s], by simp [hyphenate, h3, hsp, h100]⟩
  obtain ⟨mid, _, _, e⟩ := hyphenate_eq (lower := lower) (parsePatterns_ok h) (s := s) (by omega) hsp (by omega)
  exact ⟨_, e⟩

-- A loadable pattern file with a multi-byte pattern.
example : parsePatterns (fun _ => false) b!"1ba\n2é3\n"
    = some [(b!"é", ⟨[233], [2, 3]⟩), (b!"ba", ⟨[98, 97], [1, 0, 0]⟩)] := by decide +kernel

/-! ### C05 and C06 -/

/-- The pieces between cuts re-join to the text. -/
private theorem pieces_flatten (s : Str) : ∀ (cuts : List Nat) (last : Nat), last ≤ s.length →
    (∀ c ∈ cuts, last < c ∧ c ≤ s.length) → cuts.Pairwise (· < ·) → (pieces s last cuts).flatten = s.drop last := by
  intro cuts
  induction cuts with
  | nil => intro last _ _ _; simp [pieces]
  | cons c cs ih =>
    intro last hl h hp
    rw [List.pairwise_cons] at hp
    have hc := h c (by simp)
    simp only [pieces, List.flatten_cons]
    rw [ih c hc.2 (fun x hx => ⟨hp.1 x hx, (h x (by simp [hx])).2⟩) hp.2]
    have : s.drop c = (s.drop last).drop (c - last) := by rw [List.drop_drop]; congr 1; omega
    rw [this, List.take_append_drop]

private theorem cuts_ok {s : Str} {mid : List Nat} (hm : mid.length = (decodeRunes s).length - 1) :
    (∀ c ∈ cutsOf 0 0 mid, 0 < c ∧ c ≤ s.length) ∧ (cutsOf 0 0 mid).Pairwise (· < ·) := by
  refine ⟨?_, cutsOf_sorted _ _ _⟩
  intro c hc
  have h1 := cutsOf_range _ _ _ c hc
  have h2 := decodeRunes_length_le s
  omega

/-- C05, what does hold: the returned parts re-join to `s`, except that the last byte may be missing. -/
theorem C05_lossless_partial (nd : Nat → Bool) (lower : Nat → Nat) (text : Str) (pl : Lookup)
    (h : parsePatterns nd text = some pl) (s : Str) (parts : List Str) (hp : hyphenate lower pl s = some parts) :
    parts.flatten = s ∨ (3 ≤ s.length ∧ parts.flatten = s.dropLast) := by
  by_cases h3 : s.length < 3
  · simp [hyphenate, h3] at hp; subst hp; simp
  by_cases hsp : 32 ∈ s
  · simp [hyphenate, h3, hsp] at hp; subst hp; simp
  by_cases h100 : s.length > 100
  · simp [hyphenate, h3, hsp, h100] at hp; subst hp; simp
  obtain ⟨mid, hm, _, e⟩ := hyphenate_eq (lower := lower) (parsePatterns_ok h) (s := s) (by omega) hsp (by omega)
  rw [e] at hp
  injection hp with hp
  obtain ⟨c1, c2⟩ := cuts_ok (s := s) hm
  have hj := pieces_flatten s (cutsOf 0 0 mid) 0 (by omega) c1 c2
  split at hp
  · left; rw [← hp, hj]; rfl
  · rename_i hlast
    rw [pieces_eq] at hj
    simp only [List.flatten_append, List.flatten_cons, List.flatten_nil, List.append_nil, List.drop_zero] at hj
    rw [hp] at hj
    cases hd : s.drop (lastOf 0 (cutsOf 0 0 mid)) with
    | nil => left; rw [hd] at hj; simpa using hj
    | cons x xs =>
      rw [hd] at hlast
      have : xs = [] := by
        cases xs with
        | nil => rfl
        | cons => simp at hlast
      subst this
      right
      refine ⟨by omega, ?_⟩
      rw [hd] at hj
      rw [← hj]; simp

private theorem lastOf_cases (cuts : List Nat) : lastOf 0 cuts = 0 ∨ lastOf 0 cuts ∈ cuts := by
  unfold lastOf
  cases hg : cuts.getLast? with
  | none => exact Or.inl rfl
  | some c => exact Or.inr (List.mem_of_getLast? hg)

private theorem le_lastOf : ∀ {cuts : List Nat} (_ : cuts.Pairwise (· < ·)) (b : Nat), ∀ c ∈ cuts, c ≤ lastOf b cuts
  | [], _, _, c, h => by simp at h
  | a :: as, hp, b, c, h => by
    rw [List.pairwise_cons] at hp
    rw [lastOf_cons]
    rcases List.mem_cons.mp h with rfl | h
    · cases as with
      | nil => exact le_refl _
      | cons x xs => exact le_trans (hp.1 x (by simp)).le (le_lastOf hp.2 _ x (by simp))
    · exact le_lastOf hp.2 a c h

/-- C05: the last byte is lost exactly if there is a cut before it. -/
theorem C05_lost_iff (nd : Nat → Bool) (lower : Nat → Nat) (text : Str) (pl : Lookup)
    (h : parsePatterns nd text = some pl) (s : Str) (h3 : 3 ≤ s.length) (h100 : s.length ≤ 100) (hsp : 32 ∉ s) (cuts : List Nat)
    (hc : LiangCuts (patFn pl) (46 :: decodeRunes (toLower lower s) ++ [46]) (decodeRunes s).length cuts)
    (parts : List Str) (hp : hyphenate lower pl s = some parts) : parts.flatten = s ↔ s.length - 1 ∉ cuts := by
  obtain ⟨mid, hm, hl, e⟩ := hyphenate_cuts (lower := lower) (parsePatterns_ok h) h3 hsp h100
  rw [cuts_unique hc hl]
  rw [e] at hp
  injection hp with hp
  obtain ⟨c1, c2⟩ := cuts_ok (s := s) hm
  have hn := decodeRunes_length_le s
  have hj := pieces_flatten s (cutsOf 0 0 mid) 0 (by omega) c1 c2
  have hlt : ∀ c ∈ cutsOf 0 0 mid, c < s.length := fun c hc => by
    have := cutsOf_range _ _ _ c hc
    omega
  have hlast : lastOf 0 (cutsOf 0 0 mid) < s.length := by
    rcases lastOf_cases (cutsOf 0 0 mid) with h0 | h0
    · omega
    · exact hlt _ h0
  have key : s.length - 1 ∈ cutsOf 0 0 mid ↔ lastOf 0 (cutsOf 0 0 mid) = s.length - 1 := by
    constructor
    · intro hmem
      have := le_lastOf c2 0 _ hmem
      omega
    · intro heq
      rcases lastOf_cases (cutsOf 0 0 mid) with h0 | h0
      · omega
      · rw [← heq]; exact h0
  rw [key]
  split at hp
  · rename_i hd
    rw [← hp, hj]
    rw [List.length_drop] at hd
    constructor
    · intro _; omega
    · intro _; rfl
  · rename_i hd
    rw [List.length_drop] at hd
    rw [pieces_eq] at hj
    simp only [List.flatten_append, List.flatten_cons, List.flatten_nil, List.append_nil, List.drop_zero] at hj
    rw [hp] at hj
    constructor
    · intro hs
      have : (s.drop (lastOf 0 (cutsOf 0 0 mid))).length = 0 := by
        have := congrArg List.length hj
        rw [hs, List.length_append] at this
        omega
      rw [List.length_drop] at this
      omega
    · intro _; omega

/-- C05: so nothing is lost of a text with a character of several bytes. -/
theorem C05_multibyte (nd : Nat → Bool) (lower : Nat → Nat) (text : Str) (pl : Lookup)
    (h : parsePatterns nd text = some pl) (s : Str) (hm : (decodeRunes s).length < s.length) (parts : List Str)
    (hp : hyphenate lower pl s = some parts) : parts.flatten = s := by
  by_cases ho : s.length < 3 ∨ s.length > 100 ∨ 32 ∈ s
  · have : hyphenate lower pl s = some [s] := by
      unfold hyphenate
      rcases ho with ho | ho | ho <;> simp [ho]
    rw [this] at hp
    injection hp with hp
    rw [← hp]
    simp
  · have h3 : 3 ≤ s.length := Nat.le_of_not_lt fun hc => ho (Or.inl hc)
    have h100 : s.length ≤ 100 := Nat.le_of_not_lt fun hc => ho (Or.inr (Or.inl hc))
    have hsp : 32 ∉ s := fun hc => ho (Or.inr (Or.inr hc))
    obtain ⟨mid, _, hl, _⟩ := hyphenate_cuts (lower := lower) (parsePatterns_ok h) h3 hsp h100
    refine (C05_lost_iff nd lower text pl h s h3 h100 hsp _ hl parts hp).mpr fun hmem => ?_
    have := ((hl.2 _).mp hmem).1
    omega

-- Words with and without a cut before the last byte, and one with a character of two bytes.
example : hyphenate id [(b!"ba", ⟨[98, 97], [0, 1, 0]⟩)] b!"caba" = some [b!"cab"] ∧
    hyphenate id [(b!"ba", ⟨[98, 97], [0, 1, 0]⟩)] b!"cabab" = some [b!"cab", b!"ab"] ∧
    hyphenate id [(b!"ba", ⟨[98, 97], [0, 1, 0]⟩)] b!"cäba" = some [b!"cä", b!"ba"] ∧ (decodeRunes b!"cäba").length < (b!"cäba").length := by decide +kernel

/-- The lines of the US English table that concern the word "text". -/
private def textLinesEn : List Str := [b!".te4", b!"3tex", b!"x1t2"]

/-- C05 is false of the code: with the built-in US English table the word "text" loses its last letter. -/
theorem C05_false : ∃ pl, parsePatterns (fun _ => false) enUsText = some pl ∧
    hyphenate id pl b!"text" = some [b!"tex"] := by
  have hok := Verif.Proofs.EnUsTable.allOk
  have hload := (table_load (nd := fun _ => false) enUsLines hok (fun _ _ _ _ _ => rfl)).1
  refine ⟨_, hload, ?_⟩
  have hmem : ∀ l ∈ textLinesEn, l ∈ enUsLines := by
    have h1 : b!".te4" ∈ enUs01 := by decide +kernel
    have h2 : b!"3tex" ∈ enUs38 := by decide +kernel
    have h3 : b!"x1t2" ∈ enUs43 := by decide +kernel
    intro l hl
    simp only [textLinesEn, List.mem_cons, List.not_mem_nil, or_false] at hl
    unfold enUsLines
    rw [List.mem_flatten]
    rcases hl with rfl | rfl | rfl
    · exact ⟨enUs01, by simp [enUsChunks], h1⟩
    · exact ⟨enUs38, by simp [enUsChunks], h2⟩
    · exact ⟨enUs43, by simp [enUsChunks], h3⟩
  have := hyphenate_restrict (lower := id) hok Verif.Proofs.EnUsTable.idxAll hmem (by decide +kernel)
    (s := b!"text") (D := [46, 116, 101, 120, 116, 46]) (by decide +kernel) (by decide +kernel)
  unfold tableLookup at this
  rw [this]
  decide +kernel

/-- C06: short, long and multi-word strings are returned as they are. -/
theorem C06_opt_out (lower : Nat → Nat) (pl : Lookup) (s : Str) (h : s.length < 3 ∨ s.length > 100 ∨ 32 ∈ s) :
    hyphenate lower pl s = some [s] := by
  unfold hyphenate
  split
  · rfl
  split
  · rfl
  split
  · rfl
  · rename_i a b c; exfalso; rcases h with h | h | h
    · exact a h
    · exact c h
    · exact b h

private theorem initPieces_infix (s : Str) : ∀ (cuts : List Nat) (last : Nat), ∀ p ∈ initPieces s last cuts, p <:+: s := by
  intro cuts
  induction cuts with
  | nil => intro last p hp; simp [initPieces] at hp
  | cons c cs ih =>
    intro last p hp
    simp only [initPieces, List.mem_cons] at hp
    rcases hp with rfl | hp
    · exact (List.take_prefix _ _).isInfix.trans (List.drop_suffix _ _).isInfix
    · exact ih c p hp

/-- C06: otherwise there is at least one part, and every part is a contiguous piece of `s` of at least two bytes. -/
theorem C06_parts (nd : Nat → Bool) (lower : Nat → Nat) (text : Str) (pl : Lookup)
    (h : parsePatterns nd text = some pl) (s : Str) (h3 : 3 ≤ s.length) (h100 : s.length ≤ 100) (hsp : 32 ∉ s)
    (parts : List Str) (hp : hyphenate lower pl s = some parts) :
    parts ≠ [] ∧ ∀ p ∈ parts, 2 ≤ p.length ∧ p <:+: s := by
  obtain ⟨mid, hm, _, e⟩ := hyphenate_eq (lower := lower) (parsePatterns_ok h) (s := s) h3 hsp h100
  rw [e] at hp
  injection hp with hp
  have hlen : 0 + mid.length ≤ s.length := by have := decodeRunes_length_le s; omega
  have hi := initPieces_length s mid 0 0 hlen (by omega)
  split at hp
  · rename_i hlast
    subst hp
    rw [pieces_eq]
    refine ⟨by simp, ?_⟩
    intro p hp
    simp only [List.mem_append, List.mem_singleton] at hp
    rcases hp with hp | rfl
    · exact ⟨hi p hp, initPieces_infix _ _ _ p hp⟩
    · exact ⟨by omega, (List.drop_suffix _ _).isInfix⟩
  · rename_i hlast
    subst hp
    refine ⟨?_, fun p hp => ⟨hi p hp, initPieces_infix _ _ _ p hp⟩⟩
    intro he
    cases hc : cutsOf 0 0 mid with
    | nil => rw [hc] at hlast; simp [lastOf] at hlast; omega
    | cons c cs => rw [hc] at he; simp [initPieces] at he

-- A word in range, with a table.
example : hyphenate id [(b!"ba", ⟨[98, 97], [1, 0, 0]⟩)] b!"cababa" = some [b!"ca", b!"ba", b!"ba"] := by decide +kernel

/-! ### C07 -/

/-- C07: a word of 3..100 bytes without a space is cut, as a string of bytes, at the Liang positions of its lower-cased letters, counted as if every letter
were one byte; a rest of fewer than two bytes is dropped. -/
theorem C07_all (nd : Nat → Bool) (lower : Nat → Nat) (text : Str) (pl : Lookup)
    (h : parsePatterns nd text = some pl) (s : Str) (h3 : 3 ≤ s.length) (h100 : s.length ≤ 100) (hsp : 32 ∉ s) :
    ∃ cuts : List Nat, LiangCuts (patFn pl) (46 :: decodeRunes (toLower lower s) ++ [46]) (decodeRunes s).length cuts ∧
      hyphenate lower pl s = some ((pieces s 0 cuts).filter (fun p => 2 ≤ p.length)) := by
  obtain ⟨mid, hm, hl, e⟩ := hyphenate_cuts (lower := lower) (parsePatterns_ok h) h3 hsp h100
  have hn := decodeRunes_length_le s
  refine ⟨_, hl, ?_⟩
  rw [e]
  congr 1
  have hlen : 0 + mid.length ≤ s.length := by omega
  have hi := initPieces_length s mid 0 0 hlen (by omega)
  have hf : (initPieces s 0 (cutsOf 0 0 mid)).filter (fun p => decide (2 ≤ p.length)) = initPieces s 0 (cutsOf 0 0 mid) := by
    rw [List.filter_eq_self]; intro p hp; simpa using hi p hp
  rw [pieces_eq, List.filter_append, hf]
  split
  · rename_i hl
    have : decide (2 ≤ (s.drop (lastOf 0 (cutsOf 0 0 mid))).length) = true := decide_eq_true (by omega)
    rw [List.filter_cons, if_pos this, List.filter_nil]
  · rename_i hl
    have : ¬ decide (2 ≤ (s.drop (lastOf 0 (cutsOf 0 0 mid))).length) = true := by
      rw [decide_eq_true_eq]; omega
    rw [List.filter_cons, if_neg this, List.filter_nil, List.append_nil]

/-- C07: there is only one way to cut. -/
theorem C07_unique {pats : List Nat → Option (List Nat)} {D : List Nat} {n : Nat} {cuts cuts' : List Nat}
    (h : LiangCuts pats D n cuts) (h' : LiangCuts pats D n cuts') : cuts = cuts' := cuts_unique h h'

/-- C07: for an ASCII word of 3..100 bytes without a space, the parts are the pieces between the cuts (a rest of
fewer than two bytes is dropped), the cuts ascend, and `k` is a cut iff 2 ≤ k ≤ n-1, the largest weight given to the gap
before letter `k` (counted from 0) of the dotted lower-cased word is odd, and the previous cut is at least two
letters back.  (Gap `k` of the word is position `k + 1` of the dotted word.) -/
theorem C07_liang (nd : Nat → Bool) (lower : Nat → Nat) (text : Str) (pl : Lookup)
    (h : parsePatterns nd text = some pl) (s : Str) (h3 : 3 ≤ s.length) (h100 : s.length ≤ 100) (hsp : 32 ∉ s)
    (ha : isAscii s = true) :
    ∃ cuts : List Nat, cuts.Pairwise (· < ·) ∧
      (∀ k, k ∈ cuts ↔ k < s.length ∧ prevCut cuts k + 2 ≤ k ∧
        ∃ v, MaxWeight (patFn pl) (46 :: (s.map fun c => (asciiLower c).toNat) ++ [46]) (k + 1) v ∧ v % 2 = 1) ∧
      hyphenate lower pl s = some ((pieces s 0 cuts).filter (fun p => 2 ≤ p.length)) := by
  obtain ⟨cuts, hl, e⟩ := C07_all nd lower text pl h s h3 h100 hsp
  have hD : decodeRunes (toLower lower s) = s.map fun c => (asciiLower c).toNat := by
    rw [toLower_ascii lower ha, decodeRunes_ascii (isAscii_map_lower ha)]; simp
  have hn : (decodeRunes s).length = s.length := by rw [decodeRunes_ascii ha]; simp
  rw [hD, hn] at hl
  exact ⟨cuts, hl.1, hl.2, e⟩

-- The hypotheses are met by an ordinary word and an ordinary pattern file.
example : (parsePatterns (fun _ => false) b!"1ba\n").isSome = true ∧ 3 ≤ (b!"abAba").length ∧ isAscii b!"abAba" = true ∧
    (32 : UInt8) ∉ b!"abAba" := by decide +kernel
example : hyphenate id [(b!"ba", ⟨[98, 97], [1, 0, 0]⟩)] b!"abAbaBA" = some [b!"abA", b!"ba", b!"BA"] := by decide +kernel

/-! ### C08 -/

/-- C08, what does hold: every part of an ASCII word is valid UTF-8. -/
theorem C08_ascii_partial (nd : Nat → Bool) (lower : Nat → Nat) (text : Str) (pl : Lookup)
    (h : parsePatterns nd text = some pl) (s : Str) (ha : isAscii s = true) (parts : List Str)
    (hp : hyphenate lower pl s = some parts) : ∀ p ∈ parts, validUtf8 p = true := by
  have hval : ∀ p : Str, isAscii p = true → validUtf8 p = true := by
    intro p hp
    simp [validUtf8, decodeRunes_ascii hp, encodeRunes_ascii hp]
  have hinf : ∀ p ∈ parts, p <:+: s := by
    by_cases ho : s.length < 3 ∨ s.length > 100 ∨ 32 ∈ s
    · rw [C06_opt_out lower pl s ho] at hp
      injection hp with hp; subst hp
      simp
    · have h3 : 3 ≤ s.length := Nat.le_of_not_lt fun hc => ho (Or.inl hc)
      have h100 : s.length ≤ 100 := Nat.le_of_not_lt fun hc => ho (Or.inr (Or.inl hc))
      have hsp : 32 ∉ s := fun hc => ho (Or.inr (Or.inr hc))
      exact fun p hpm => ((C06_parts nd lower text pl h s h3 h100 hsp parts hp).2 p hpm).2
  intro p hpm
  apply hval
  rw [isAscii_iff] at ha ⊢
  exact fun c hc => ha c ((hinf p hpm).subset hc)

theorem valid_decode {a : Str} (ha : validUtf8 a = true) (b : Str) : decodeRunes (a ++ b) = decodeRunes a ++ decodeRunes b := by
  have he : encodeRunes (decodeRunes a) = a := by simpa [validUtf8] using ha
  have h1 := decodeRunes_encodeRunes_append (decodeRunes a) b
  have h2 := decodeRunes_encodeRunes (decodeRunes a)
  rw [he] at h1 h2
  rw [h1, ← h2]

theorem valid_append {a b : Str} (ha : validUtf8 a = true) : validUtf8 (a ++ b) = true ↔ validUtf8 b = true := by
  have he : encodeRunes (decodeRunes a) = a := by simpa [validUtf8] using ha
  simp only [validUtf8, beq_iff_eq]
  rw [valid_decode ha, show encodeRunes (decodeRunes a ++ decodeRunes b) = encodeRunes (decodeRunes a) ++ encodeRunes (decodeRunes b) by simp [encodeRunes], he]
  exact List.append_right_inj _

private theorem init_valid (s : Str) : ∀ (cuts : List Nat) (last : Nat), validUtf8 (s.take last) = true → cuts.Pairwise (· < ·) → (∀ c ∈ cuts, last ≤ c) →
    ((∀ p ∈ initPieces s last cuts, validUtf8 p = true) ↔ ∀ c ∈ cuts, validUtf8 (s.take c) = true)
  | [], _, _, _, _ => by simp [initPieces]
  | c :: cs, last, hv, hp, hl => by
    rw [List.pairwise_cons] at hp
    have hc := hl c (by simp)
    have hs : s.take c = s.take last ++ (s.drop last).take (c - last) := by
      rw [← List.take_add]; congr 1; omega
    have h1 : validUtf8 (s.take c) = true ↔ validUtf8 ((s.drop last).take (c - last)) = true := by rw [hs]; exact valid_append hv
    simp only [initPieces, List.mem_cons, forall_eq_or_imp]
    constructor
    · rintro ⟨a, b⟩
      have h2 := h1.mpr a
      exact ⟨h2, (init_valid s cs c h2 hp.2 fun x hx => (hp.1 x hx).le).mp b⟩
    · rintro ⟨a, b⟩
      exact ⟨h1.mp a, (init_valid s cs c a hp.2 fun x hx => (hp.1 x hx).le).mpr b⟩

/-- C08: of a valid word, all parts are valid UTF-8 exactly if no cut is inside a character. -/
theorem C08_iff (nd : Nat → Bool) (lower : Nat → Nat) (text : Str) (pl : Lookup)
    (h : parsePatterns nd text = some pl) (s : Str) (h3 : 3 ≤ s.length) (h100 : s.length ≤ 100) (hsp : 32 ∉ s) (hv : validUtf8 s = true) (cuts : List Nat)
    (hc : LiangCuts (patFn pl) (46 :: decodeRunes (toLower lower s) ++ [46]) (decodeRunes s).length cuts)
    (parts : List Str) (hp : hyphenate lower pl s = some parts) :
    (∀ p ∈ parts, validUtf8 p = true) ↔ ∀ k ∈ cuts, validUtf8 (s.take k) = true := by
  obtain ⟨mid, hm, hl, e⟩ := hyphenate_cuts (lower := lower) (parsePatterns_ok h) h3 hsp h100
  rw [cuts_unique hc hl]
  rw [e] at hp
  injection hp with hp
  have hi := init_valid s (cutsOf 0 0 mid) 0 (by simp [validUtf8, decodeRunes, decodeAux, encodeRunes]) (cutsOf_sorted _ _ _) fun _ _ => Nat.zero_le _
  rw [← hi]
  split at hp
  · rw [← hp, pieces_eq]
    constructor
    · intro hall p hm
      exact hall p (List.mem_append_left _ hm)
    · intro hall p hm
      rcases List.mem_append.mp hm with hm | hm
      · exact hall p hm
      · rw [List.mem_singleton.mp hm]
        rcases lastOf_cases (cutsOf 0 0 mid) with h0 | h0
        · rw [h0]; exact hv
        · have := hi.mp hall _ h0
          exact (valid_append this).mp (by rw [List.take_append_drop]; exact hv)
  · rw [← hp]

/-- C08 is false of the code: with the built-in Latin table, "naïve" is cut inside the letter "ï". -/
theorem C08_false : ∃ pl parts, parsePatterns (fun _ => false) latinText = some pl ∧
    validUtf8 b!"naïve" = true ∧ hyphenate id pl b!"naïve" = some parts ∧ ∃ p ∈ parts, validUtf8 p = false := by
  have hok := Verif.Proofs.LatinTable.allOk
  have hload := (table_load (nd := fun _ => false) latinLines hok (fun _ _ _ _ _ => rfl)).1
  refine ⟨_, [[110, 97, 195], [175, 118, 101]], hload, by decide +kernel, ?_, [110, 97, 195], by simp, by decide +kernel⟩
  have hmem : ∀ l ∈ [b!"1n", b!"1v"], l ∈ latinLines := by decide +kernel
  have := hyphenate_restrict (lower := id) hok Verif.Proofs.LatinTable.idxAll hmem (by decide +kernel)
    (s := b!"naïve") (D := [46, 110, 97, 239, 118, 101, 46]) (by decide +kernel) (by decide +kernel)
  unfold tableLookup at this
  rw [this]
  decide +kernel

/-! ### C09 -/

/-- C09: parsing follows the pattern syntax exactly. -/
theorem C09_syntax (nd : Nat → Bool) (s : Str) (p : Pattern) :
    parsePattern nd s = some p ↔ PatternSyntax (isDigit nd) (decodeRunes s) p.letters p.weights := by
  rw [parsePattern_eq, ← parseT_syntax, Option.map_eq_some_iff]
  constructor
  · rintro ⟨x, hx, rfl⟩; exact hx
  · intro hx; exact ⟨_, hx, rfl⟩

/-- C09: parsing fails iff a non-ASCII digit stands where a weight may stand. -/
theorem C09_fails_iff (nd : Nat → Bool) (s : Str) :
    parsePattern nd s = none ↔ BadDigit (isDigit nd) (decodeRunes s) := by
  rw [parsePattern_eq, ← parseT_none, Option.map_eq_none_iff]

/-- C09: one weight before each letter plus one at the end, all in 0..9. -/
theorem C09_shape (nd : Nat → Bool) (s : Str) (p : Pattern) (h : parsePattern nd s = some p) :
    p.weights.length = p.letters.length + 1 ∧ ∀ w ∈ p.weights, w ≤ 9 :=
  ⟨(parsePattern_valid h).1, (parsePattern_valid h).2.1⟩

/-- C09: printing a parsed pattern and parsing it again gives the same pattern. -/
theorem C09_roundtrip (nd : Nat → Bool) (s : Str) (p : Pattern) (h : parsePattern nd s = some p) :
    parsePattern nd (patternString p.weights p.letters) = some p := by
  obtain ⟨a, b, c⟩ := parsePattern_valid h
  rw [parsePattern_eq, decode_patternString p.letters p.weights a b c nd]; rfl

example : parsePattern (fun _ => false) b!".a2b3é" = some ⟨[46, 97, 98, 233], [0, 0, 2, 3, 0]⟩ := by decide +kernel
-- ARABIC-INDIC DIGIT ONE (U+0661) in weight position.
example : parsePattern (fun r => r == 0x661) b!"a١" = none := by decide +kernel

/-! ### C10 -/

private theorem nd_irrelevant_ascii {nd : Nat → Bool} {ls : List Str} (h : ∀ l ∈ ls, isAscii l = true) :
    ∀ l ∈ ls, ∀ r ∈ decodeRunes l, 0xFF < r → nd r = nd0 r := by
  intro l hl r hr hgt
  exfalso
  have ha := h l hl
  rw [decodeRunes_ascii ha] at hr
  simp only [List.mem_map] at hr
  obtain ⟨c, hc, rfl⟩ := hr
  have := isAscii_iff.mp ha c hc
  omega

theorem enUs_ascii : ∀ l ∈ enUsLines, isAscii l = true := by
  have : enUsChunks.all (fun c => c.all isAscii) = true := by decide +kernel
  intro l hl
  unfold enUsLines at hl
  rw [List.mem_flatten] at hl
  obtain ⟨c, hc, hl⟩ := hl
  simp only [List.all_eq_true] at this
  exact this c hc l hl

/-- C10: the US English table loads: all 4938 lines parse, and each is found under its letters with its weights. -/
theorem C10_enUs (nd : Nat → Bool) : ∃ pl, parsePatterns nd enUsText = some pl ∧
    ∀ l ∈ enUsLines, ∃ p, parsePattern nd l = some p ∧ find pl (encodeRunes p.letters) = some p := by
  have hok := Verif.Proofs.EnUsTable.allOk
  obtain ⟨h1, h2⟩ := table_load (nd := nd) enUsLines hok (nd_irrelevant_ascii enUs_ascii)
  refine ⟨_, h1, ?_⟩
  intro l hl
  have hs := hok l hl
  simp only [lineOk, Bool.and_eq_true] at hs
  cases hp : parsePattern nd0 l with
  | none => rw [hp] at hs; simp at hs
  | some p =>
    exact ⟨p, by rw [h2 l hl, hp], table_find enUsLines hok Verif.Proofs.EnUsTable.keysNodup l hl p hp⟩

/-- C10: the Latin table loads (it contains the letters æ (U+00E6) and œ (U+0153); the latter must not be a
decimal digit, which in Unicode it is not). -/
theorem C10_latin (nd : Nat → Bool) (hoe : nd 0x153 = false) : ∃ pl, parsePatterns nd latinText = some pl ∧
    ∀ l ∈ latinLines, ∃ p, parsePattern nd l = some p ∧ find pl (encodeRunes p.letters) = some p := by
  have hok := Verif.Proofs.LatinTable.allOk
  have hnd : ∀ l ∈ latinLines, ∀ r ∈ decodeRunes l, 0xFF < r → nd r = nd0 r := by
    have hall : latinLines.all (fun l => (decodeRunes l).all (fun r => Nat.ble r 0xFF || Nat.beq r 0x153)) = true := by
      decide +kernel
    simp only [List.all_eq_true, Bool.or_eq_true] at hall
    intro l hl r hr hgt
    rcases hall l hl r hr with h | h
    · have := Nat.le_of_ble_eq_true h; omega
    · have := Nat.eq_of_beq_eq_true h; subst this; rw [hoe]; rfl
  obtain ⟨h1, h2⟩ := table_load (nd := nd) latinLines hok hnd
  refine ⟨_, h1, ?_⟩
  intro l hl
  have hs := hok l hl
  simp only [lineOk, Bool.and_eq_true] at hs
  cases hp : parsePattern nd0 l with
  | none => rw [hp] at hs; simp at hs
  | some p =>
    exact ⟨p, by rw [h2 l hl, hp], table_find latinLines hok Verif.Proofs.LatinTable.keysNodup l hl p hp⟩

/-- The tables have the size the property speaks of. -/
theorem C10_sizes : enUsLines.length = 4938 ∧ latinLines.length = 336 := by
  constructor
  · have : (enUsChunks.map List.length).sum = 4938 := by decide +kernel
    rw [enUsLines, List.length_flatten, this]
  · decide +kernel

/-! ### C11 -/

/-- The trimmed non-blank lines of a text. -/
def contentLines (text : Str) : List Str := (((split 10 text).map (trim wsCut)).filter (· ≠ []))

/-- C11: if no line has 64 KiB or more, loading succeeds iff every non-blank line parses. -/
theorem C11_load_iff (nd : Nat → Bool) (text : Str) (hlong : ∀ l ∈ split 10 text, l.length < 65536) :
    (parsePatterns nd text).isSome = true ↔ ∀ l ∈ contentLines text, (parsePattern nd l).isSome = true := by
  have hc : cleanLines (scanLines text) = contentLines text := by
    rw [scanLines, cleanLines_scanPieces _ hlong]; rfl
  rw [parsePatterns, parseLines_eq, hc]
  constructor
  · intro h
    cases hr : readAll nd (contentLines text) with
    | none => rw [hr] at h; simp at h
    | some ps => exact (readAll_filterMap nd _ ps hr).2
  · intro h
    have := readAll_isSome nd _ h
    simpa using this

/-- C11: a lookup gives the last line with these letters, and nothing if there is none. -/
theorem C11_last_wins (nd : Nat → Bool) (text : Str) (hlong : ∀ l ∈ split 10 text, l.length < 65536)
    (pl : Lookup) (h : parsePatterns nd text = some pl) (letters : List Nat) (hv : ∀ r ∈ letters, validRune r = true) :
    find pl (encodeRunes letters)
      = ((contentLines text).filterMap (parsePattern nd)).reverse.find? (fun p => p.letters == letters) := by
  have hc : cleanLines (scanLines text) = contentLines text := by
    rw [scanLines, cleanLines_scanPieces _ hlong]; rfl
  rw [parsePatterns, parseLines_eq, hc, Option.map_eq_some_iff] at h
  obtain ⟨ps, hr, rfl⟩ := h
  have hps := (readAll_filterMap nd _ ps hr).1
  rw [← hps]
  unfold find
  rw [List.append_nil, ← List.map_reverse, lookup_map_find]
  have hvps : ∀ p ∈ ps.reverse, ∀ r ∈ p.letters, validRune r = true := by
    intro p hp
    rw [List.mem_reverse, hps] at hp
    obtain ⟨l, _, hl⟩ := List.mem_filterMap.mp hp
    exact (parsePattern_valid hl).2.2
  generalize ps.reverse = qs at hvps
  induction qs with
  | nil => rfl
  | cons q qs ih =>
    rw [List.find?_cons, List.find?_cons, ih (fun p hp => hvps p (by simp [hp]))]
    by_cases hq : q.letters = letters
    · simp [hq]
    · have h1 : (encodeRunes q.letters == encodeRunes letters) = false := by
        simp only [beq_eq_false_iff_ne, ne_eq]
        exact fun hc => hq (encodeRunes_injective (hvps q (by simp)) hv hc)
      have h2 : (q.letters == letters) = false := by simpa using hq
      rw [h1, h2]

/-- C11: a line of 64 KiB or more silently ends the file: only the lines before it are loaded. -/
theorem C11_long_line (nd : Nat → Bool) (pre : List Str) (long : Str) (post : List Str)
    (hpre : ∀ l ∈ pre, l.length < 65536) (hlong : 65536 ≤ long.length)
    (hnl : ∀ l ∈ pre ++ long :: post, (10 : UInt8) ∉ l) :
    parsePatterns nd (join (pre ++ long :: post) [10]) = parseLines nd [] pre := by
  rw [parsePatterns, scanLines, split_join _ (by simp) hnl, scanPieces_long pre long post hpre hlong,
    parseLines_eq, parseLines_eq, cleanLines_dropCR]

example : contentLines b!"\n 1ba \r\n\n2é3" = [b!"1ba", b!"2é3"] := by decide +kernel

end Verif.Props
