import Verif.Proofs.Sources
import Verif.Proofs.Spelled
import Verif.Proofs.PageNumber
/-
Proofs for C120: words of valid texts are valid UTF-8.
-/
namespace Verif.Proofs
open Verif.Go Verif.Model Verif.Spec Verif.Props

theorem valid_nil : validUtf8 [] = true := rfl

theorem valid_ascii {s : Str} (h : isAscii s = true) : validUtf8 s = true := by simp [validUtf8, decodeRunes_ascii h, encodeRunes_ascii h]

theorem valid_ascii_append {a b : Str} (ha : isAscii a = true) (hb : validUtf8 b = true) : validUtf8 (a ++ b) = true := (valid_append (valid_ascii ha)).mpr hb

theorem valid_cons {c : UInt8} {b : Str} (hc : c.toNat < 128) (hb : validUtf8 b = true) : validUtf8 (c :: b) = true :=
  valid_ascii_append (a := [c]) (by rw [isAscii_iff]; simpa using hc) hb

/-- A character of several bytes has none below 128. -/
theorem encodeRune_wide {r : Nat} (h : 128 ≤ r) : ∃ b b' bs, encodeRune r = b :: b' :: bs ∧ ∀ c ∈ encodeRune r, 128 ≤ c.toNat := by
  have key : ∀ x : Nat, 128 ≤ x → x ≤ 0x10FFFF → ∃ b b' bs, encodeValid x = b :: b' :: bs ∧ ∀ c ∈ encodeValid x, 128 ≤ c.toNat := by
    intro x h1 h2
    unfold encodeValid
    rw [if_neg (by omega)]
    split
    · refine ⟨_, _, _, rfl, fun c hc => ?_⟩
      simp only [List.mem_cons, List.not_mem_nil, or_false] at hc
      rcases hc with rfl | rfl <;> rw [toNat_ofNat_lt (by omega)] <;> omega
    split
    · refine ⟨_, _, _, rfl, fun c hc => ?_⟩
      simp only [List.mem_cons, List.not_mem_nil, or_false] at hc
      rcases hc with rfl | rfl | rfl <;> rw [toNat_ofNat_lt (by omega)] <;> omega
    · refine ⟨_, _, _, rfl, fun c hc => ?_⟩
      simp only [List.mem_cons, List.not_mem_nil, or_false] at hc
      rcases hc with rfl | rfl | rfl | rfl <;> rw [toNat_ofNat_lt (by omega)] <;> omega
  unfold encodeRune
  split
  · rename_i hv
    have := validRune_lt hv
    exact key r h (by omega)
  · exact key runeError (by decide) (by decide)

/-- Valid texts, character by character. -/
theorem valid_induction {P : Str → Prop} (nil : P []) (ascii : ∀ (c : UInt8) (t : Str), c.toNat < 128 → validUtf8 t = true → P t → P (c :: t))
    (wide : ∀ (b b' : UInt8) (bs t : Str), (∀ c ∈ b :: b' :: bs, 128 ≤ c.toNat) → validUtf8 (b :: b' :: bs) = true → (decodeRunes (b :: b' :: bs)).length = 1 →
      validUtf8 t = true → P t → P (b :: b' :: bs ++ t)) {s : Str} (h : validUtf8 s = true) : P s := by
  have he : encodeRunes (decodeRunes s) = s := by simpa [validUtf8] using h
  rw [← he]
  generalize decodeRunes s = rs
  induction rs with
  | nil => exact nil
  | cons r rs ih =>
    have e : encodeRunes (r :: rs) = encodeRune r ++ encodeRunes rs := by simp [encodeRunes]
    have hv := validUtf8_encodeRunes rs
    rw [e]
    by_cases hr : r < 128
    · have h1 : (UInt8.ofNat r).toNat = r := toNat_ofNat_lt (by omega)
      have h2 := encodeRune_ascii (c := UInt8.ofNat r) (by omega)
      rw [h1] at h2
      rw [h2]
      exact ascii _ _ (by omega) hv ih
    · obtain ⟨b, b', bs, h1, h2⟩ := encodeRune_wide (r := r) (by omega)
      have h3 := validUtf8_encodeRunes [r]
      have h4 := decodeRunes_encodeRune_append r []
      rw [show encodeRunes [r] = encodeRune r by simp [encodeRunes], h1] at h3
      rw [h1, List.append_nil] at h4
      rw [h1] at h2 ⊢
      exact wide b b' bs _ h2 h3 (by rw [h4]; rfl) hv ih

/-- A text of as many characters as bytes is ASCII. -/
theorem ascii_of_length {s : Str} (h : validUtf8 s = true) (hl : s.length ≤ (decodeRunes s).length) : isAscii s = true := by
  revert hl
  refine valid_induction (P := fun s => s.length ≤ (decodeRunes s).length → isAscii s = true) ?_ ?_ ?_ h
  · intro _; rfl
  · intro c t hc _ ih hl
    rw [decodeRunes_ascii_cons hc, List.length_cons, List.length_cons] at hl
    have := isAscii_iff.mp (ih (by omega))
    rw [isAscii_iff]
    intro d hd
    rcases List.mem_cons.mp hd with rfl | hd
    · exact hc
    · exact this d hd
  · intro b b' bs t _ hv h1 _ _ hl
    rw [valid_decode hv, List.length_append, List.length_append, h1] at hl
    have := decodeRunes_length_le t
    simp at hl
    omega

private theorem split_wide : ∀ (l : Str) (t : Str), (∀ c ∈ l, 128 ≤ c.toNat) → ∃ h r, split 32 t = h :: r ∧ split 32 (l ++ t) = (l ++ h) :: r
  | [], t, _ => by
    cases e : split 32 t with
    | nil =>
      cases t with
      | nil => simp [split] at e
      | cons c t =>
        rw [split] at e
        split at e
        · simp at e
        · split at e <;> simp at e
    | cons h r => exact ⟨h, r, rfl, by simpa using e⟩
  | c :: l, t, hl => by
    obtain ⟨h, r, h1, h2⟩ := split_wide l t (fun d hd => hl d (by simp [hd]))
    refine ⟨h, r, h1, ?_⟩
    have hc : c ≠ 32 := by
      rintro rfl
      exact absurd (hl 32 (by simp)) (by decide)
    rw [List.cons_append, split, if_neg hc, h2]
    rfl

theorem split_valid {s : Str} (h : validUtf8 s = true) : ∀ p ∈ split 32 s, validUtf8 p = true := by
  refine valid_induction (P := fun s => ∀ p ∈ split 32 s, validUtf8 p = true) ?_ ?_ ?_ h
  · simp [split, valid_nil]
  · intro c t hc _ ih p hp
    rw [split] at hp
    split at hp
    · rcases List.mem_cons.mp hp with rfl | hp
      · rfl
      · exact ih p hp
    · split at hp
      · rw [List.mem_singleton.mp hp]
        exact valid_cons hc valid_nil
      · rename_i hd tl e
        rw [e] at ih
        rcases List.mem_cons.mp hp with rfl | hp
        · exact valid_cons hc (ih hd (by simp))
        · exact ih p (by simp [hp])
  · intro b b' bs t hw hv _ _ ih p hp
    obtain ⟨hd, r, h1, h2⟩ := split_wide _ t hw
    rw [h2] at hp
    rw [h1] at ih
    rcases List.mem_cons.mp hp with rfl | hp
    · exact (valid_append hv).mpr (ih hd (by simp))
    · exact ih p (by simp [hp])

private theorem blank_wide {c : UInt8} (h : 128 ≤ c.toNat) : blank c = false := by
  unfold blank
  rcases hb : (c == 32 || c == 13 || c == 10 || c == 9) with _ | _
  · rfl
  · simp only [Bool.or_eq_true, beq_iff_eq] at hb
    rcases hb with ((rfl | rfl) | rfl) | rfl <;> exact absurd h (by decide)

private theorem rectified_wide : ∀ (l t : Str) (p : UInt8), (∀ c ∈ l, 128 ≤ c.toNat) → ∃ p', rectified (some p) false (l ++ t) = l ++ rectified (some p') false t
  | [], t, p, _ => ⟨p, rfl⟩
  | c :: l, t, p, hl => by
    obtain ⟨p', h⟩ := rectified_wide l t c (fun d hd => hl d (by simp [hd]))
    refine ⟨p', ?_⟩
    rw [List.cons_append, rectified, blank_wide (hl c (by simp))]
    simp [h]

theorem rectified_valid {s : Str} (h : validUtf8 s = true) : ∀ prev gap, validUtf8 (rectified prev gap s) = true := by
  refine valid_induction (P := fun s => ∀ prev gap, validUtf8 (rectified prev gap s) = true) ?_ ?_ ?_ h
  · intro prev gap; rfl
  · intro c t hc _ ih prev gap
    rw [rectified.eq_def]
    dsimp only
    split
    · exact ih _ _
    · split
      · split
        · exact valid_cons (by decide) (valid_cons hc (ih _ _))
        · exact valid_cons hc (ih _ _)
      · exact valid_cons hc (ih _ _)
  · intro b b' bs t hw hv _ _ ih prev gap
    have hb := blank_wide (hw b (by simp))
    obtain ⟨p', h⟩ := rectified_wide (b' :: bs) t b (fun d hd => hw d (List.mem_cons_of_mem _ hd))
    have key : validUtf8 (b :: rectified (some b) false (b' :: bs ++ t)) = true := by
      rw [h]
      exact (valid_append (a := b :: b' :: bs) hv).mpr (ih _ _)
    rw [List.cons_append, rectified.eq_def]
    dsimp only
    rw [hb]
    simp only [Bool.false_eq_true, if_false]
    split
    · split
      · exact valid_cons (by decide) key
      · exact key
    · exact key

private theorem replace_wide (o : UInt8) (old new : Str) (ho : o.toNat < 128) : ∀ (l t : Str), (∀ c ∈ l, 128 ≤ c.toNat) →
    replaceAux (o :: old) new 0 (l ++ t) = l ++ replaceAux (o :: old) new 0 t
  | [], t, _ => rfl
  | c :: l, t, hl => by
    have hc : o ≠ c := by
      rintro rfl
      have := hl o (by simp)
      omega
    rw [List.cons_append, replaceAux, if_neg (by simp [List.isPrefixOf, hc]), replace_wide o old new ho l t (fun d hd => hl d (by simp [hd])), List.cons_append]

theorem replace_valid (o : UInt8) (old new : Str) (ho : ∀ c ∈ o :: old, c.toNat < 128) (hn : isAscii new = true) {s : Str} (h : validUtf8 s = true) :
    validUtf8 (replaceAux (o :: old) new 0 s) = true := by
  suffices ∀ k, (∀ c ∈ s.take k, c.toNat < 128) → validUtf8 (replaceAux (o :: old) new k s) = true from this 0 (by simp)
  refine valid_induction (P := fun s => ∀ k, (∀ c ∈ s.take k, c.toNat < 128) → validUtf8 (replaceAux (o :: old) new k s) = true) ?_ ?_ ?_ h
  · intro k _
    cases k <;> rfl
  · intro c t hc _ ih k hk
    cases k with
    | succ k => exact ih k (fun d hd => hk d (by simp [hd]))
    | zero =>
      rw [replaceAux]
      split
      · rename_i hp
        refine valid_ascii_append hn (ih _ fun d hd => ?_)
        obtain ⟨r, hr⟩ := List.isPrefixOf_iff_prefix.mp hp
        have ht : t = old ++ r := by
          rw [List.cons_append, List.cons.injEq] at hr
          exact hr.2.symm
        rw [ht, List.length_cons, Nat.add_sub_cancel, List.take_left'] at hd
        · exact ho d (by simp [hd])
        · rfl
      · exact valid_cons hc (ih 0 (by simp))
  · intro b b' bs t hw hv _ _ ih k hk
    cases k with
    | succ k =>
      have h1 := hk b (by simp)
      have h2 := hw b (by simp)
      omega
    | zero =>
      rw [replace_wide o old new (ho o (by simp)) _ t hw]
      exact (valid_append hv).mpr (ih 0 (by simp))

/-- The words of a valid text are valid. -/
theorem wordsOf_valid {page : Int} {x : Str} (h : validUtf8 x = true) : ∀ w ∈ wordsOf page x, validUtf8 w = true := by
  intro w hw
  unfold wordsOf piecesOf at hw
  refine split_valid (rectified_valid ?_ _ _) w (List.mem_filter.mp hw).1
  unfold replaceAll
  rw [if_neg (by decide)]
  refine replace_valid _ _ _ (by decide) ?_ h
  rw [isAscii_iff]
  intro c hc
  rcases (itoa_chars page).2 c hc with rfl | ⟨-, h2⟩
  · decide
  · have : c.toNat ≤ 57 := h2
    omega

/-- Words and parts of them, with spaces and hyphens, are valid, if the words and the first parts are. -/
theorem piece_valid {lower : Nat → Nat} {w v : Str} (hw : validUtf8 w = true) (h : WordPiece (EnglishBreak lower) w v) :
    validUtf8 v = true ∨ ∃ t u, EnglishBreak lower w t u ∧ validUtf8 t = false ∧ (v = t ++ [45] ∨ v = 32 :: (t ++ [45]) ∨ v = u) := by
  cases h with
  | whole h =>
    rcases h with rfl | rfl
    · exact .inl hw
    · exact .inl (valid_cons (by decide) hw)
  | @first t u v hb h =>
    by_cases ht : validUtf8 t = true
    · refine .inl ?_
      have := (valid_append (b := [45]) ht).mpr (by decide +kernel)
      rcases h with rfl | rfl
      · exact this
      · exact valid_cons (by decide) this
    · exact .inr ⟨t, u, hb, by simpa using ht, h.imp id Or.inl⟩
  | @second t u hb =>
    by_cases ht : validUtf8 t = true
    · refine .inl ?_
      obtain ⟨-, -, cuts, hc, k, -, -, rfl, rfl⟩ := hb
      split
      · rename_i hm
        have ha : isAscii w = true := by
          refine ascii_of_length hw ?_
          obtain ⟨_, _, hl⟩ := hc
          have := ((hl.2 _).mp hm).1
          omega
        refine valid_ascii ?_
        rw [isAscii_iff] at ha ⊢
        exact fun c hc => ha c (List.mem_of_mem_drop (List.dropLast_subset _ hc))
      · exact (valid_append ht).mp (by rw [List.take_append_drop]; exact hw)
    · exact .inr ⟨t, _, hb, by simpa using ht, .inr (.inr rfl)⟩

end Verif.Proofs
