import Verif.Go.Utf8
/- UTF-8 lemmas: decoding inverts encoding; lengths; injectivity. -/
namespace Verif.Go

theorem decodeAux_skip : ∀ (k : Nat) (s : Str), decodeAux k s = decodeAux 0 (s.drop k) := by
  intro k
  induction k with
  | zero => intro s; simp
  | succ k ih =>
    intro s
    cases s with
    | nil => simp [decodeAux]
    | cons c cs => simp only [decodeAux, List.drop_succ_cons]; exact ih cs

theorem toNat_ofNat_lt {n : Nat} (h : n < 256) : (UInt8.ofNat n).toNat = n := by
  simp [UInt8.toNat_ofNat', Nat.mod_eq_of_lt h]

theorem validRune_lt {r : Nat} (h : validRune r = true) : r < 0xD800 ∨ (0xE000 ≤ r ∧ r ≤ 0x10FFFF) := by
  simpa [validRune] using h

theorem inRange_ofNat {lo hi n : Nat} (h : n < 256) (h1 : lo ≤ n) (h2 : n ≤ hi) :
    inRange lo hi (UInt8.ofNat n) = true := by
  simp [inRange, toNat_ofNat_lt h, h1, h2, Nat.mod_eq_of_lt h]

theorem decodeRunes_encodeValid_append {r : Nat} (h : validRune r = true) (t : Str) :
    decodeRunes (encodeValid r ++ t) = r :: decodeRunes t := by
  have hv := validRune_lt h
  unfold encodeValid
  split
  · rename_i h1
    simp only [List.cons_append, List.nil_append, decodeRunes, decodeAux, decodeRune]
    rw [toNat_ofNat_lt (by omega)]
    simp [h1]
  split
  · rename_i h0 h1
    have t0 := toNat_ofNat_lt (n := 0xC0 + r / 0x40) (by omega)
    have t1 := toNat_ofNat_lt (n := 0x80 + r % 0x40) (by omega)
    have i1 := inRange_ofNat (lo := 0x80) (hi := 0xBF) (n := 0x80 + r % 0x40) (by omega) (by omega) (by omega)
    have e1 : ¬ (0xC0 + r / 0x40 < 0x80) := by omega
    have e2 : (decide (0xC2 ≤ 0xC0 + r / 0x40) && decide (0xC0 + r / 0x40 ≤ 0xDF)) = true := by
      simp; omega
    simp only [List.cons_append, List.nil_append, decodeRunes, decodeAux, decodeRune, t0, t1, i1, e1, e2,
      if_false, if_true]
    rw [decodeAux_skip]
    simp
    omega
  split
  · rename_i h0 h1 h2
    have t0 := toNat_ofNat_lt (n := 0xE0 + r / 0x1000) (by omega)
    have t1 := toNat_ofNat_lt (n := 0x80 + r / 0x40 % 0x40) (by omega)
    have t2 := toNat_ofNat_lt (n := 0x80 + r % 0x40) (by omega)
    have i2 := inRange_ofNat (lo := 0x80) (hi := 0xBF) (n := 0x80 + r % 0x40) (by omega) (by omega) (by omega)
    have i1 := inRange_ofNat (lo := secondLo (0xE0 + r / 0x1000)) (hi := secondHi (0xE0 + r / 0x1000))
      (n := 0x80 + r / 0x40 % 0x40) (by omega)
      (by unfold secondLo; split
          · omega
          · split <;> omega)
      (by unfold secondHi; split
          · omega
          · split <;> omega)
    have e1 : ¬ (0xE0 + r / 0x1000 < 0x80) := by omega
    have e2 : (decide (0xC2 ≤ 0xE0 + r / 0x1000) && decide (0xE0 + r / 0x1000 ≤ 0xDF)) = false := by
      simp; omega
    have e3 : (decide (0xE0 ≤ 0xE0 + r / 0x1000) && decide (0xE0 + r / 0x1000 ≤ 0xEF)) = true := by
      simp; omega
    simp only [List.cons_append, List.nil_append, decodeRunes, decodeAux, decodeRune, t0, t1, t2, i1, i2, e1, e2, e3,
      if_false, if_true, Bool.false_eq_true, Bool.and_true]
    rw [decodeAux_skip]
    simp
    omega
  · rename_i h0 h1 h2
    have t0 := toNat_ofNat_lt (n := 0xF0 + r / 0x40000) (by omega)
    have t1 := toNat_ofNat_lt (n := 0x80 + r / 0x1000 % 0x40) (by omega)
    have t2 := toNat_ofNat_lt (n := 0x80 + r / 0x40 % 0x40) (by omega)
    have t3 := toNat_ofNat_lt (n := 0x80 + r % 0x40) (by omega)
    have i3 := inRange_ofNat (lo := 0x80) (hi := 0xBF) (n := 0x80 + r % 0x40) (by omega) (by omega) (by omega)
    have i2 := inRange_ofNat (lo := 0x80) (hi := 0xBF) (n := 0x80 + r / 0x40 % 0x40) (by omega) (by omega) (by omega)
    have i1 := inRange_ofNat (lo := secondLo (0xF0 + r / 0x40000)) (hi := secondHi (0xF0 + r / 0x40000))
      (n := 0x80 + r / 0x1000 % 0x40) (by omega)
      (by unfold secondLo; split
          · omega
          · split <;> omega)
      (by unfold secondHi; split
          · omega
          · split <;> omega)
    have e1 : ¬ (0xF0 + r / 0x40000 < 0x80) := by omega
    have e2 : (decide (0xC2 ≤ 0xF0 + r / 0x40000) && decide (0xF0 + r / 0x40000 ≤ 0xDF)) = false := by
      simp; omega
    have e3 : (decide (0xE0 ≤ 0xF0 + r / 0x40000) && decide (0xF0 + r / 0x40000 ≤ 0xEF)) = false := by
      simp; omega
    have e4 : (decide (0xF0 ≤ 0xF0 + r / 0x40000) && decide (0xF0 + r / 0x40000 ≤ 0xF4)) = true := by
      simp; omega
    simp only [List.cons_append, List.nil_append, decodeRunes, decodeAux, decodeRune, t0, t1, t2, t3, i1, i2, i3,
      e1, e2, e3, e4, if_false, if_true, Bool.false_eq_true, Bool.and_true]
    rw [decodeAux_skip]
    simp
    omega

theorem validRune_runeError : validRune runeError = true := by decide

theorem decodeRunes_encodeRune_append (r : Nat) (t : Str) :
    decodeRunes (encodeRune r ++ t) = (if validRune r then r else runeError) :: decodeRunes t := by
  unfold encodeRune
  apply decodeRunes_encodeValid_append
  split
  · assumption
  · exact validRune_runeError

theorem decodeRunes_encodeRunes_append (rs : List Nat) (t : Str) :
    decodeRunes (encodeRunes rs ++ t) = rs.map (fun r => if validRune r then r else runeError) ++ decodeRunes t := by
  induction rs with
  | nil => rfl
  | cons r rs ih =>
    have : encodeRunes (r :: rs) ++ t = encodeRune r ++ (encodeRunes rs ++ t) := by simp [encodeRunes]
    rw [this, decodeRunes_encodeRune_append, ih]; simp

theorem decodeRunes_encodeRunes (rs : List Nat) :
    decodeRunes (encodeRunes rs) = rs.map (fun r => if validRune r then r else runeError) := by
  have := decodeRunes_encodeRunes_append rs []
  simpa [decodeRunes, decodeAux] using this

theorem decodeRunes_encodeRunes_valid {rs : List Nat} (h : ∀ r ∈ rs, validRune r = true) :
    decodeRunes (encodeRunes rs) = rs := by
  rw [decodeRunes_encodeRunes]
  conv => rhs; rw [← List.map_id rs]
  apply List.map_congr_left
  intro r hr; simp [h r hr]

theorem encodeRunes_injective {a b : List Nat} (ha : ∀ r ∈ a, validRune r = true)
    (hb : ∀ r ∈ b, validRune r = true) (h : encodeRunes a = encodeRunes b) : a = b := by
  rw [← decodeRunes_encodeRunes_valid ha, ← decodeRunes_encodeRunes_valid hb, h]

theorem decodeRune_valid (c : UInt8) (cs : Str) : validRune (decodeRune c cs).1 = true := by
  have hb : ∀ {lo hi : Nat} {b : UInt8}, inRange lo hi b = true → lo ≤ b.toNat ∧ b.toNat ≤ hi := by
    intro lo hi b h; simpa [inRange] using h
  unfold decodeRune
  simp only
  split
  · simp [validRune]; omega
  split
  · rename_i h0 h1
    simp at h1
    split
    · split
      · rename_i h2
        have := hb h2
        simp [validRune]; omega
      · exact validRune_runeError
    · exact validRune_runeError
  split
  · rename_i h0 h1 h2
    simp at h2
    split
    · split
      · rename_i h3
        simp only [Bool.and_eq_true] at h3
        have a1 := hb h3.1
        have a2 := hb h3.2
        simp only [secondLo, secondHi] at a1
        simp only [validRune, Bool.or_eq_true, Bool.and_eq_true, decide_eq_true_eq]
        by_cases e1 : c.toNat = 0xED
        · simp [e1] at a1; omega
        · have e2 : c.toNat ≠ 0xF4 := by omega
          simp only [e1, e2, if_false] at a1
          by_cases e3 : c.toNat = 0xE0
          · simp only [e3, if_true] at a1; omega
          · omega
      · exact validRune_runeError
    · exact validRune_runeError
  split
  · rename_i h0 h1 h2 h3
    simp at h3
    split
    · split
      · rename_i h3
        simp only [Bool.and_eq_true] at h3
        have a1 := hb h3.1.1
        have a2 := hb h3.1.2
        have a3 := hb h3.2
        simp only [secondLo, secondHi] at a1
        simp only [validRune, Bool.or_eq_true, Bool.and_eq_true, decide_eq_true_eq]
        by_cases e1 : c.toNat = 0xF0
        · simp [e1] at a1; omega
        · by_cases e2 : c.toNat = 0xF4
          · simp [e2] at a1; omega
          · have e3 : c.toNat ≠ 0xED := by omega
            have e4 : c.toNat ≠ 0xE0 := by omega
            simp [e1, e2, e3, e4] at a1; omega
      · exact validRune_runeError
    · exact validRune_runeError
  · exact validRune_runeError

theorem decodeAux_valid : ∀ (s : Str) (k : Nat), ∀ r ∈ decodeAux k s, validRune r = true := by
  intro s
  induction s with
  | nil => intro k r h; cases k <;> simp [decodeAux] at h
  | cons c cs ih =>
    intro k r h
    cases k with
    | succ k => exact ih k r (by simpa [decodeAux] using h)
    | zero =>
      simp only [decodeAux, List.mem_cons] at h
      rcases h with rfl | h
      · exact decodeRune_valid c cs
      · exact ih _ r h

theorem decodeRunes_valid (s : Str) : ∀ r ∈ decodeRunes s, validRune r = true := decodeAux_valid s 0

theorem decodeAux_length_le : ∀ (s : Str) (k : Nat), (decodeAux k s).length ≤ s.length := by
  intro s
  induction s with
  | nil => intro k; cases k <;> simp [decodeAux]
  | cons c cs ih =>
    intro k
    cases k with
    | succ k => have := ih k; simp [decodeAux]; omega
    | zero => have := ih ((decodeRune c cs).2 - 1); simp [decodeAux]; omega

theorem decodeRunes_length_le (s : Str) : (decodeRunes s).length ≤ s.length := decodeAux_length_le s 0

theorem decodeRunes_ne_nil {s : Str} (h : s ≠ []) : decodeRunes s ≠ [] := by
  cases s with
  | nil => exact absurd rfl h
  | cons c cs => simp [decodeRunes, decodeAux]

theorem encodeRune_ascii {c : UInt8} (h : c.toNat < 0x80) : encodeRune c.toNat = [c] := by
  have : validRune c.toNat = true := by simp [validRune]; omega
  simp [encodeRune, this, encodeValid, h]

theorem isAscii_iff {s : Str} : isAscii s = true ↔ ∀ c ∈ s, c.toNat < 0x80 := by
  simp [isAscii]

theorem decodeRunes_ascii_cons {c : UInt8} (h : c.toNat < 0x80) (t : Str) :
    decodeRunes (c :: t) = c.toNat :: decodeRunes t := by
  simp [decodeRunes, decodeAux, decodeRune, h]

theorem decodeRunes_ascii_append {s : Str} (h : isAscii s = true) (t : Str) :
    decodeRunes (s ++ t) = s.map (·.toNat) ++ decodeRunes t := by
  rw [isAscii_iff] at h
  induction s with
  | nil => rfl
  | cons c cs ih =>
    have h1 := h c (by simp)
    have h2 := ih (fun x hx => h x (by simp [hx]))
    simp only [List.cons_append, decodeRunes_ascii_cons h1, List.map_cons, h2]

theorem decodeRunes_ascii {s : Str} (h : isAscii s = true) : decodeRunes s = s.map (·.toNat) := by
  have := decodeRunes_ascii_append h []
  simpa [decodeRunes, decodeAux] using this

theorem encodeRunes_ascii {s : Str} (h : isAscii s = true) : encodeRunes (s.map (·.toNat)) = s := by
  rw [isAscii_iff] at h
  induction s with
  | nil => rfl
  | cons c cs ih =>
    have h1 := h c (by simp)
    have h2 := ih (fun x hx => h x (by simp [hx]))
    have : encodeRunes ((c :: cs).map (·.toNat)) = encodeRune c.toNat ++ encodeRunes (cs.map (·.toNat)) := by
      simp [encodeRunes]
    rw [this, encodeRune_ascii h1, h2]; rfl

theorem asciiLower_lt {c : UInt8} (h : c.toNat < 0x80) : (asciiLower c).toNat < 0x80 := by
  unfold asciiLower
  split
  · have : (c + 32).toNat = (c.toNat + 32) % 256 := by simp [UInt8.toNat_add]
    omega
  · exact h

theorem toLower_ascii (lower : Nat → Nat) {s : Str} (h : isAscii s = true) : toLower lower s = s.map asciiLower := by
  simp [toLower, h]

theorem isAscii_map_lower {s : Str} (h : isAscii s = true) : isAscii (s.map asciiLower) = true := by
  rw [isAscii_iff] at *
  intro c hc
  simp only [List.mem_map] at hc
  obtain ⟨d, hd, rfl⟩ := hc
  exact asciiLower_lt (h d hd)

/-- Lower-casing keeps the number of runes. -/
theorem toLower_runes_length (lower : Nat → Nat) (s : Str) :
    (decodeRunes (toLower lower s)).length = (decodeRunes s).length := by
  unfold toLower
  split
  · rename_i h
    rw [decodeRunes_ascii (isAscii_map_lower h), decodeRunes_ascii h]; simp
  · rw [decodeRunes_encodeRunes]; simp

/-- The encoding of runes is valid UTF-8. -/
theorem validUtf8_encodeRunes (rs : List Nat) : validUtf8 (encodeRunes rs) = true := by
  simp only [validUtf8, beq_iff_eq]
  rw [decodeRunes_encodeRunes]
  induction rs with
  | nil => rfl
  | cons r rs ih =>
    have h1 : encodeRunes (r :: rs) = encodeRune r ++ encodeRunes rs := by simp [encodeRunes]
    have h2 : ∀ (a : Nat) (l : List Nat), encodeRunes (a :: l) = encodeRune a ++ encodeRunes l := by
      intros; simp [encodeRunes]
    rw [h1, List.map_cons, h2, ih]
    congr 1
    unfold encodeRune
    split
    · rename_i h; simp
    · rename_i h; simp [validRune_runeError]

end Verif.Go
