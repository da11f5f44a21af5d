import Verif.Go.Quote
import Verif.Spec.Quote
import Verif.Proofs.Space
import Verif.Proofs.Utf8
/-
Quoting can be undone.
-/
namespace Verif.Proofs
open Verif.Go Verif.Spec

private theorem byte_of {c : UInt8} {k : Nat} (h : c.toNat = k) : UInt8.ofNat k = c := by
  apply UInt8.toNat_inj.mp
  have := c.toNat_lt
  rw [UInt8.toNat_ofNat', h]; omega

private theorem second_range {c b1 : UInt8} (h3 : secondLo c.toNat ≤ b1.toNat ∧ b1.toNat ≤ secondHi c.toNat) : 0x80 ≤ b1.toNat ∧ b1.toNat ≤ 0xBF := by
  unfold secondLo secondHi at h3
  obtain ⟨ha, hb⟩ := h3
  constructor
  · clear hb; split at ha
    · omega
    · split at ha <;> omega
  · clear ha; split at hb
    · omega
    · split at hb <;> omega

/-- A character that is no wrong byte is encoded by its bytes. -/
theorem take_encode (c : UInt8) (cs : Str) (h : (decodeRune c cs).2 ≠ 1 ∨ (decodeRune c cs).1 ≠ runeError) :
    (c :: cs).take (decodeRune c cs).2 = encodeRune (decodeRune c cs).1 := by
  have hv := decodeRune_valid c cs
  have he : encodeRune (decodeRune c cs).1 = encodeValid (decodeRune c cs).1 := by unfold encodeRune; rw [if_pos hv]
  rw [he]
  clear he hv
  have hc := c.toNat_lt
  revert h
  unfold decodeRune
  dsimp only
  by_cases h1 : c.toNat < 0x80
  · rw [if_pos h1]
    intro _
    simp only [encodeValid, if_pos h1, List.take_succ_cons, List.take_zero, byte_of rfl]
  rw [if_neg h1]
  split
  · rename_i h2
    simp only [Bool.and_eq_true, decide_eq_true_eq] at h2
    rcases cs with _ | ⟨b1, cs⟩
    · simp
    dsimp only
    split
    · rename_i h3
      simp only [inRange, Bool.and_eq_true, decide_eq_true_eq] at h3
      intro _
      unfold encodeValid
      rw [if_neg (by omega), if_pos (by omega)]
      simp only [List.take_succ_cons, List.take_zero, List.cons.injEq, and_true]
      exact ⟨(byte_of (by omega)).symm, (byte_of (by omega)).symm⟩
    · simp
  split
  · rename_i h2
    simp only [Bool.and_eq_true, decide_eq_true_eq] at h2
    rcases cs with _ | ⟨b1, _ | ⟨b2, cs⟩⟩
    · simp
    · simp
    dsimp only
    split
    · rename_i h3
      simp only [inRange, Bool.and_eq_true, decide_eq_true_eq] at h3
      intro _
      unfold encodeValid
      have hlo : c.toNat = 0xE0 → 0xA0 ≤ b1.toNat := by intro e; rw [e] at h3; simp [secondLo] at h3; omega
      have h8 : 0x80 ≤ b1.toNat ∧ b1.toNat ≤ 0xBF := by
        obtain ⟨⟨ha, hb⟩, _⟩ := h3
        exact second_range ⟨ha, hb⟩
      rw [if_neg (by omega), if_neg (by omega), if_pos (by omega)]
      simp only [List.take_succ_cons, List.take_zero, List.cons.injEq, and_true]
      exact ⟨(byte_of (by omega)).symm, (byte_of (by omega)).symm, (byte_of (by omega)).symm⟩
    · simp
  split
  · rename_i h2
    simp only [Bool.and_eq_true, decide_eq_true_eq] at h2
    rcases cs with _ | ⟨b1, _ | ⟨b2, _ | ⟨b3, cs⟩⟩⟩
    · simp
    · simp
    · simp
    dsimp only
    split
    · rename_i h3
      simp only [inRange, Bool.and_eq_true, decide_eq_true_eq] at h3
      intro _
      unfold encodeValid
      have hlo : c.toNat = 0xF0 → 0x90 ≤ b1.toNat := by intro e; rw [e] at h3; simp [secondLo] at h3; omega
      have h8 : 0x80 ≤ b1.toNat ∧ b1.toNat ≤ 0xBF := by
        obtain ⟨⟨⟨ha, hb⟩, _⟩, _⟩ := h3
        exact second_range ⟨ha, hb⟩
      rw [if_neg (by omega), if_neg (by omega), if_neg (by omega)]
      simp only [List.take_succ_cons, List.take_zero, List.cons.injEq, and_true]
      exact ⟨(byte_of (by omega)).symm, (byte_of (by omega)).symm, (byte_of (by omega)).symm, (byte_of (by omega)).symm⟩
    · simp
  · simp

/-- The bytes of a symbol. -/
def symBytes : Sym → Str
  | .rune r => encodeRune r
  | .byte b => [b]

/-- Symbols of strings: runes are valid, wrong bytes are not ASCII. -/
def SymOk : Sym → Prop
  | .rune r => validRune r = true
  | .byte b => 128 ≤ b.toNat

theorem symOf_ok (c : UInt8) (cs : Str) :
    symBytes (symOf ((decodeRune c cs).1, (c :: cs).take (decodeRune c cs).2)) = (c :: cs).take (decodeRune c cs).2 ∧
    SymOk (symOf ((decodeRune c cs).1, (c :: cs).take (decodeRune c cs).2)) := by
  by_cases h : (decodeRune c cs).2 = 1 ∧ (decodeRune c cs).1 = runeError
  · have e : symOf ((decodeRune c cs).1, (c :: cs).take (decodeRune c cs).2) = .byte c := by rw [h.1, h.2]; rfl
    rw [e, h.1]
    refine ⟨rfl, ?_⟩
    by_contra hlt
    have hlt : c.toNat < 128 := by simpa [SymOk] using hlt
    have : decodeRune c cs = (c.toNat, 1) := by unfold decodeRune; dsimp only; rw [if_pos hlt]
    rw [this] at h
    simp [runeError] at h
    omega
  · have h' : (decodeRune c cs).2 ≠ 1 ∨ (decodeRune c cs).1 ≠ runeError := by
      by_contra hn
      push Not at hn
      exact h hn
    have e : symOf ((decodeRune c cs).1, (c :: cs).take (decodeRune c cs).2) = .rune (decodeRune c cs).1 := by
      rcases ht : (c :: cs).take (decodeRune c cs).2 with _ | ⟨x, _ | ⟨y, t⟩⟩
      · rfl
      · have hl := congrArg List.length ht
        simp only [List.length_take, List.length_cons, List.length_nil] at hl
        have := width_le c cs
        have hr : (decodeRune c cs).1 ≠ runeError := by
          rcases h' with h' | h'
          · omega
          · exact h'
        simp only [symOf]
        rw [if_neg hr]
      · rfl
    rw [e]
    exact ⟨(take_encode c cs h').symm, decodeRune_valid c cs⟩

/-- What quoting sees gives back the string. -/
theorem syms_bytes : ∀ (n : Nat) (s : Str), s.length ≤ n → ((chunks s).map symOf).flatMap symBytes = s ∧ ∀ x ∈ (chunks s).map symOf, SymOk x
  | 0, s, h => by rw [List.length_eq_zero_iff.mp (Nat.le_zero.mp h)]; exact ⟨rfl, by simp [chunks, chunksAux]⟩
  | n + 1, [], _ => ⟨rfl, by simp [chunks, chunksAux]⟩
  | n + 1, c :: cs, h => by
    obtain ⟨h1, h2⟩ := symOf_ok c cs
    have hw := width_pos c cs
    obtain ⟨h3, h4⟩ := syms_bytes n ((c :: cs).drop (decodeRune c cs).2) (by simp at h ⊢; omega)
    rw [chunks_cons]
    refine ⟨?_, ?_⟩
    · rw [List.map_cons, List.flatMap_cons, h1, h3, List.take_append_drop]
    · intro x hx
      rcases List.mem_cons.mp hx with rfl | hx
      · exact h2
      · exact h4 x hx

/-! ### Undoing it -/

theorem unhex_digit {n : Nat} (h : n < 16) : unhex (hexDigit n) = n := by
  unfold hexDigit
  split
  · rw [unhex, toNat_ofNat_lt (by omega)]; split <;> omega
  · rw [unhex, toNat_ofNat_lt (by omega)]; split <;> omega

theorem readChar_quote (isPrint : Nat → Bool) {x : Sym} (hx : SymOk x) (t : Str) : readChar (quoteSym isPrint x ++ t) = some (symBytes x, t) := by
  cases x with
  | byte b =>
    have hb := b.toNat_lt
    simp only [SymOk] at hx
    have h1 := unhex_digit (n := b.toNat / 16 % 16) (by omega)
    have h2 := unhex_digit (n := b.toNat % 16) (by omega)
    show readChar (92 :: 120 :: hexDigit (b.toNat / 16 % 16) :: hexDigit (b.toNat % 16) :: t) = _
    simp only [readChar, h1, h2]
    rw [byte_of (c := b) (by omega)]
    rfl
  | rune r =>
    have hv := validRune_lt hx
    simp only [quoteSym]
    split
    · rename_i h
      rcases h with rfl | rfl <;> rfl
    rename_i hq
    split
    · -- as it is
      have hd := decodeRunes_encodeRune_append r t
      rw [if_pos (show validRune r = true from hx)] at hd
      have hne : ∀ u, encodeRune r ++ t ≠ 92 :: u := by
        intro u hu
        rw [hu, decodeRunes_ascii_cons (by decide)] at hd
        have : r = 92 := by
          have := (List.cons.inj hd).1
          simpa using this.symm
        exact hq (Or.inr this)
      have : readChar (encodeRune r ++ t) = match decodeRunes (encodeRune r ++ t) with
          | [] => none
          | r' :: _ => some (encodeRune r', (encodeRune r ++ t).drop (encodeRune r').length) := by
        generalize hs : encodeRune r ++ t = s at hne
        unfold readChar
        split
        · exact absurd rfl (hne _)
        · exact absurd rfl (hne _)
        · exact absurd rfl (hne _)
        · exact absurd rfl (hne _)
        · rfl
      rw [this, hd]
      simp [symBytes]
    split
    · rename_i h; subst h; rfl
    split
    · rename_i h; subst h; rfl
    split
    · rename_i h; subst h; rfl
    split
    · rename_i h; subst h; rfl
    split
    · rename_i h; subst h; rfl
    split
    · rename_i h; subst h; rfl
    split
    · rename_i h; subst h; rfl
    split
    · rename_i h
      have h1 := unhex_digit (n := r / 16 % 16) (by omega)
      have h2 := unhex_digit (n := r % 16) (by omega)
      show readChar (92 :: 120 :: hexDigit (r / 16 % 16) :: hexDigit (r % 16) :: t) = _
      simp only [readChar, h1, h2]
      have : 16 * (r / 16 % 16) + r % 16 = r := by omega
      have he : encodeRune r = [UInt8.ofNat r] := by
        unfold encodeRune
        rw [if_pos (show validRune r = true from hx), encodeValid, if_pos (by omega)]
      rw [this, symBytes, he]
    split
    · rename_i h
      have h1 := unhex_digit (n := r / 16 / 16 / 16 % 16) (by omega)
      have h2 := unhex_digit (n := r / 16 / 16 % 16) (by omega)
      have h3 := unhex_digit (n := r / 16 % 16) (by omega)
      have h4 := unhex_digit (n := r % 16) (by omega)
      show readChar (92 :: 117 :: hexDigit (r / 16 / 16 / 16 % 16) :: hexDigit (r / 16 / 16 % 16) :: hexDigit (r / 16 % 16) :: hexDigit (r % 16) :: t) = _
      simp only [readChar, h1, h2, h3, h4]
      have : 16 * (16 * (16 * (r / 16 / 16 / 16 % 16) + r / 16 / 16 % 16) + r / 16 % 16) + r % 16 = r := by omega
      rw [this, symBytes]
    · have h1 := unhex_digit (n := r / 16 / 16 / 16 / 16 / 16 / 16 / 16 % 16) (by omega)
      have h2 := unhex_digit (n := r / 16 / 16 / 16 / 16 / 16 / 16 % 16) (by omega)
      have h3 := unhex_digit (n := r / 16 / 16 / 16 / 16 / 16 % 16) (by omega)
      have h4 := unhex_digit (n := r / 16 / 16 / 16 / 16 % 16) (by omega)
      have h5 := unhex_digit (n := r / 16 / 16 / 16 % 16) (by omega)
      have h6 := unhex_digit (n := r / 16 / 16 % 16) (by omega)
      have h7 := unhex_digit (n := r / 16 % 16) (by omega)
      have h8 := unhex_digit (n := r % 16) (by omega)
      show readChar (92 :: 85 :: hexDigit (r / 16 / 16 / 16 / 16 / 16 / 16 / 16 % 16) :: hexDigit (r / 16 / 16 / 16 / 16 / 16 / 16 % 16) ::
        hexDigit (r / 16 / 16 / 16 / 16 / 16 % 16) :: hexDigit (r / 16 / 16 / 16 / 16 % 16) :: hexDigit (r / 16 / 16 / 16 % 16) :: hexDigit (r / 16 / 16 % 16) ::
        hexDigit (r / 16 % 16) :: hexDigit (r % 16) :: t) = _
      simp only [readChar, h1, h2, h3, h4, h5, h6, h7, h8]
      have : 16 * (16 * (16 * (16 * (16 * (16 * (16 * (r / 16 / 16 / 16 / 16 / 16 / 16 / 16 % 16) + r / 16 / 16 / 16 / 16 / 16 / 16 % 16) + r / 16 / 16 / 16 / 16 / 16 % 16) +
        r / 16 / 16 / 16 / 16 % 16) + r / 16 / 16 / 16 % 16) + r / 16 / 16 % 16) + r / 16 % 16) + r % 16 = r := by omega
      rw [this, symBytes]

/-- What is written never begins like the end of the literal. -/
theorem quote_head (isPrint : Nat → Bool) {x : Sym} (hx : SymOk x) (t : Str) : (quoteSym isPrint x ++ t).head? ≠ some 34 := by
  cases x with
  | byte b => simp [quoteSym]
  | rune r =>
    simp only [quoteSym]
    split
    · simp
    rename_i hq
    split
    · intro h
      obtain ⟨u, hu⟩ : ∃ u, encodeRune r ++ t = 34 :: u := by
        cases hs : encodeRune r ++ t with
        | nil => rw [hs] at h; simp at h
        | cons c u => rw [hs] at h; simp at h; exact ⟨u, by rw [h]⟩
      have hd := decodeRunes_encodeRune_append r t
      rw [if_pos (show validRune r = true from hx), hu, decodeRunes_ascii_cons (by decide)] at hd
      have : r = 34 := by
        have := (List.cons.inj hd).1
        simpa using this.symm
      exact hq (Or.inl this)
    split
    · simp
    split
    · simp
    split
    · simp
    split
    · simp
    split
    · simp
    split
    · simp
    split
    · simp
    split
    · simp
    split
    · simp
    · simp

theorem readChars_quote (isPrint : Nat → Bool) (t : Str) : ∀ (xs : List Sym) (n : Nat), (∀ x ∈ xs, SymOk x) → xs.length < n →
    readChars n (xs.flatMap (quoteSym isPrint) ++ 34 :: t) = some (xs.flatMap symBytes, t)
  | [], 0, _, h => by simp at h
  | [], n + 1, _, _ => by simp [readChars]
  | x :: xs, 0, _, h => by simp at h
  | x :: xs, n + 1, hx, h => by
    have ih := readChars_quote isPrint t xs n (fun z hz => hx z (by simp [hz])) (by simpa using h)
    rw [List.flatMap_cons, List.append_assoc, readChars, if_neg (quote_head isPrint (hx x (by simp)) _), readChar_quote isPrint (hx x (by simp))]
    simp only [ih, Option.map_some, List.flatMap_cons]

theorem quoteSym_length (isPrint : Nat → Bool) {x : Sym} (hx : SymOk x) : 1 ≤ (quoteSym isPrint x).length := by
  by_contra h
  have h0 : quoteSym isPrint x = [] := List.length_eq_zero_iff.mp (by omega)
  have := readChar_quote isPrint hx [34]
  have := quote_head isPrint hx [34]
  rw [h0] at this
  simp at this

theorem quoteSyms_length (isPrint : Nat → Bool) : ∀ (xs : List Sym), (∀ x ∈ xs, SymOk x) → xs.length ≤ (xs.flatMap (quoteSym isPrint)).length
  | [], _ => by simp
  | x :: xs, hx => by
    have := quoteSym_length isPrint (hx x (by simp))
    have := quoteSyms_length isPrint xs (fun z hz => hx z (by simp [hz]))
    simp only [List.flatMap_cons, List.length_append, List.length_cons]
    omega

/-- A quoted string reads as the string. -/
theorem readLiteral_quote (isPrint : Nat → Bool) (s t : Str) : readLiteral (quote isPrint s ++ t) = some (s, t) := by
  obtain ⟨hb, ho⟩ := syms_bytes _ s le_rfl
  have hl := quoteSyms_length isPrint _ ho
  have e : ((chunks s).flatMap fun c => quoteSym isPrint (symOf c)) = ((chunks s).map symOf).flatMap (quoteSym isPrint) := by rw [List.flatMap_map]
  unfold readLiteral quote
  rw [e]
  simp only [List.cons_append, List.append_assoc, List.nil_append, expect, List.isPrefixOf, beq_self_eq_true, Bool.true_and, if_true, List.length_cons,
    List.length_nil, Nat.zero_add, List.drop_succ_cons, List.drop_zero, Option.bind_some]
  rw [readChars_quote isPrint t _ _ ho (by simp only [List.length_append]; omega), hb]

/-- No control character of ASCII. -/
def Shown (c : UInt8) : Prop := 32 ≤ c.toNat ∧ c.toNat ≠ 127

theorem hexDigit_shown {n : Nat} (h : n < 16) : Shown (hexDigit n) := by
  unfold hexDigit Shown
  split
  · rw [toNat_ofNat_lt (by omega)]; omega
  · rw [toNat_ofNat_lt (by omega)]; omega

theorem hexDigits_shown : ∀ (k n : Nat), ∀ c ∈ hexDigits k n, Shown c
  | 0, _, c, h => by simp [hexDigits] at h
  | k + 1, n, c, h => by
    rcases List.mem_append.mp h with h | h
    · exact hexDigits_shown k _ c h
    · rw [List.mem_singleton.mp h]; exact hexDigit_shown (by omega)

theorem encodeRune_shown {r : Nat} (hr : r < 128 → 32 ≤ r ∧ r ≤ 126) : ∀ c ∈ encodeRune r, Shown c := by
  have h : ∀ r : Nat, (r < 128 → 32 ≤ r ∧ r ≤ 126) → r < 0x110000 → ∀ c ∈ encodeValid r, Shown c := by
    intro r hr hv c hc
    unfold encodeValid at hc
    unfold Shown
    split at hc
    · rename_i h1
      rw [List.mem_singleton.mp hc, toNat_ofNat_lt (by omega)]; have := hr h1; omega
    split at hc
    · simp only [List.mem_cons, List.not_mem_nil, or_false] at hc
      rcases hc with rfl | rfl <;> rw [toNat_ofNat_lt (by omega)] <;> omega
    split at hc
    · simp only [List.mem_cons, List.not_mem_nil, or_false] at hc
      rcases hc with rfl | rfl | rfl <;> rw [toNat_ofNat_lt (by omega)] <;> omega
    · simp only [List.mem_cons, List.not_mem_nil, or_false] at hc
      rcases hc with rfl | rfl | rfl | rfl <;> rw [toNat_ofNat_lt (by omega)] <;> omega
  unfold encodeRune
  split
  · rename_i hv; exact h r hr (by have := validRune_lt hv; omega)
  · exact h _ (by decide) (by decide)

theorem quote_shown {isPrint : Nat → Bool} (hp : ∀ r < 128, isPrint r = true → 32 ≤ r ∧ r ≤ 126) (s : Str) : ∀ c ∈ quote isPrint s, Shown c := by
  have two : ∀ a b : UInt8, (32 ≤ a.toNat ∧ a.toNat ≠ 127) → (32 ≤ b.toNat ∧ b.toNat ≠ 127) → ∀ c ∈ [a, b], Shown c := by
    intro a b ha hb c hc
    simp only [List.mem_cons, List.not_mem_nil, or_false] at hc
    rcases hc with rfl | rfl
    · exact ha
    · exact hb
  have q : ∀ x, ∀ c ∈ quoteSym isPrint x, Shown c := by
    intro x c hc
    cases x with
    | byte b =>
      rcases List.mem_append.mp hc with hc | hc
      · exact two _ _ (by decide) (by decide) c hc
      · exact hexDigits_shown _ _ c hc
    | rune r =>
      simp only [quoteSym] at hc
      split at hc
      · rename_i h
        rcases h with rfl | rfl <;> exact two _ _ (by decide) (by decide) c hc
      split at hc
      · rename_i h; exact encodeRune_shown (fun hr => hp r hr h) c hc
      split at hc
      · exact two _ _ (by decide) (by decide) c hc
      split at hc
      · exact two _ _ (by decide) (by decide) c hc
      split at hc
      · exact two _ _ (by decide) (by decide) c hc
      split at hc
      · exact two _ _ (by decide) (by decide) c hc
      split at hc
      · exact two _ _ (by decide) (by decide) c hc
      split at hc
      · exact two _ _ (by decide) (by decide) c hc
      split at hc
      · exact two _ _ (by decide) (by decide) c hc
      split at hc
      · rcases List.mem_append.mp hc with hc | hc
        · exact two _ _ (by decide) (by decide) c hc
        · exact hexDigits_shown _ _ c hc
      split at hc
      · rcases List.mem_append.mp hc with hc | hc
        · exact two _ _ (by decide) (by decide) c hc
        · exact hexDigits_shown _ _ c hc
      · rcases List.mem_append.mp hc with hc | hc
        · exact two _ _ (by decide) (by decide) c hc
        · exact hexDigits_shown _ _ c hc
  intro c hc
  unfold quote at hc
  rcases List.mem_append.mp hc with hc | hc
  · rcases List.mem_cons.mp hc with rfl | hc
    · exact ⟨by decide, by decide⟩
    · obtain ⟨x, _, hx⟩ := List.mem_flatMap.mp hc
      exact q _ c hx
  · rw [List.mem_singleton.mp hc]; exact ⟨by decide, by decide⟩

/-- A name of printable ASCII characters without quote and backslash is between the quotes as it is. -/
theorem quote_plain {isPrint : Nat → Bool} (hp : ∀ r, 32 ≤ r → r ≤ 126 → isPrint r = true) (s : Str)
    (hs : ∀ c ∈ s, 32 ≤ c.toNat ∧ c.toNat ≤ 126 ∧ c ≠ 34 ∧ c ≠ 92) : quote isPrint s = 34 :: s ++ [34] := by
  unfold quote
  congr 2
  induction s with
  | nil => rfl
  | cons c cs ih =>
    obtain ⟨h1, h2, h3, h4⟩ := hs c (by simp)
    have hd : decodeRune c cs = (c.toNat, 1) := by unfold decodeRune; dsimp only; rw [if_pos (by omega)]
    rw [chunks_cons, hd, List.flatMap_cons]
    simp only [List.take_succ_cons, List.take_zero, List.drop_succ_cons, List.drop_zero]
    rw [ih fun x hx => hs x (by simp [hx])]
    have hne : c.toNat ≠ runeError := by simp [runeError]; omega
    have hq : ¬ (c.toNat = 34 ∨ c.toNat = 92) := by
      rintro (h | h)
      · exact h3 (UInt8.toNat_inj.mp h)
      · exact h4 (UInt8.toNat_inj.mp h)
    simp only [symOf, if_neg hne, quoteSym, if_neg hq, hp _ h1 h2, if_true]
    rw [encodeRune_ascii (by omega)]
    rfl

end Verif.Proofs
