import Verif.Spec.Spelled
import Verif.Proofs.Hyphen
import Verif.Props.Hyphen
/-
Proofs for C118: the words the built-in hyphenator breaks.
-/
namespace Verif.Proofs
open Verif.Go Verif.Model Verif.Spec Verif.Model.Tables Verif.Props

theorem initPieces_length_eq (s : Str) : ∀ (cuts : List Nat) (last : Nat), (initPieces s last cuts).length = cuts.length
  | [], _ => rfl
  | c :: cs, _ => by simp [initPieces, initPieces_length_eq s cs c]

/-- The first pieces are the word up to the last of their cuts. -/
theorem initPieces_take (s : Str) : ∀ (cuts : List Nat) (last i : Nat), (∀ c ∈ cuts, last ≤ c) → cuts.Pairwise (· < ·) → 1 ≤ i → i ≤ cuts.length →
    ∃ k ∈ cuts, ((initPieces s last cuts).take i).flatten = (s.drop last).take (k - last)
  | [], _, i, _, _, h1, h2 => by simp at h2; omega
  | c :: cs, last, i, hl, hp, h1, h2 => by
    obtain ⟨j, rfl⟩ : ∃ j, i = j + 1 := ⟨i - 1, by omega⟩
    rw [List.pairwise_cons] at hp
    rcases Nat.eq_zero_or_pos j with rfl | hj
    · exact ⟨c, by simp, by simp [initPieces]⟩
    · obtain ⟨k, hk, e⟩ := initPieces_take s cs c j (fun d hd => (hp.1 d hd).le) hp.2 hj (by simpa using h2)
      refine ⟨k, by simp [hk], ?_⟩
      have h3 := hl c (by simp)
      have h4 := hp.1 k hk
      simp only [initPieces, List.take_succ_cons, List.flatten_cons, e]
      rw [show s.drop c = (s.drop last).drop (c - last) by rw [List.drop_drop]; congr 1; omega, show k - last = (c - last) + (k - c) by omega, List.take_add]

variable {nd : Nat → Bool} {lower : Nat → Nat}

/-- The built-in hyphenator is that of the table, which loads. -/
theorem newEnUs_eq (nd : Nat → Bool) (lower : Nat → Nat) : ∃ pl, parsePatterns nd enUsText = some pl ∧ ∀ w, hyphenate lower pl w = some (newEnUs nd lower w) := by
  obtain ⟨pl, h, -⟩ := C10_enUs nd
  refine ⟨pl, h, fun w => ?_⟩
  obtain ⟨parts, hp⟩ := C04_no_panic nd lower enUsText pl h w
  rw [newEnUs, h, Option.bind_some, hp, Option.getD_some]

theorem syntax_letters {digit : Nat → Bool} {line letters weights : List Nat} (h : PatternSyntax digit line letters weights) : ∀ r ∈ letters, r ∈ line := by
  induction h with
  | nil => simp
  | last => simp
  | letter r _ _ ih => intro x hx; rcases List.mem_cons.mp hx with rfl | hx <;> simp_all
  | digitLetter d r _ _ _ _ ih => intro x hx; rcases List.mem_cons.mp hx with rfl | hx <;> simp_all

/-- Runes written in ASCII are valid. -/
theorem encode_ascii {rs : List Nat} (h : isAscii (encodeRunes rs) = true) : ∀ r ∈ rs, validRune r = true := by
  intro r hr
  by_contra hv
  rw [isAscii_iff] at h
  have : (0xEF : UInt8) ∈ encodeRunes rs := by
    refine List.mem_flatMap.mpr ⟨r, hr, ?_⟩
    unfold encodeRune
    rw [if_neg hv]
    decide +kernel
  exact absurd (h _ this) (by decide)

theorem ascii_encode {rs : List Nat} (h : ∀ r ∈ rs, r < 128) : isAscii (encodeRunes rs) = true := by
  rw [isAscii_iff]
  intro c hc
  obtain ⟨r, hr, hc⟩ := List.mem_flatMap.mp hc
  have h1 := h r hr
  have hv : validRune r = true := by simp [validRune]; omega
  unfold encodeRune encodeValid at hc
  rw [if_pos hv, if_pos (by omega)] at hc
  rw [List.mem_singleton.mp hc]
  simp; omega

/-- What is found in the table are its patterns. -/
theorem patFn_english {pl : Lookup} (hl : parsePatterns nd enUsText = some pl) (letters weights : List Nat) :
    patFn pl letters = some weights ↔ EnglishPattern letters weights := by
  have hd : isDigit nd0 = fun r => 48 ≤ r && r ≤ 57 := by
    funext r
    unfold isDigit nd0
    split
    · rfl
    · rw [Bool.eq_iff_iff]; simp; omega
  have hs : ∀ l ∈ enUsLines, ∀ p, parsePattern nd0 l = some p ↔ PatternSyntax (fun r => 48 ≤ r && r ≤ 57) (l.map UInt8.toNat) p.letters p.weights := by
    intro l h p
    rw [C09_syntax, hd, decodeRunes_ascii (enUs_ascii l h)]
  have hasc : ∀ l ∈ enUsLines, ∀ ls ws, PatternSyntax (fun r => 48 ≤ r && r ≤ 57) (l.map UInt8.toNat) ls ws → ∀ r ∈ ls, r < 128 := by
    intro l h ls ws hp r hr
    obtain ⟨c, hc, rfl⟩ := List.mem_map.mp (syntax_letters hp r hr)
    exact isAscii_iff.mp (enUs_ascii l h) c hc
  have hok := Verif.Proofs.EnUsTable.allOk
  have hnd : ∀ l ∈ enUsLines, ∀ r ∈ decodeRunes l, 0xFF < r → nd r = nd0 r := by
    intro l h r hr h1
    rw [decodeRunes_ascii (enUs_ascii l h)] at hr
    obtain ⟨c, hc, rfl⟩ := List.mem_map.mp hr
    have := isAscii_iff.mp (enUs_ascii l h) c hc
    omega
  have e : pl = tableLookup enUsLines := Option.some.inj (hl.symm.trans (table_load (nd := nd) enUsLines hok hnd).1)
  unfold patFn
  rw [Option.map_eq_some_iff]
  constructor
  · rintro ⟨p, hp, rfl⟩
    rw [e] at hp
    have hv : ∀ r ∈ letters, validRune r = true := by
      apply encode_ascii
      have hm := lookup_mem hp
      simp only [tableLookup, List.mem_reverse, List.mem_map, Prod.mk.injEq] at hm
      obtain ⟨q, hq, h1, -⟩ := hm
      obtain ⟨l, h, hq⟩ := List.mem_filterMap.mp hq
      have h2 := hasc l h _ _ ((hs l h q).mp hq)
      rw [← h1]
      exact ascii_encode h2
    obtain ⟨h1, l, h2, h3⟩ := find_table_mem hv hp
    rw [← h1]
    exact ⟨l, h2, (hs l h2 p).mp h3⟩
  · rintro ⟨l, h, hp⟩
    refine ⟨⟨letters, weights⟩, ?_, rfl⟩
    rw [e]
    exact table_find enUsLines hok Verif.Proofs.EnUsTable.keysNodup l h ⟨letters, weights⟩ ((hs l h ⟨letters, weights⟩).mpr hp)

/-- Where the built-in hyphenator breaks a word, and what is left of it. -/
theorem newEnUs_break {w : Str} {i : Nat} (h1 : 1 ≤ i) (h2 : i < (newEnUs nd lower w).length) :
    EnglishBreak lower w ((newEnUs nd lower w).take i).flatten ((newEnUs nd lower w).drop i).flatten := by
  obtain ⟨pl, hl, he⟩ := newEnUs_eq nd lower
  have hw := he w
  by_cases ho : w.length < 3 ∨ w.length > 100 ∨ 32 ∈ w
  · rw [C06_opt_out lower pl w ho] at hw
    rw [← Option.some.inj hw] at h2
    simp at h2
    omega
  have h3 : 3 ≤ w.length := by omega
  have h100 : w.length ≤ 100 := by omega
  have hsp : 32 ∉ w := fun h => ho (.inr (.inr h))
  obtain ⟨mid, hm, hc, e⟩ := hyphenate_cuts (lower := lower) (parsePatterns_ok hl) h3 hsp h100
  have hfl := C05_lost_iff nd lower enUsText pl hl w h3 h100 hsp _ hc _ hw
  have hlo := C05_lossless_partial nd lower enUsText pl hl w _ hw
  obtain ⟨-, hlen⟩ := C06_parts nd lower enUsText pl hl w h3 h100 hsp _ hw
  rw [hw] at e
  generalize newEnUs nd lower w = parts at *
  obtain ⟨k, hk, ek⟩ : ∃ k ∈ cutsOf 0 0 mid, (parts.take i).flatten = w.take k := by
    have hp : ∃ tail : List Str, parts = initPieces w 0 (cutsOf 0 0 mid) ++ tail ∧ tail.length ≤ 1 := by
      rw [Option.some.inj e]
      split
      · exact ⟨_, pieces_eq w _ 0, by simp⟩
      · exact ⟨[], by simp, by simp⟩
    obtain ⟨tail, hp, ht⟩ := hp
    have h4 : (initPieces w 0 (cutsOf 0 0 mid)).length = (cutsOf 0 0 mid).length := initPieces_length_eq w _ 0
    rw [hp, List.length_append, h4] at h2
    obtain ⟨k, hk, ek⟩ := initPieces_take w (cutsOf 0 0 mid) 0 i (by simp) (cutsOf_sorted _ _ _) h1 (by omega)
    exact ⟨k, hk, by rw [hp, List.take_append_of_le_length (by omega), ek]; simp⟩
  have hsplit : w.take k ++ (parts.drop i).flatten = parts.flatten := by rw [← ek, ← List.flatten_append, List.take_append_drop]
  have hkn : k < w.length := by
    have := ((hc.2 k).mp hk).1
    have := decodeRunes_length_le w
    omega
  have htl : (w.take k).length = k := by simp; omega
  have hdrop : (parts.drop i).flatten = parts.flatten.drop k := by rw [← hsplit]; exact (List.drop_left' htl).symm
  have h2' : 2 ≤ (parts.drop i).flatten.length := by
    obtain ⟨q, qs, hq⟩ : ∃ q qs, parts.drop i = q :: qs := List.exists_cons_of_ne_nil (by rw [Ne, List.drop_eq_nil_iff]; omega)
    have := (hlen q (List.mem_of_mem_drop (by rw [hq]; simp))).1
    rw [hq, List.flatten_cons, List.length_append]
    omega
  refine ⟨h3, h100, _, ⟨_, patFn_english hl, hc⟩, k, hk, ?_, ek, ?_⟩
  · have h5 := congrArg List.length hsplit
    rw [List.length_append, htl] at h5
    have h6 : parts.flatten.length ≤ w.length := by
      rcases hlo with h | h
      · rw [h]
      · rw [h.2]; simp
    omega
  · rw [hdrop]
    split
    · rename_i hm'
      rcases hlo with h | h
      · exact absurd hm' (hfl.mp h)
      · rw [h.2, List.dropLast_eq_take, List.dropLast_eq_take, List.drop_take, List.length_drop, Nat.sub_right_comm]
    · rename_i hm'
      rw [hfl.mpr hm']

/-- From the parts of the hyphenator to the places of the patterns. -/
theorem written_spelled {ws ts : List Str} (h : Written (newEnUs nd lower) ws ts) : Spelled (EnglishBreak lower) ws ts := by
  induction h with
  | nil => exact .nil
  | whole ht _ ih => exact .whole ht ih
  | broken i h1 h2 ht hu _ ih => exact .broken (hu ▸ newEnUs_break h1 h2) ht ih
  | blank ht _ ih => exact .blank ht ih

/-- A letter of the words is in the texts as often, if nothing is lost. -/
theorem spelled_count {ws ts : List Str} (c : UInt8) (h1 : c ≠ 32) (h2 : c ≠ 45) (h : Spelled Lossless ws ts) : ts.flatten.count c = ws.flatten.count c := by
  induction h with
  | nil => rfl
  | @whole w ws t ts ht _ ih => rcases ht with rfl | rfl <;> simp [ih, h1.symm]
  | @broken w ws t u v ts hb hv _ ih =>
    have : w.count c = t.count c + u.count c := by rw [← hb, List.count_append]
    rcases hv with rfl | rfl <;> simp [ih, h1.symm, h2.symm, this] <;> omega
  | @blank ws t ts ht _ ih => rcases ht with rfl | rfl <;> simp [ih, h1.symm]

end Verif.Proofs
