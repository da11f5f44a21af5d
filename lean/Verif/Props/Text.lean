import Verif.Proofs.Text
import Mathlib.Data.List.Chain
import Mathlib.Data.List.Induction
import Mathlib.Tactic.Tauto
/-
Properties C01, C02, C03: text normalisation (/repo/text/text.go); C57: the text shown by Describe (/repo/xdoc/describe.go).
-/
namespace Verif.Props
open Verif.Go Verif.Model Verif.Spec Verif.Proofs

/-! ### C02 -/

/-- C02: the result is exactly the one-pass specification: every non-blank byte is kept in order, and one
space stands between two kept bytes iff there was a blank between them and neither is a backslash. -/
theorem C02_exact (s : Str) : whitespaceRectified s = rectified none false s :=
  whitespaceRectified_eq s

private theorem rectified_filter : ∀ (s : Str) (p : Option UInt8) (g : Bool),
    (rectified p g s).filter (fun c => !blank c) = s.filter (fun c => !blank c) := by
  intro s
  induction s with
  | nil => intros; simp [rectified]
  | cons c cs ih =>
    intro p g
    have h32 : blank 32 = true := by decide
    by_cases hb : blank c = true
    · simp [rectified, hb, ih]
    · cases p with
      | none => simp [rectified, hb, ih]
      | some p =>
        simp only [rectified, hb, Bool.false_eq_true, if_false]
        split <;> simp [ih, hb, h32]

/-- C02: every non-blank byte survives, in order, and nothing else but spaces is added. -/
theorem C02_keeps_nonblank (s : Str) :
    (whitespaceRectified s).filter (fun c => !blank c) = s.filter (fun c => !blank c) := by
  rw [C02_exact, rectified_filter]

/-- The adjacent pairs that must not occur in a rectified text. -/
private def okPair (a b : UInt8) : Prop := ¬ ((a = 32 ∧ b = 32) ∨ (a = 32 ∧ b = 92) ∨ (a = 92 ∧ b = 32))

private theorem rectified_chain : ∀ (s : Str) (p : UInt8) (g : Bool), blank p = false →
    List.IsChain okPair (p :: rectified (some p) g s) ∧
    (p :: rectified (some p) g s).getLast? ≠ some 32 ∧
    (∀ c ∈ rectified (some p) g s, c ≠ 13 ∧ c ≠ 10 ∧ c ≠ 9) := by
  intro s
  induction s with
  | nil =>
    intro p g hp
    have : p ≠ 32 := by rintro rfl; simp [blank] at hp
    simp [rectified, this]
  | cons c cs ih =>
    intro p g hp
    have hp32 : p ≠ 32 := by rintro rfl; simp [blank] at hp
    by_cases hb : blank c = true
    · simp only [rectified, hb, if_true]; exact ih p true hp
    · have hb : blank c = false := by simpa using hb
      have hc32 : c ≠ 32 := by rintro rfl; simp [blank] at hb
      have hcx : c ≠ 13 ∧ c ≠ 10 ∧ c ≠ 9 := by
        simp [blank] at hb; exact ⟨hb.1.1.2, hb.1.2, hb.2⟩
      obtain ⟨i1, i2, i3⟩ := ih c false hb
      by_cases hx : (g && p != 92 && c != 92) = true
      · simp only [rectified, hb, hx, if_true, Bool.false_eq_true, if_false]
        simp only [Bool.and_eq_true, bne_iff_ne, ne_eq] at hx
        refine ⟨?_, ?_, ?_⟩
        · refine List.IsChain.cons_cons ?_ (List.IsChain.cons_cons ?_ i1)
          · simp [okPair, hp32, hx.1.2]
          · simp [okPair, hc32, hx.2]
        · rw [List.getLast?_cons_cons, List.getLast?_cons_cons]; exact i2
        · intro d hd
          simp only [List.mem_cons] at hd
          rcases hd with rfl | rfl | hd
          · decide
          · exact hcx
          · exact i3 d hd
      · simp only [rectified, hb, hx, Bool.false_eq_true, if_false]
        refine ⟨?_, ?_, ?_⟩
        · refine List.IsChain.cons_cons ?_ i1
          simp [okPair, hp32, hc32]
        · rw [List.getLast?_cons_cons]; exact i2
        · intro d hd
          simp only [List.mem_cons] at hd
          rcases hd with rfl | hd
          · exact hcx
          · exact i3 d hd

private theorem no_pair_of_chain {l : Str} (h : List.IsChain okPair l) {a b : UInt8} (hab : ¬ okPair a b) :
    ¬ [a, b] <:+: l := by
  intro hi
  have := h.infix hi
  simp at this
  exact hab this

private theorem rectified_normal : ∀ (s : Str) (g : Bool),
    List.IsChain okPair (rectified none g s) ∧ (rectified none g s).head? ≠ some 32 ∧
    (rectified none g s).getLast? ≠ some 32 ∧ (∀ c ∈ rectified none g s, c ≠ 13 ∧ c ≠ 10 ∧ c ≠ 9) := by
  intro s
  induction s with
  | nil => intro g; simp [rectified]
  | cons c cs ih =>
    intro g
    by_cases hb : blank c = true
    · simp only [rectified, hb, if_true]; exact ih true
    · have hb : blank c = false := by simpa using hb
      obtain ⟨i1, i2, i3⟩ := rectified_chain cs c false hb
      simp only [rectified, hb, Bool.false_eq_true, if_false]
      refine ⟨i1, ?_, i2, ?_⟩
      · simp; rintro rfl; simp [blank] at hb
      · intro d hd
        simp only [List.mem_cons] at hd
        rcases hd with rfl | hd
        · simp [blank] at hb; exact ⟨hb.1.1.2, hb.1.2, hb.2⟩
        · exact i3 d hd

/-! ### C01 -/

/-- C01: the normal form of `WhitespaceRectified`: no CR, LF, TAB; no doubled space; no leading or trailing
space; no space before or after a backslash. -/
theorem C01_normal_form (s : Str) :
    let r := whitespaceRectified s
    13 ∉ r ∧ 10 ∉ r ∧ 9 ∉ r ∧ ¬ [32, 32] <:+: r ∧ r.head? ≠ some 32 ∧ r.getLast? ≠ some 32 ∧
    ¬ [32, 92] <:+: r ∧ ¬ [92, 32] <:+: r := by
  simp only [C02_exact]
  obtain ⟨h1, h2, h3, h4⟩ := rectified_normal s false
  refine ⟨fun h => (h4 _ h).1 rfl, fun h => (h4 _ h).2.1 rfl, fun h => (h4 _ h).2.2 rfl, ?_, h2, h3, ?_, ?_⟩
  · exact no_pair_of_chain h1 (by simp [okPair])
  · exact no_pair_of_chain h1 (by simp [okPair])
  · exact no_pair_of_chain h1 (by simp [okPair])

/-- The normal form characterises the fixed points of the specification. -/
private theorem rectified_fix_tail : ∀ (r : Str) (p : UInt8), blank p = false →
    List.IsChain okPair (p :: r) → (p :: r).getLast? ≠ some 32 → (∀ c ∈ r, c ≠ 13 ∧ c ≠ 10 ∧ c ≠ 9) →
    rectified (some p) false r = r := by
  intro r
  induction r using List.twoStepInduction with
  | nil => intros; rfl
  | singleton c =>
    intro p hp hch hl hne
    have hc := hne c (by simp)
    have : c ≠ 32 := by intro h; apply hl; simp [h]
    have hb : blank c = false := by simp [blank, this, hc]
    simp [rectified, hb]
  | cons_cons c d cs ih1 ih2 =>
    intro p hp hch hl hne
    have hcn := hne c (by simp)
    have hdn := hne d (by simp)
    by_cases hc : c = 32
    · subst hc
      have h1 : okPair p 32 := (List.isChain_cons_cons.mp hch).1
      have h2 : okPair 32 d := (List.isChain_cons_cons.mp (List.isChain_cons_cons.mp hch).2).1
      have hd32 : d ≠ 32 := by rintro rfl; simp [okPair] at h2
      have hd92 : d ≠ 92 := by rintro rfl; simp [okPair] at h2
      have hp92 : p ≠ 92 := by rintro rfl; simp [okPair] at h1
      have hb : blank d = false := by simp [blank, hd32, hdn]
      have h32 : blank 32 = true := by decide
      have htail := ih1 d hb (List.isChain_cons_cons.mp (List.isChain_cons_cons.mp hch).2).2
        (by rw [List.getLast?_cons_cons, List.getLast?_cons_cons] at hl; exact hl)
        (fun x hx => hne x (by simp [hx]))
      rw [rectified]
      simp only [h32, if_true]
      rw [rectified]
      simp [hb, hp92, hd92, htail]
    · have hb : blank c = false := by simp [blank, hc, hcn]
      have htail := ih2 d c hb (List.isChain_cons_cons.mp hch).2
        (by rw [List.getLast?_cons_cons] at hl; exact hl)
        (fun x hx => hne x (by simp at hx ⊢; tauto))
      rw [rectified]
      simp [hb, htail]

/-- C02: applying it twice equals applying it once. -/
theorem C02_idempotent (s : Str) : whitespaceRectified (whitespaceRectified s) = whitespaceRectified s := by
  simp only [C02_exact]
  obtain ⟨h1, h2, h3, h4⟩ := rectified_normal s false
  generalize rectified none false s = r at *
  cases r with
  | nil => rfl
  | cons c cs =>
    have hc := h4 c (by simp)
    have hc32 : c ≠ 32 := by rintro rfl; simp at h2
    have hb : blank c = false := by simp [blank, hc32, hc]
    rw [rectified]
    simp only [hb, Bool.false_eq_true, if_false]
    rw [rectified_fix_tail cs c hb h1 h3 (fun x hx => h4 x (by simp [hx]))]

-- Non-trivial instance: tabs, newlines, doubled blanks and backslashes.
example : whitespaceRectified b!" a\t b \\  c\r\n d" = b!"a b\\c d" := by
  rw [C02_exact]; decide

/-! ### C03 -/

/-- C03: for a non-empty twin the result has no doubled twin left. -/
theorem C03_no_twin_left (s twin : Str) (h : twin ≠ []) : ¬ twin ++ twin <:+: removeTwins s twin :=
  removeTwins_no_twin h s

/-- C03: the result comes from `s` only by collapsing doubled twins, any number of times. -/
theorem C03_only_collapses (s twin : Str) : TwinSteps twin s (removeTwins s twin) :=
  removeTwins_steps twin s

/-- C03: the result is never longer. -/
theorem C03_not_longer (s twin : Str) : (removeTwins s twin).length ≤ s.length :=
  (removeTwins_steps twin s).length_le

/-- C03: a string with no doubled twin is returned unchanged. -/
theorem C03_unchanged (s twin : Str) (h : ¬ twin ++ twin <:+: s) : removeTwins s twin = s :=
  removeTwins_of_no_twin s h

/-- C03: applying it twice equals applying it once (also for the empty twin). -/
theorem C03_idempotent (s twin : Str) : removeTwins (removeTwins s twin) twin = removeTwins s twin := by
  by_cases h : twin = []
  · subst h
    have : ∀ s : Str, removeTwins s [] = s := by
      intro s; rw [removeTwins_eq]; simp [replaceAll]
    simp [this]
  · exact removeTwins_of_no_twin _ (removeTwins_no_twin h s)

-- A self-overlapping twin.
example : b!"aba" ≠ [] ∧ b!"aba" ++ b!"aba" <:+: b!"xabaabay" := by decide
example : ¬ b!"aba" ++ b!"aba" <:+: b!"xababay" := by decide

example : removeTwins b!"a    b" b!" " = b!"a b" := by rw [removeTwins_space]; decide

/-! ### C57 -/

/-- C57: the text Describe shows is exactly the one-pass specification: newlines vanish, and between two kept bytes
one space stays iff an odd number of spaces stood between them. -/
theorem C57_exact (s : Str) : clearStr s = cleared false false s := clearStr_eq s

private theorem cleared_keeps : ∀ (s : Str) (st odd : Bool),
    (cleared st odd s).filter (fun c => c != 32 && c != 10) = s.filter (fun c => c != 32 && c != 10) := by
  intro s
  induction s with
  | nil => intros; rfl
  | cons c cs ih =>
    intro st odd
    by_cases h : c = 10
    · subst h; simp [cleared, ih]
    · by_cases h' : c = 32
      · subst h'; simp [cleared, ih]
      · cases st <;> cases odd <;> simp [cleared, h, h', ih]

/-- C57: every byte other than space and newline survives, in order. -/
theorem C57_keeps (s : Str) :
    (clearStr s).filter (fun c => c != 32 && c != 10) = s.filter (fun c => c != 32 && c != 10) := by
  rw [C57_exact, cleared_keeps]

private theorem cleared_shape : ∀ (s : Str) (p : UInt8) (odd : Bool), p ≠ 32 →
    ¬ [32, 32] <:+: (p :: cleared true odd s) ∧ (p :: cleared true odd s).getLast? ≠ some 32 ∧ 10 ∉ cleared true odd s := by
  intro s
  induction s with
  | nil => intro p odd hp; simp [cleared, hp, List.infix_cons_iff]
  | cons c cs ih =>
    intro p odd hp
    by_cases h : c = 10
    · subst h; simpa [cleared] using ih p odd hp
    · by_cases h' : c = 32
      · subst h'; simpa [cleared] using ih p (!odd) hp
      · obtain ⟨i1, i2, i3⟩ := ih c false h'
        cases odd
        · simp only [cleared, h, h', if_false, Bool.and_false, Bool.false_eq_true, List.getLast?_cons_cons]
          refine ⟨?_, i2, by simp [i3, Ne.symm h]⟩
          rw [List.infix_cons_iff]; simp [i1, Ne.symm hp]
        · simp only [cleared, h, h', if_false, Bool.and_self, if_true, List.getLast?_cons_cons]
          refine ⟨?_, i2, by simp [i3, Ne.symm h]⟩
          rw [List.infix_cons_iff, List.infix_cons_iff]; simp [i1, Ne.symm hp, Ne.symm h']

/-- C57: no newline, no doubled space, no space at either end. -/
theorem C57_normal_form (s : Str) :
    10 ∉ clearStr s ∧ ¬ [32, 32] <:+: clearStr s ∧ (clearStr s).head? ≠ some 32 ∧ (clearStr s).getLast? ≠ some 32 := by
  rw [C57_exact]
  have key : ∀ (s : Str) (odd : Bool), 10 ∉ cleared false odd s ∧ ¬ [32, 32] <:+: cleared false odd s ∧
      (cleared false odd s).head? ≠ some 32 ∧ (cleared false odd s).getLast? ≠ some 32 := by
    intro s
    induction s with
    | nil => intro odd; simp [cleared]
    | cons c cs ih =>
      intro odd
      by_cases h : c = 10
      · subst h; simpa [cleared] using ih odd
      · by_cases h' : c = 32
        · subst h'; simpa [cleared] using ih (!odd)
        · obtain ⟨i1, i2, i3⟩ := cleared_shape cs c false h'
          simp only [cleared, h, h', if_false, Bool.false_and, Bool.false_eq_true]
          exact ⟨by simp [i3, Ne.symm h], i1, by simp [h'], i2⟩
  exact key s false

/-- C57 (consequence): two words separated by two spaces are glued together, those separated by one or three are not. -/
theorem C57_glues (a b : Str) (ha : ∀ c ∈ a, c ≠ 32 ∧ c ≠ 10) (hb : ∀ c ∈ b, c ≠ 32 ∧ c ≠ 10) (ha0 : a ≠ []) (hb0 : b ≠ []) :
    clearStr (a ++ [32, 32] ++ b) = a ++ b ∧ clearStr (a ++ [32, 32, 32] ++ b) = a ++ [32] ++ b ∧
    clearStr (a ++ [32] ++ b) = a ++ [32] ++ b := by
  have run : ∀ (w : Str) (st : Bool) (r : Str), (∀ c ∈ w, c ≠ 32 ∧ c ≠ 10) → w ≠ [] →
      cleared st false (w ++ r) = w ++ cleared true false r := by
    intro w
    induction w with
    | nil => intro _ _ _ h; exact absurd rfl h
    | cons c cs ih =>
      intro st r h _
      have hc := h c (by simp)
      by_cases he : cs = []
      · subst he; cases st <;> simp [cleared, hc]
      · cases st <;> simp [cleared, hc, ih true r (fun x hx => h x (by simp [hx])) he]
  have rb : cleared true false b = b := by simpa [cleared] using run b true [] hb hb0
  have ro : cleared true true b = 32 :: b := by
    cases b with
    | nil => exact absurd rfl hb0
    | cons c cs =>
      have hc := hb c (by simp)
      simp only [cleared, hc, if_false, Bool.and_self, Bool.and_false, if_true, Bool.false_eq_true] at rb ⊢
      rw [rb]
  simp only [C57_exact, List.append_assoc]
  refine ⟨?_, ?_, ?_⟩ <;> rw [run a false _ ha ha0] <;> simp [cleared, rb, ro]

example : clearStr b!"\n  one  two   three\n four " = b!"onetwo three four" := by rw [C57_exact]; decide

end Verif.Props
