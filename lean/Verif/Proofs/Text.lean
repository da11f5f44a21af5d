import Mathlib.Data.List.Induction
import Verif.Model.Text
import Verif.Spec.Text
/- Lemmas for Props.Text. -/
namespace Verif.Proofs
open Verif.Go Verif.Model Verif.Spec

/-! ### RemoveTwins -/

theorem _root_.Verif.Spec.TwinSteps.trans {t : Str} {a b c : Str} (h1 : TwinSteps t a b) (h2 : TwinSteps t b c) :
    TwinSteps t a c := by
  induction h2 with
  | refl => exact h1
  | tail _ s ih => exact ih.tail s

theorem _root_.Verif.Spec.TwinStep.cons {t : Str} {a b : Str} (x : UInt8) (h : TwinStep t a b) : TwinStep t (x :: a) (x :: b) := by
  cases h with
  | mk a b => exact TwinStep.mk (x :: a) b

theorem _root_.Verif.Spec.TwinStep.append {t : Str} {a b : Str} (p : Str) (h : TwinStep t a b) : TwinStep t (p ++ a) (p ++ b) := by
  induction p with
  | nil => exact h
  | cons x p ih => exact TwinStep.cons x ih

theorem _root_.Verif.Spec.TwinSteps.append {t : Str} {a b : Str} (p : Str) (h : TwinSteps t a b) :
    TwinSteps t (p ++ a) (p ++ b) := by
  induction h with
  | refl => exact .refl _
  | tail _ s ih => exact ih.tail (s.append p)

theorem replaceAux_skip {old new : Str} : ∀ (k : Nat) (s : Str), k ≤ s.length →
    replaceAux old new k s = replaceAux old new 0 (s.drop k) := by
  intro k
  induction k with
  | zero => intro s _; simp
  | succ k ih =>
    intro s h
    cases s with
    | nil => simp at h
    | cons c cs => simp only [replaceAux, List.drop_succ_cons]; exact ih cs (by simpa using h)

theorem replaceAux_prefix {old new : Str} (h0 : old ≠ []) (r : Str) :
    replaceAux old new 0 (old ++ r) = new ++ replaceAux old new 0 r := by
  cases hold : old with
  | nil => exact absurd hold h0
  | cons c cs =>
    have hp : (c :: cs).isPrefixOf (c :: cs ++ r) = true :=
      List.isPrefixOf_iff_prefix.mpr (List.prefix_append _ _)
    have : c :: cs ++ r = c :: (cs ++ r) := rfl
    rw [this] at *
    simp only [replaceAux, hp, if_true]
    rw [replaceAux_skip]
    · simp
    · simp

theorem replaceAux_not_prefix {old new : Str} {c : UInt8} {cs : Str} (h : ¬ old <+: c :: cs) :
    replaceAux old new 0 (c :: cs) = c :: replaceAux old new 0 cs := by
  have : old.isPrefixOf (c :: cs) = false := by
    cases hb : old.isPrefixOf (c :: cs) with
    | false => rfl
    | true => exact absurd (List.isPrefixOf_iff_prefix.mp hb) h
  simp [replaceAux, this]

/-- Induction principle following `replaceAux` at skip 0. -/
theorem replace_induction {old : Str} (h0 : old ≠ []) {P : Str → Prop}
    (hnil : P []) (hmatch : ∀ r, P r → P (old ++ r))
    (hno : ∀ c cs, ¬ old <+: c :: cs → P cs → P (c :: cs)) : ∀ s, P s := by
  have hpos : 0 < old.length := List.length_pos_iff.mpr h0
  have : ∀ n (s : Str), s.length ≤ n → P s := by
    intro n
    induction n with
    | zero => intro s h; have : s = [] := List.length_eq_zero_iff.mp (by omega); subst this; exact hnil
    | succ n ih =>
      intro s h
      cases s with
      | nil => exact hnil
      | cons c cs =>
        by_cases hp : old <+: c :: cs
        · obtain ⟨r, hr⟩ := hp
          rw [← hr]
          apply hmatch
          apply ih
          have := congrArg List.length hr
          simp only [List.length_append, List.length_cons] at *
          omega
        · exact hno c cs hp (ih cs (by simpa using h))
  intro s; exact this s.length s (Nat.le_refl _)

theorem replaceAll_twin_steps (twin : Str) (s : Str) :
    TwinSteps twin s (replaceAll (twin ++ twin) twin s) := by
  by_cases ht : twin = []
  · subst ht; simp [replaceAll]; exact .refl _
  · have hne : twin ++ twin ≠ [] := by simp [ht]
    simp only [replaceAll, hne, if_false]
    refine replace_induction hne (P := fun s => TwinSteps twin s (replaceAux (twin ++ twin) twin 0 s)) ?_ ?_ ?_ s
    · exact .refl _
    · intro r ih
      rw [replaceAux_prefix hne]
      have h1 : TwinSteps twin (twin ++ twin ++ r) (twin ++ r) := by
        have := TwinStep.mk (twin := twin) [] r
        exact (TwinSteps.refl _).tail (by simpa using this)
      exact h1.trans (ih.append twin)
    · intro c cs hp ih
      rw [replaceAux_not_prefix hp]
      exact ih.append [c]

theorem removeTwins_eq (s twin : Str) : removeTwins s twin =
    if replaceAll (twin ++ twin) twin s = s then s else removeTwins (replaceAll (twin ++ twin) twin s) twin := by
  rw [removeTwins]
  split
  · rename_i h; simpa using h
  · rfl

theorem removeTwins_induction (twin : Str) {P : Str → Prop}
    (hfix : ∀ s, replaceAll (twin ++ twin) twin s = s → P s)
    (hstep : ∀ s, replaceAll (twin ++ twin) twin s ≠ s → P (replaceAll (twin ++ twin) twin s) → P s) :
    ∀ s, P s := by
  have : ∀ n (s : Str), s.length ≤ n → P s := by
    intro n
    induction n with
    | zero =>
      intro s h
      by_cases he : replaceAll (twin ++ twin) twin s = s
      · exact hfix s he
      · have := replaceAll_twin_lt s twin he; omega
    | succ n ih =>
      intro s h
      by_cases he : replaceAll (twin ++ twin) twin s = s
      · exact hfix s he
      · have := replaceAll_twin_lt s twin he
        exact hstep s he (ih _ (by omega))
  intro s; exact this s.length s (Nat.le_refl _)

theorem removeTwins_steps (twin s : Str) : TwinSteps twin s (removeTwins s twin) := by
  refine removeTwins_induction twin (P := fun s => TwinSteps twin s (removeTwins s twin)) ?_ ?_ s
  · intro s h; rw [removeTwins_eq, if_pos h]; exact .refl _
  · intro s h ih; rw [removeTwins_eq, if_neg h]; exact (replaceAll_twin_steps twin s).trans ih

theorem replaceAll_twin_fix_iff {twin : Str} (ht : twin ≠ []) (s : Str) :
    replaceAll (twin ++ twin) twin s = s ↔ ¬ twin ++ twin <:+: s := by
  have hne : twin ++ twin ≠ [] := by simp [ht]
  have hp : 0 < twin.length := List.length_pos_iff.mpr ht
  simp only [replaceAll, hne, if_false]
  exact replaceAux_eq_self_iff _ _ (by simp; omega) s

theorem removeTwins_no_twin {twin : Str} (ht : twin ≠ []) (s : Str) : ¬ twin ++ twin <:+: removeTwins s twin := by
  refine removeTwins_induction twin (P := fun s => ¬ twin ++ twin <:+: removeTwins s twin) ?_ ?_ s
  · intro s h; rw [removeTwins_eq, if_pos h]; exact (replaceAll_twin_fix_iff ht s).mp h
  · intro s h ih; rw [removeTwins_eq, if_neg h]; exact ih

theorem removeTwins_of_no_twin {twin : Str} (s : Str) (h : ¬ twin ++ twin <:+: s) : removeTwins s twin = s := by
  have ht : twin ≠ [] := by
    rintro rfl; exact h (by simp)
  rw [removeTwins_eq, if_pos ((replaceAll_twin_fix_iff ht s).mpr h)]

theorem _root_.Verif.Spec.TwinSteps.length_le {t a b : Str} (h : TwinSteps t a b) : b.length ≤ a.length := by
  induction h with
  | refl => exact Nat.le_refl _
  | tail _ s ih =>
    cases s with
    | mk x y => simp only [List.length_append] at *; omega

/-! ### WhitespaceRectified -/

/-- Keep one space of each run. -/
def collapse : Str → Str
  | [] => []
  | c :: cs => if c = 32 ∧ cs.head? = some 32 then collapse cs else c :: collapse cs

theorem collapse_sp_sp (r : Str) : collapse (32 :: 32 :: r) = collapse (32 :: r) := by
  rw [collapse]; simp

theorem collapse_cons_ne {c : UInt8} (h : c ≠ 32) (r : Str) : collapse (c :: r) = c :: collapse r := by
  rw [collapse]; simp [h]

theorem collapse_cons_congr (c : UInt8) {a b : Str} (h : collapse a = collapse b) (hh : a.head? = b.head?) :
    collapse (c :: a) = collapse (c :: b) := by
  rw [collapse, collapse, hh, h]

theorem replaceAux_ss_head (s : Str) : (replaceAux [32, 32] [32] 0 s).head? = s.head? := by
  cases s with
  | nil => rfl
  | cons c cs =>
    simp only [replaceAux]
    split
    · rename_i h
      have := List.isPrefixOf_iff_prefix.mp h
      rw [List.cons_prefix_cons] at this
      simp [← this.1]
    · simp

theorem collapse_replace (s : Str) : collapse (replaceAux [32, 32] [32] 0 s) = collapse s := by
  refine replace_induction (old := [32, 32]) (by simp)
    (P := fun s => collapse (replaceAux [32, 32] [32] 0 s) = collapse s) rfl ?_ ?_ s
  · intro r ih
    rw [replaceAux_prefix (by simp)]
    have : ([32, 32] : Str) ++ r = 32 :: 32 :: r := rfl
    rw [this, collapse_sp_sp]
    exact collapse_cons_congr 32 ih (replaceAux_ss_head r)
  · intro c cs hp ih
    rw [replaceAux_not_prefix hp]
    exact collapse_cons_congr c ih (replaceAux_ss_head cs)

theorem collapse_of_no_twin : ∀ (s : Str), ¬ [32, 32] <:+: s → collapse s = s := by
  intro s
  induction s with
  | nil => intro _; rfl
  | cons c cs ih =>
    intro h
    rw [List.infix_cons_iff] at h
    have h2 : ¬ [32, 32] <:+: cs := fun hx => h (Or.inr hx)
    rw [collapse, ih h2]
    have : ¬ (c = 32 ∧ cs.head? = some 32) := by
      rintro ⟨rfl, hh⟩
      apply h; left
      cases cs with
      | nil => simp at hh
      | cons d ds =>
        simp at hh; subst hh
        exact ⟨ds, rfl⟩
    simp [this]

theorem removeTwins_space (s : Str) : removeTwins s [32] = collapse s := by
  refine removeTwins_induction [32] (P := fun s => removeTwins s [32] = collapse s) ?_ ?_ s
  · intro s h
    rw [removeTwins_eq, if_pos h]
    rw [collapse_of_no_twin]
    have := (replaceAll_twin_fix_iff (twin := [32]) (by simp) s).mp h
    simpa using this
  · intro s h ih
    rw [removeTwins_eq, if_neg h, ih]
    have := collapse_replace s
    simpa [replaceAll] using this

/-- Drop a space directly before a backslash. -/
def dropBefore : Str → Str
  | [] => []
  | c :: cs => if c = 32 ∧ cs.head? = some 92 then dropBefore cs else c :: dropBefore cs

theorem replace_before (s : Str) : replaceAux [32, 92] [92] 0 s = dropBefore s := by
  refine replace_induction (old := [32, 92]) (by simp)
    (P := fun s => replaceAux [32, 92] [92] 0 s = dropBefore s) rfl ?_ ?_ s
  · intro r ih
    rw [replaceAux_prefix (by simp), ih]
    show 92 :: dropBefore r = dropBefore (32 :: 92 :: r)
    simp [dropBefore]
  · intro c cs hp ih
    rw [replaceAux_not_prefix hp, ih, dropBefore]
    have : ¬ (c = 32 ∧ cs.head? = some 92) := by
      rintro ⟨rfl, hh⟩
      apply hp
      cases cs with
      | nil => simp at hh
      | cons d ds =>
        simp at hh; subst hh
        exact ⟨ds, rfl⟩
    simp [this]

/-- Drop one space directly after a backslash. -/
def dropAfter (s : Str) : Str := replaceAux [92, 32] [92] 0 s

theorem dropAfter_nil : dropAfter [] = [] := rfl

theorem dropAfter_bs_sp (r : Str) : dropAfter (92 :: 32 :: r) = 92 :: dropAfter r :=
  replaceAux_prefix (old := [92, 32]) (by simp) r

theorem dropAfter_cons {c d : UInt8} (r : Str) (h : ¬ (c = 92 ∧ d = 32)) :
    dropAfter (c :: d :: r) = c :: dropAfter (d :: r) := by
  apply replaceAux_not_prefix
  intro hp
  rw [List.cons_prefix_cons, List.cons_prefix_cons] at hp
  exact h ⟨hp.1.symm, hp.2.1.symm⟩

theorem dropAfter_single (c : UInt8) : dropAfter [c] = [c] := by
  apply replaceAux_not_prefix
  intro hp
  have := hp.length_le
  simp at this

theorem dropAfter_cons_ne {c : UInt8} (hc : c ≠ 92) (r : Str) : dropAfter (c :: r) = c :: dropAfter r := by
  apply replaceAux_not_prefix
  intro hp
  rw [List.cons_prefix_cons] at hp
  exact hc hp.1.symm

/-- The three single-byte replacements. -/
def toSp (c : UInt8) : UInt8 := if blank c then 32 else c

theorem three_replacements (s : Str) :
    replaceAll [9] [32] (replaceAll [10] [32] (replaceAll [13] [32] s)) = s.map toSp := by
  simp only [replaceAll_single, List.map_map]
  apply List.map_congr_left
  intro c _
  simp only [Function.comp, toSp, blank]
  by_cases h1 : c = 13
  · subst h1; decide
  · by_cases h2 : c = 10
    · subst h2; decide
    · by_cases h3 : c = 9
      · subst h3; decide
      · by_cases h4 : c = 32
        · subst h4; decide
        · simp [h1, h2, h3, h4]

/-- `p` followed by the tail of the text, given whether a blank has been seen since `p`. -/
theorem rectified_tail (s : Str) : ∀ (p : UInt8) (gap : Bool), blank p = false →
    dropAfter (dropBefore (p :: collapse (trimRight (· == 32) ((if gap then [32] else []) ++ s.map toSp))))
      = p :: rectified (some p) gap s := by
  induction s with
  | nil =>
    intro p gap hp
    cases gap <;> simp [trimRight, collapse, dropBefore, rectified, dropAfter_single]
  | cons c cs ih =>
    intro p gap hp
    have hp32 : p ≠ 32 := by rintro rfl; simp [blank] at hp
    by_cases hb : blank c = true
    · -- a further blank
      have hc : toSp c = 32 := by simp [toSp, hb]
      have hr : rectified (some p) gap (c :: cs) = rectified (some p) true cs := by
        simp [rectified, hb]
      rw [hr, ← ih p true hp]
      cases gap with
      | false => simp [hc]
      | true =>
        congr 3
        simp only [List.map_cons, hc, if_true]
        show collapse (trimRight _ (32 :: 32 :: cs.map toSp)) = collapse (trimRight _ (32 :: cs.map toSp))
        have hx : trimRight (· == 32) ((32 : UInt8) :: 32 :: cs.map toSp)
            = match trimRight (· == 32) ((32 : UInt8) :: cs.map toSp) with | [] => [] | r => 32 :: r := by
          rw [trimRight]; simp
          split <;> simp_all
        rw [hx]
        have hy : trimRight (· == 32) ((32 : UInt8) :: cs.map toSp)
            = match trimRight (· == 32) (cs.map toSp) with | [] => [] | r => 32 :: r := by
          rw [trimRight]; simp
          split <;> simp_all
        rw [hy]
        cases trimRight (· == 32) (cs.map toSp) with
        | nil => rfl
        | cons a as => exact collapse_sp_sp _
    · have hb : blank c = false := by simpa using hb
      have hc : toSp c = c := by simp [toSp, hb]
      have hc32 : c ≠ 32 := by rintro rfl; simp [blank] at hb
      have hcut : (c == 32) = false := by simpa using hc32
      rw [List.map_cons, hc, trimRight_append_of_not_cut (· == 32) _ _ _ hcut]
      have hI := ih c false hb
      simp only [Bool.false_eq_true, if_false, List.nil_append] at hI
      cases gap with
      | false =>
        simp only [Bool.false_eq_true, if_false, List.nil_append, rectified, hb, Bool.false_and]
        rw [collapse_cons_ne hc32, dropBefore]
        simp only [hp32, false_and, if_false]
        have hd : dropBefore (c :: collapse (trimRight (· == 32) (cs.map toSp)))
            = c :: dropBefore (collapse (trimRight (· == 32) (cs.map toSp))) := by
          rw [dropBefore]; simp [hc32]
        rw [hd] at hI ⊢
        rw [dropAfter_cons _ (by simp [hc32]), hI]
      | true =>
        simp only [if_true, rectified, hb, Bool.false_eq_true, if_false, Bool.true_and]
        show dropAfter (dropBefore (p :: collapse (32 :: c :: trimRight (· == 32) (cs.map toSp)))) = _
        have h1 : collapse (32 :: c :: trimRight (· == 32) (cs.map toSp))
            = 32 :: c :: collapse (trimRight (· == 32) (cs.map toSp)) := by
          rw [collapse]; simp only [List.head?_cons, Option.some.injEq, hc32, and_false, if_false]
          rw [collapse_cons_ne hc32]
        rw [h1]
        have hd : dropBefore (c :: collapse (trimRight (· == 32) (cs.map toSp)))
            = c :: dropBefore (collapse (trimRight (· == 32) (cs.map toSp))) := by
          rw [dropBefore]; simp [hc32]
        have h2 : dropBefore (p :: 32 :: c :: collapse (trimRight (· == 32) (cs.map toSp)))
            = p :: (if c = 92 then [] else [32]) ++ dropBefore (c :: collapse (trimRight (· == 32) (cs.map toSp))) := by
          rw [dropBefore]; simp only [hp32, false_and, if_false]
          rw [dropBefore]
          by_cases h92 : c = 92
          · simp [h92]
          · simp [h92]
        rw [h2]
        rw [hd] at hI ⊢
        by_cases h92 : c = 92
        · subst h92
          simp only [if_true, List.append_nil, List.cons_append, List.nil_append]
          rw [dropAfter_cons _ (by simp), hI]
          simp
        · simp only [h92, if_false, List.cons_append, List.nil_append]
          by_cases hpb : p = 92
          · subst hpb
            rw [dropAfter_bs_sp, hI]; simp
          · rw [dropAfter_cons _ (by simp [hpb]), dropAfter_cons _ (by simp), hI]
            simp [hpb, h92]

theorem whitespaceRectified_eq (s : Str) : whitespaceRectified s = rectified none false s := by
  have hgap : ∀ (s : Str) (g g' : Bool), rectified none g s = rectified none g' s := by
    intro s
    induction s with
    | nil => intros; rfl
    | cons c cs ih =>
      intro g g'
      simp only [rectified]
  have hmain : ∀ s : Str, dropAfter (dropBefore (collapse (trim (· == 32) (s.map toSp)))) = rectified none false s := by
    intro s
    induction s with
    | nil => rfl
    | cons c cs ih =>
      by_cases hb : blank c = true
      · have hc : toSp c = 32 := by simp [toSp, hb]
        have : trim (· == 32) ((c :: cs).map toSp) = trim (· == 32) (cs.map toSp) := by
          simp [trim, trimLeft, hc, List.dropWhile]
        rw [this, ih]
        simp only [rectified, hb, if_true]
        exact hgap _ _ _
      · have hb : blank c = false := by simpa using hb
        have hc : toSp c = c := by simp [toSp, hb]
        have hc32 : c ≠ 32 := by rintro rfl; simp [blank] at hb
        have hcut : (c == 32) = false := by simpa using hc32
        have h1 : trim (· == 32) ((c :: cs).map toSp) = c :: trimRight (· == 32) (cs.map toSp) := by
          simp only [trim, trimLeft, List.map_cons, hc, List.dropWhile, hcut]
          exact trimRight_append_of_not_cut (· == 32) [] _ _ hcut
        rw [h1, collapse_cons_ne hc32]
        have := rectified_tail cs c false hb
        simp only [Bool.false_eq_true, if_false, List.nil_append] at this
        rw [this]
        simp [rectified, hb]
  rw [← hmain, whitespaceRectified]
  simp only [three_replacements, removeTwins_space]
  have : ∀ t : Str, replaceAll [92, 32] [92] (replaceAll [32, 92] [92] t) = dropAfter (dropBefore t) := by
    intro t; simp [replaceAll, replace_before, dropAfter]
  exact this _

/-! ### clearStr -/

theorem replace_nl (s : Str) : replaceAux [10] [] 0 s = s.filter (· != 10) := by
  induction s with
  | nil => rfl
  | cons c cs ih =>
    rw [replaceAux]
    by_cases h : c = 10
    · subst h; simp [ih]
    · simp [h, ih, List.isPrefixOf, Ne.symm h]

/-- Pairs of spaces removed, before trimming. -/
def unpaired : Bool → Str → Str
  | odd, [] => if odd then [32] else []
  | odd, c :: cs => if c = 32 then unpaired (!odd) cs else (if odd then [32] else []) ++ c :: unpaired false cs

theorem replace_pairs (s : Str) : replaceAux [32, 32] [] 0 s = unpaired false s := by
  induction s using List.twoStepInduction with
  | nil => rfl
  | singleton c =>
    by_cases h : c = 32
    · subst h; decide
    · simp [replaceAux, List.isPrefixOf, unpaired, h, Ne.symm h]
  | cons_cons c d cs ih1 ih2 =>
    by_cases h : c = 32
    · subst h
      by_cases hd : d = 32
      · subst hd
        simp [replaceAux, List.isPrefixOf, unpaired, ih1]
      · rw [replaceAux]
        simp only [unpaired, hd, if_false, if_true, List.isPrefixOf, beq_self_eq_true, Bool.true_and, Ne.symm hd, beq_iff_eq, Bool.and_true, ih2]
        simp
    · rw [replaceAux]
      simp only [List.isPrefixOf, beq_iff_eq, Ne.symm h, Bool.and_eq_true, false_and, if_false, ih2]
      simp [unpaired, h]

theorem trimRight_unpaired : ∀ (s : Str) (odd : Bool), (10 : UInt8) ∉ s →
    trimRight (· == 32) (unpaired odd s) = cleared true odd s := by
  intro s
  induction s with
  | nil => intro odd _; cases odd <;> decide
  | cons c cs ih =>
    intro odd h
    simp only [List.mem_cons, not_or] at h
    have h10 : c ≠ 10 := fun e => h.1 e.symm
    by_cases hc : c = 32
    · subst hc; simp [unpaired, cleared, ih _ h.2]
    · cases odd <;> simp [unpaired, cleared, hc, h10, trimRight, ih _ h.2] <;>
        cases hx : cleared true false cs <;> simp [hc]

theorem trim_unpaired : ∀ (s : Str) (odd : Bool), (10 : UInt8) ∉ s →
    trim (· == 32) (unpaired odd s) = cleared false odd s := by
  intro s
  induction s with
  | nil => intro odd _; cases odd <;> decide
  | cons c cs ih =>
    intro odd h
    simp only [List.mem_cons, not_or] at h
    have h10 : c ≠ 10 := fun e => h.1 e.symm
    by_cases hc : c = 32
    · subst hc; simp [unpaired, cleared, ih _ h.2]
    · have := trimRight_unpaired cs false h.2
      cases odd <;> simp [unpaired, cleared, hc, h10, trim, trimLeft, trimRight, this] <;>
        cases hx : cleared true false cs <;> simp [hc]

theorem cleared_filter : ∀ (s : Str) (st odd : Bool), cleared st odd (s.filter (· != 10)) = cleared st odd s := by
  intro s
  induction s with
  | nil => intros; rfl
  | cons c cs ih =>
    intro st odd
    by_cases h : c = 10
    · subst h; simp [cleared, ih]
    · simp [h, cleared, ih]

theorem clearStr_eq (s : Str) : clearStr s = cleared false false s := by
  simp only [clearStr, replaceAll, if_neg (by simp : ¬ ([10] : Str) = []), if_neg (by simp : ¬ ([32, 32] : Str) = [])]
  rw [replace_nl, replace_pairs, trim_unpaired _ _ (by simp), cleared_filter]

end Verif.Proofs
