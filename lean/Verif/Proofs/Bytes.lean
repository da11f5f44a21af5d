import Verif.Go.Bytes
/- Lemmas about the byte string functions of `Verif.Go.Bytes`. -/
namespace Verif.Go

variable {α : Type} [DecidableEq α]

theorem isPrefixOf_length {p s : List α} (h : p.isPrefixOf s = true) : p.length ≤ s.length :=
  (List.isPrefixOf_iff_prefix.mp h).length_le

theorem replaceAux_length_le (old new : List α) (hn : new.length ≤ old.length) (h0 : old ≠ []) :
    ∀ (s : List α) (k : Nat), (replaceAux old new k s).length ≤ s.length - k := by
  have hpos : 0 < old.length := List.length_pos_iff.mpr h0
  intro s
  induction s with
  | nil => intro k; simp [replaceAux]
  | cons c cs ih =>
    intro k
    cases k with
    | succ k => simpa [replaceAux] using ih k
    | zero =>
      simp only [replaceAux]
      split
      · rename_i h
        have h1 := isPrefixOf_length h
        have h2 := ih (old.length - 1)
        simp only [List.length_append, List.length_cons] at *
        omega
      · have h2 := ih 0
        simp only [List.length_cons] at *
        omega

theorem replaceAux_eq_or_lt (old new : List α) (hn : new.length < old.length) :
    ∀ (s : List α), replaceAux old new 0 s = s ∨ (replaceAux old new 0 s).length < s.length := by
  have h0 : old ≠ [] := by intro h; simp [h] at hn
  intro s
  induction s with
  | nil => simp [replaceAux]
  | cons c cs ih =>
    simp only [replaceAux]
    split
    · rename_i h
      right
      have h1 := isPrefixOf_length h
      have h2 := replaceAux_length_le old new (Nat.le_of_lt hn) h0 cs (old.length - 1)
      simp only [List.length_append, List.length_cons] at *
      omega
    · rcases ih with h | h
      · left; rw [h]
      · right; simpa using h

/-- With a shorter replacement, `ReplaceAll` leaves a string unchanged exactly if `old` does not occur. -/
theorem replaceAux_eq_self_iff (old new : List α) (hn : new.length < old.length) :
    ∀ (s : List α), replaceAux old new 0 s = s ↔ ¬ old <:+: s := by
  have h0 : old ≠ [] := by intro h; simp [h] at hn
  intro s
  induction s with
  | nil =>
    simp only [replaceAux, List.infix_nil, true_iff]; exact h0
  | cons c cs ih =>
    simp only [replaceAux]
    split
    · rename_i h
      have h1 := isPrefixOf_length h
      have h2 := replaceAux_length_le old new (Nat.le_of_lt hn) h0 cs (old.length - 1)
      constructor
      · intro he
        have := congrArg List.length he
        simp only [List.length_append, List.length_cons] at *
        omega
      · intro hni
        exact absurd (List.isPrefixOf_iff_prefix.mp h).isInfix hni
    · rename_i h
      have hnp : ¬ old <+: c :: cs := fun hp => h (List.isPrefixOf_iff_prefix.mpr hp)
      rw [List.infix_cons_iff]
      constructor
      · intro he
        simp only [List.cons.injEq, true_and] at he
        intro hx
        rcases hx with hx | hx
        · exact hnp hx
        · exact (ih.mp he) hx
      · intro hx
        rw [ih.mpr (fun hy => hx (Or.inr hy))]

theorem replaceAll_twin_lt (s twin : List α) (h : replaceAll (twin ++ twin) twin s ≠ s) :
    (replaceAll (twin ++ twin) twin s).length < s.length := by
  by_cases ht : twin = []
  · exfalso; apply h; subst ht
    simp [replaceAll]
  · have hp : 0 < twin.length := List.length_pos_iff.mpr ht
    have hne : twin ++ twin ≠ [] := by simp [ht]
    simp only [replaceAll, hne, if_false] at *
    rcases replaceAux_eq_or_lt (twin ++ twin) twin (by simp; omega) s with h1 | h1
    · exact absurd h1 h
    · exact h1

/-- Replacing single bytes is a `map`. -/
theorem replaceAll_single (a b : α) (s : List α) :
    replaceAll [a] [b] s = s.map (fun c => if c = a then b else c) := by
  have : ∀ s : List α, replaceAux [a] [b] 0 s = s.map (fun c => if c = a then b else c) := by
    intro s
    induction s with
    | nil => simp [replaceAux]
    | cons c cs ih =>
      by_cases h : c = a
      · subst h; simp [replaceAux, ih]
      · simp [replaceAux, ih, h, Ne.symm h]
  simp [replaceAll, this]

omit [DecidableEq α] in
theorem trimRight_append_of_not_cut (cut : α → Bool) (xs ys : List α) (c : α) (hc : cut c = false) :
    trimRight cut (xs ++ c :: ys) = xs ++ c :: trimRight cut ys := by
  induction xs with
  | nil =>
    simp only [List.nil_append, trimRight]
    split
    · rename_i h; simp [h, hc]
    · rename_i h; rfl
  | cons x xs ih =>
    simp only [List.cons_append, trimRight, ih]
    split
    · rename_i h; simp at h
    · rfl

end Verif.Go
