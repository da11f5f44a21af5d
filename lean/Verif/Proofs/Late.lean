import Verif.Proofs.TextLines
/-
Block text: lines are broken as late as possible (C77).
-/
namespace Verif.Proofs
open Verif.Go Verif.Model Verif.Spec

variable {hyph : Str → List Str} {mt : Font → Str → ℚ} {width : ℚ} {seg : List Word}

theorem ctotal_eq (ps : List WPiece) : ctotal mt ps = piecesWidth mt ps := by
  unfold ctotal piecesWidth
  congr 1

/-- What tryParts leaves out. -/
theorem tryParts_none {tw : Str → ℚ} {avail : ℚ} {parts : List Str} : ∀ {n : Nat}, tryParts tw avail parts n = none →
    ∀ j, 1 ≤ j → j ≤ n → avail < tw (32 :: ((parts.take j).flatten ++ [45])) := by
  intro n
  induction n with
  | zero => intro _ j h1 h2; omega
  | succ n ih =>
    intro h j h1 h2
    unfold tryParts at h
    simp only [join_nil_eq] at h
    split at h
    · exact absurd h (by simp)
    · rename_i hc
      rcases Nat.lt_or_ge n j with hj | hj
      · obtain rfl : j = n + 1 := by omega
        exact not_le.mp hc
      · exact ih h j h1 hj

theorem tryParts_longest {tw : Str → ℚ} {avail : ℚ} {parts : List Str} : ∀ {n : Nat} {s1 s2 : Str},
    tryParts tw avail parts n = some (s1, s2) → ∃ i, 1 ≤ i ∧ i ≤ n ∧ s1 = 32 :: ((parts.take i).flatten ++ [45]) ∧
      s2 = (parts.drop i).flatten ∧ tw s1 ≤ avail ∧ ∀ j, i < j → j ≤ n → avail < tw (32 :: ((parts.take j).flatten ++ [45])) := by
  intro n
  induction n with
  | zero => intro s1 s2 h; simp [tryParts] at h
  | succ n ih =>
    intro s1 s2 h
    unfold tryParts at h
    simp only [join_nil_eq] at h
    split at h
    · rename_i hc
      simp only [Option.some.injEq, Prod.mk.injEq] at h
      obtain ⟨rfl, rfl⟩ := h
      exact ⟨n + 1, by omega, le_refl _, rfl, rfl, hc, fun j h1 h2 => by omega⟩
    · rename_i hc
      obtain ⟨i, h1, h2, h3, h4, h5, h6⟩ := ih h
      refine ⟨i, h1, by omega, h3, h4, h5, fun j hj1 hj2 => ?_⟩
      rcases Nat.lt_or_ge n j with hj | hj
      · obtain rfl : j = n + 1 := by omega
        exact not_le.mp hc
      · exact h6 j hj1 hj

/-- The lines of a stretch and the current one: each was broken as late as possible. -/
theorem foldl_late : ∀ (ws : List Word) (acc : List HLine × List WPiece), (∀ w ∈ ws, w ∈ seg) →
    (acc.1.map (·.1) ++ [acc.2]).IsChain (Late hyph mt width seg) →
    (((ws.map some).foldl (placeHyph hyph mt width) acc).1.map (·.1) ++ [((ws.map some).foldl (placeHyph hyph mt width) acc).2]).IsChain
      (Late hyph mt width seg) := by
  intro ws
  induction ws with
  | nil => intro acc _ h; exact h
  | cons w ws ih =>
    intro acc hm h
    rw [List.map_cons, List.foldl_cons]
    have hw : w ∈ seg := hm w (by simp)
    refine ih _ (fun v hv => hm v (by simp [hv])) ?_
    · simp only [placeHyph]
      by_cases hc : ctotal mt acc.2 + spaced mt w ≥ width
      · rw [if_pos hc]
        rw [ctotal_eq] at hc
        cases ht : tryHyphenate hyph (mt w.1.font) width w.2 (ctotal mt acc.2) with
        | none =>
          simp only [List.map_append, List.map_cons, List.map_nil]
          rw [List.isChain_append]
          refine ⟨h, by simp, ?_⟩
          intro x hx y hy
          rw [List.getLast?_concat, Option.mem_def, Option.some.injEq] at hx
          rw [List.head?_cons, Option.mem_def, Option.some.injEq] at hy
          subst hx hy
          refine .inl ⟨w, hw, [], rfl, hc, fun j h1 h2 => ?_⟩
          unfold tryHyphenate at ht
          simp only at ht
          rw [if_neg (by omega)] at ht
          have := tryParts_none ht j h1 (by omega)
          rw [ctotal_eq] at this
          simp only [spaced, hyphened, syllables]
          linarith
        | some r =>
          obtain ⟨s1, s2⟩ := r
          unfold tryHyphenate at ht
          simp only at ht
          split at ht
          · exact absurd ht (by simp)
          obtain ⟨i, h1, h2, e1, e2, h3, h4⟩ := tryParts_longest ht
          have es : s1.tail.dropLast = ((hyph w.2).take i).flatten := by rw [e1]; simp
          simp only [List.map_append, List.map_cons, List.map_nil]
          rw [List.isChain_append]
          rw [ctotal_eq] at h3 h4
          refine ⟨?_, by simp, ?_⟩
          · rw [List.isChain_append] at h ⊢
            refine ⟨h.1, by simp, ?_⟩
            intro x hx y hy
            rw [List.head?_cons, Option.mem_def, Option.some.injEq] at hy
            have hl := h.2.2 x hx acc.2 (by simp)
            subst hy
            rcases hl with ⟨v, hv, r, q, q'⟩ | ⟨v, hv, l0, r, k, k1, k2, q1, q2, q3⟩
            · exact .inl ⟨v, hv, r ++ [.head (w.1, s1.tail.dropLast)], by rw [q]; rfl, q'⟩
            · exact .inr ⟨v, hv, l0, r ++ [.head (w.1, s1.tail.dropLast)], k, k1, k2, q1, by rw [q2]; rfl, q3⟩
          · intro x hx y hy
            rw [List.getLast?_concat, Option.mem_def, Option.some.injEq] at hx
            rw [List.head?_cons, Option.mem_def, Option.some.injEq] at hy
            subst hx hy
            refine .inr ⟨w, hw, acc.2, [], i, h1, by omega, by rw [es]; rfl, by rw [e2]; rfl, hc, ?_, ?_⟩
            · simp only [spaced, hyphened, syllables]
              rw [e1] at h3
              linarith
            · intro j hj1 hj2
              have := h4 j hj1 (by omega)
              simp only [spaced, hyphened, syllables]
              linarith
      · rw [if_neg hc]
        simp only
        rw [List.isChain_append] at h ⊢
        refine ⟨h.1, by simp, ?_⟩
        intro x hx y hy
        rw [List.head?_cons, Option.mem_def, Option.some.injEq] at hy
        have hl := h.2.2 x hx acc.2 (by simp)
        subst hy
        rcases hl with ⟨v, hv, r, q, q'⟩ | ⟨v, hv, l0, r, k, k1, k2, q1, q2, q3⟩
        · exact .inl ⟨v, hv, r ++ [.whole w], by rw [q]; rfl, q'⟩
        · exact .inr ⟨v, hv, l0, r ++ [.whole w], k, k1, k2, q1, by rw [q2]; rfl, q3⟩

theorem segLinesH_late (seg : List Word) : (segLinesH hyph mt width seg).IsChain (Late hyph mt width seg) :=
  foldl_late seg ([], []) (fun _ h => h) (by simp)

end Verif.Proofs
