import Verif.Proofs.LoadMono
/-
The token loops on the tokens of a tree.
-/
namespace Verif.Proofs
open Verif.Go Verif.Model Verif.Spec

section
variable {n depth : Nat} {data x m : Str} {T : List Frame} {R : List Tok} {as : List Attr}

theorem leafLoop_start : leafLoop (n + 1) depth data ⟨.elem x :: T, .start m as :: R⟩ =
    leafLoop n (depth + 1) data ⟨.elem m :: .elem x :: T, R⟩ := rfl
theorem leafLoop_close : leafLoop (n + 1) (depth + 1) data ⟨.elem m :: T, .close m :: R⟩ = leafLoop n depth data ⟨T, R⟩ := by
  simp [leafLoop, Decoder.token]
theorem leafLoop_end : leafLoop (n + 1) 0 data ⟨.elem m :: T, .close m :: R⟩ = (some data, ⟨T, R⟩) := by
  simp [leafLoop, Decoder.token]
theorem leafLoop_chars {t} : leafLoop (n + 1) depth data ⟨.elem x :: T, .chars t :: R⟩ =
    leafLoop n depth (if depth = 0 then data ++ t else data) ⟨.elem x :: T, R⟩ := rfl
theorem leafLoop_other : leafLoop (n + 1) depth data ⟨.elem x :: T, .other :: R⟩ = leafLoop n depth data ⟨.elem x :: T, R⟩ := rfl
end

theorem directText_cons (nd : Node) (ns : List Node) : directText (nd :: ns) = directText [nd] ++ directText ns := by
  cases nd <;> simp [directText]

mutual
theorem leaf_node : ∀ (nd : Node) (n depth : Nat) (data x : Str) (T : List Frame) (R : List Tok),
    leafLoop (nd.toks.length + n) depth data ⟨.elem x :: T, nd.toks ++ R⟩ =
      leafLoop n depth (if depth = 0 then data ++ directText [nd] else data) ⟨.elem x :: T, R⟩
  | .elem m as kids, n, depth, data, x, T, R => by
    have e : (Node.toks (.elem m as kids)).length + n = ((toksAll kids).length + (n + 1)) + 1 := by
      simp [Node.toks]; omega
    rw [e]
    simp only [Node.toks, List.cons_append, List.append_assoc, List.nil_append]
    rw [leafLoop_start, leaf_list kids, leafLoop_close]
    simp [directText]
  | .chars t, n, depth, data, x, T, R => by
    simp only [Node.toks, List.length_cons, List.length_nil, List.cons_append, List.nil_append]
    rw [show 0 + 1 + n = n + 1 by omega, leafLoop_chars]
    simp [directText]
  | .other, n, depth, data, x, T, R => by
    simp only [Node.toks, List.length_cons, List.length_nil, List.cons_append, List.nil_append]
    rw [show 0 + 1 + n = n + 1 by omega, leafLoop_other]
    simp [directText]
theorem leaf_list : ∀ (ns : List Node) (n depth : Nat) (data x : Str) (T : List Frame) (R : List Tok),
    leafLoop ((toksAll ns).length + n) depth data ⟨.elem x :: T, toksAll ns ++ R⟩ =
      leafLoop n depth (if depth = 0 then data ++ directText ns else data) ⟨.elem x :: T, R⟩
  | [], n, depth, data, x, T, R => by simp [toksAll, directText]
  | nd :: ns, n, depth, data, x, T, R => by
    rw [toksAll, List.length_append, List.append_assoc, Nat.add_assoc, leaf_node nd, leaf_list ns, directText_cons nd ns]
    by_cases h : depth = 0
    · simp [h]
    · simp [h]
end

/-- An element with character data only. -/
theorem leaf_tree (kids : List Node) (x : Str) (T : List Frame) (R : List Tok) :
    leaf ⟨.elem x :: T, toksAll kids ++ .close x :: R⟩ = (some (directText kids), ⟨T, R⟩) := by
  unfold leaf
  simp only [List.length_append, List.length_cons]
  rw [Nat.add_assoc, leaf_list]
  rw [leafLoop_end]
  simp

/-! ### `gr` -/

section
variable {n : Nat} {name x m : Str} {as : List Str} {T : List Frame} {R : List Tok} {attrs : List Attr}

theorem gridRowLoop_start : gridRowLoop (n + 1) name as ⟨.elem x :: T, .start m attrs :: R⟩ =
    gridRowLoop n name as ⟨.elem m :: .elem x :: T, R⟩ := rfl
theorem gridRowLoop_close : gridRowLoop (n + 1) name as ⟨.elem m :: T, .close m :: R⟩ =
    if m = name then (some as, ⟨T, R⟩) else gridRowLoop n name as ⟨T, R⟩ := by
  simp [gridRowLoop, Decoder.token]
theorem gridRowLoop_chars {t} : gridRowLoop (n + 1) name as ⟨.elem x :: T, .chars t :: R⟩ =
    gridRowLoop n name (split 32 t) ⟨.elem x :: T, R⟩ := rfl
theorem gridRowLoop_other : gridRowLoop (n + 1) name as ⟨.elem x :: T, .other :: R⟩ = gridRowLoop n name as ⟨.elem x :: T, R⟩ := rfl
end

/-- The areas after some text. -/
def areasAfter (t : Option Str) (as : List Str) : List Str := match t with | some t => split 32 t | none => as

theorem areasAfter_or (s t : Option Str) (as : List Str) : areasAfter (s.or t) as = areasAfter s (areasAfter t as) := by
  cases s <;> simp [areasAfter]

mutual
theorem gr_node : ∀ (nd : Node) (n : Nat) (name : Str) (as : List Str) (x : Str) (T : List Frame) (R : List Tok),
    nd.has name = false →
    gridRowLoop (nd.toks.length + n) name as ⟨.elem x :: T, nd.toks ++ R⟩ =
      gridRowLoop n name (areasAfter nd.lastText as) ⟨.elem x :: T, R⟩
  | .elem m attrs kids, n, name, as, x, T, R, h => by
    have e : (Node.toks (.elem m attrs kids)).length + n = ((toksAll kids).length + (n + 1)) + 1 := by
      simp [Node.toks]; omega
    simp only [Node.has, Bool.or_eq_false_iff, beq_eq_false_iff_ne] at h
    rw [e]
    simp only [Node.toks, List.cons_append, List.append_assoc, List.nil_append]
    rw [gridRowLoop_start, gr_list kids _ _ _ _ _ _ h.2, gridRowLoop_close, if_neg h.1]
    simp [Node.lastText]
  | .chars t, n, name, as, x, T, R, h => by
    simp only [Node.toks, List.length_cons, List.length_nil, List.cons_append, List.nil_append]
    rw [show 0 + 1 + n = n + 1 by omega, gridRowLoop_chars]
    simp [Node.lastText, areasAfter]
  | .other, n, name, as, x, T, R, h => by
    simp only [Node.toks, List.length_cons, List.length_nil, List.cons_append, List.nil_append]
    rw [show 0 + 1 + n = n + 1 by omega, gridRowLoop_other]
    simp [Node.lastText, areasAfter]
theorem gr_list : ∀ (ns : List Node) (n : Nat) (name : Str) (as : List Str) (x : Str) (T : List Frame) (R : List Tok),
    hasAny name ns = false →
    gridRowLoop ((toksAll ns).length + n) name as ⟨.elem x :: T, toksAll ns ++ R⟩ =
      gridRowLoop n name (areasAfter (lastTextAll ns) as) ⟨.elem x :: T, R⟩
  | [], n, name, as, x, T, R, h => by simp [toksAll, lastTextAll, areasAfter]
  | nd :: ns, n, name, as, x, T, R, h => by
    simp only [hasAny, Bool.or_eq_false_iff] at h
    rw [toksAll, List.length_append, List.append_assoc, Nat.add_assoc, gr_node nd _ _ _ _ _ _ h.1, gr_list ns _ _ _ _ _ _ h.2,
      lastTextAll, areasAfter_or]
end

/-- The result has read an end and left an element on top of `T`. -/
def EndsInside {α : Type} (T : List Frame) (r : Option α × Decoder) : Prop :=
  ∃ y P, r.2.stk = .elem y :: P ∧ ∃ Q, .elem y :: P = Q ++ T

mutual
theorem gr_node_bad : ∀ (nd : Node) (n : Nat) (name : Str) (as : List Str) (x : Str) (T : List Frame) (R : List Tok),
    nd.has name = true →
    EndsInside (.elem x :: T) (gridRowLoop (nd.toks.length + n) name as ⟨.elem x :: T, nd.toks ++ R⟩)
  | .elem m attrs kids, n, name, as, x, T, R, h => by
    have e : (Node.toks (.elem m attrs kids)).length + n = ((toksAll kids).length + (n + 1)) + 1 := by
      simp [Node.toks]; omega
    rw [e]
    simp only [Node.toks, List.cons_append, List.append_assoc, List.nil_append]
    rw [gridRowLoop_start]
    cases hk : hasAny name kids with
    | false =>
      simp only [Node.has, hk, Bool.or_false, beq_iff_eq] at h
      rw [gr_list kids _ _ _ _ _ _ hk, gridRowLoop_close, if_pos h]
      exact ⟨x, T, rfl, [], rfl⟩
    | true =>
      obtain ⟨y, P, h1, Q, h2⟩ := gr_list_bad kids (n + 1) name as m (.elem x :: T) (.close m :: R) hk
      exact ⟨y, P, h1, Q ++ [.elem m], by rw [h2]; simp⟩
  | .chars t, n, name, as, x, T, R, h => by simp [Node.has] at h
  | .other, n, name, as, x, T, R, h => by simp [Node.has] at h
theorem gr_list_bad : ∀ (ns : List Node) (n : Nat) (name : Str) (as : List Str) (x : Str) (T : List Frame) (R : List Tok),
    hasAny name ns = true →
    EndsInside (.elem x :: T) (gridRowLoop ((toksAll ns).length + n) name as ⟨.elem x :: T, toksAll ns ++ R⟩)
  | [], n, name, as, x, T, R, h => by simp [hasAny] at h
  | nd :: ns, n, name, as, x, T, R, h => by
    rw [toksAll, List.length_append, List.append_assoc, Nat.add_assoc]
    cases hk : nd.has name with
    | true => exact gr_node_bad nd _ name as x T _ hk
    | false =>
      simp only [hasAny, hk, Bool.false_or] at h
      rw [gr_node nd _ _ _ _ _ _ hk]
      exact gr_list_bad ns n name _ x T R h
end

theorem gr_tree {kids : List Node} (name : Str) (T : List Frame) (R : List Tok) (h : hasAny name kids = false) :
    unmarshalInterface (unmarshalGridRow name) ⟨.elem name :: T, toksAll kids ++ .close name :: R⟩ =
      (some (areasAfter (lastTextAll kids) []), ⟨T, R⟩) := by
  simp only [unmarshalInterface, unmarshalGridRow, pushEOF, List.length_append, List.length_cons]
  rw [Nat.add_assoc, gr_list kids _ _ _ _ _ _ h, gridRowLoop_close, if_pos rfl]

/-- A decoder that has lost a mark. -/
def Leaks (k : Nat) (B : List Frame) (d : Decoder) : Prop := ∃ A, d.stk = A ++ B ∧ k + 1 ≤ marks A

theorem gr_tree_bad {kids : List Node} (name : Str) (A B : List Frame) (R : List Tok) (h : hasAny name kids = true) :
    Leaks (marks A) B
      (unmarshalInterface (unmarshalGridRow name) ⟨.elem name :: A ++ B, toksAll kids ++ .close name :: R⟩).2 := by
  simp only [unmarshalInterface, unmarshalGridRow, pushEOF, List.length_append, List.length_cons, List.cons_append]
  rw [Nat.add_assoc]
  obtain ⟨y, P, h1, Q, h2⟩ := gr_list_bad kids (R.length + 1 + 1) name [] name (.eof :: (A ++ B)) (.close name :: R) h
  rw [h1]
  refine ⟨Q ++ .elem name :: .eof :: A, by simp [h1, h2], ?_⟩
  simp [marks_append, marks]

end Verif.Proofs
