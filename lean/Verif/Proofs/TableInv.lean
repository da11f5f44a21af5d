import Verif.Model.Table
import Mathlib.Tactic.Common
/-
The invariant of span processing (C21-C25): which cells are where, and who owns the placeholders.
-/
namespace Verif.Proofs
open Verif.Go Verif.Model

/-- The ids in a row; no ids in a row that does not exist. -/
def rowAt (t : Tab) (r : Nat) : List Nat := (t.rows[r]?.getD ⟨[], 0⟩).cells

def insertAt (l : List Nat) (p s : Nat) : List Nat := l.take p ++ [s] ++ l.drop p

theorem mem_insertAt (l : List Nat) (p s x : Nat) : x ∈ insertAt l p s ↔ x ∈ l ∨ x = s := by
  unfold insertAt
  conv_rhs => rw [← List.take_append_drop p l]
  simp only [List.mem_append, List.mem_singleton]
  tauto

theorem nodup_insertAt {l : List Nat} {s : Nat} (p : Nat) (hn : l.Nodup) (hs : s ∉ l) : (insertAt l p s).Nodup := by
  unfold insertAt
  rw [List.append_assoc, List.nodup_append]
  have h1 := List.take_append_drop p l
  refine ⟨(List.take_sublist p l).nodup hn, ?_, ?_⟩
  · simp only [List.singleton_append, List.nodup_cons]
    exact ⟨fun h => hs (List.mem_of_mem_drop h), (List.drop_sublist p l).nodup hn⟩
  · intro x hx y hy hxy
    subst hxy
    simp only [List.singleton_append, List.mem_cons] at hy
    rcases hy with rfl | hy
    · exact hs (List.mem_of_mem_take hx)
    · rw [← h1, List.nodup_append] at hn
      exact hn.2.2 x hx x hy rfl

theorem filter_insertAt {l : List Nat} {s A : Nat} (p : Nat) (hs : A ≤ s) :
    (insertAt l p s).filter (fun x => decide (x < A)) = l.filter (fun x => decide (x < A)) := by
  unfold insertAt
  conv_rhs => rw [← List.take_append_drop p l, List.filter_append]
  rw [List.filter_append, List.filter_append, List.filter_cons_of_neg (by simpa using hs), List.filter_nil, List.append_nil]

theorem insertAt_length_end (l : List Nat) (s : Nat) : insertAt l l.length s = l ++ [s] := by simp [insertAt]

/-- `H0` is the heap of the authored cells, `orig` their ids row by row. -/
structure Inv (H0 : List TCell) (orig : List (List Nat)) (t : Tab) : Prop where
  len : H0.length ≤ t.heap.length
  bound : ∀ r, ∀ x ∈ rowAt t r, x < t.heap.length
  inj : ∀ r r' x, x ∈ rowAt t r → x ∈ rowAt t r' → r = r'
  nod : ∀ r, (rowAt t r).Nodup
  auth : ∀ r, (rowAt t r).filter (fun x => decide (x < H0.length)) = orig.getD r []
  authored : ∀ a, a < H0.length → (t.cell a).styles = (H0.getD a TCell.new).styles ∧ (t.cell a).iss = (H0.getD a TCell.new).iss ∧
    (t.cell a).colSpan = (H0.getD a TCell.new).colSpan ∧ (t.cell a).rowSpan = (H0.getD a TCell.new).rowSpan ∧
    (t.cell a).spannedBy = none ∧ (t.cell a).zero = false
  made : ∀ s, H0.length ≤ s → s < t.heap.length → (t.cell s).spansCols = [] ∧ (t.cell s).spansRows = [] ∧
    (t.cell s).styles = zeroStyles ∧ (t.cell s).iss = [] ∧
    ((∃ a, a < H0.length ∧ (t.cell s).spannedBy = some a ∧ (t.cell s).zero = false) ∨
     ((t.cell s).spannedBy = none ∧ (t.cell s).zero = true))
  cols : ∀ a i, a < H0.length → a ∈ rowAt t i → ∀ s ∈ (t.cell a).spansCols,
    s ∈ rowAt t i ∧ H0.length ≤ s ∧ (t.cell s).spannedBy = some a
  colsNodup : ∀ a, (t.cell a).spansCols.Nodup
  rows : ∀ a i, a < H0.length → a ∈ rowAt t i → ∀ n s, (t.cell a).spansRows[n]? = some s →
    s ∈ rowAt t (i + 1 + n) ∧ H0.length ≤ s ∧ (t.cell s).spannedBy = some a
  own : ∀ r s a, s ∈ rowAt t r → (t.cell s).spannedBy = some a → s ∈ (t.cell a).spansCols ∨ s ∈ (t.cell a).spansRows

theorem cell_alloc (t : Tab) (c : TCell) (x : Nat) :
    (t.alloc c).1.cell x = if x = t.heap.length then c else t.cell x := by
  simp only [Tab.alloc, Tab.cell, List.getD_eq_getElem?_getD]
  rcases Nat.lt_trichotomy x t.heap.length with h | h | h
  · rw [List.getElem?_append_left h, if_neg (by omega)]
  · subst h; simp
  · rw [if_neg (by omega), List.getElem?_eq_none (by simp; omega), List.getElem?_eq_none (by omega)]

theorem cell_modCell (t : Tab) (a : Nat) (f : TCell → TCell) (x : Nat) (ha : a < t.heap.length) :
    (t.modCell a f).cell x = if x = a then f (t.cell a) else t.cell x := by
  simp only [Tab.modCell, Tab.cell, List.getD_eq_getElem?_getD, List.getElem?_modify]
  by_cases h : x = a
  · subst h
    rw [List.getElem?_eq_getElem ha]
    simp
  · rw [if_neg h]
    have : ¬ a = x := fun e => h e.symm
    simp [this]

theorem heap_modCell (t : Tab) (a : Nat) (f : TCell → TCell) : (t.modCell a f).heap.length = t.heap.length := by
  simp [Tab.modCell]

/-- How a step changes a table: one new cell, inserted in one row; at most one old cell changed. -/
structure Ins (t t' : Tab) (r p : Nat) (c : TCell) (a : Nat) (f : TCell → TCell) : Prop where
  heap : t'.heap.length = t.heap.length + 1
  cell : ∀ x, t'.cell x = if x = t.heap.length then c else if x = a then f (t.cell a) else t.cell x
  row : ∀ r', rowAt t' r' = if r' = r then insertAt (rowAt t r) p t.heap.length else rowAt t r'

theorem Ins.mem {t t' : Tab} {r p : Nat} {c : TCell} {a : Nat} {f : TCell → TCell} (h : Ins t t' r p c a f) (r' x : Nat) :
    x ∈ rowAt t' r' ↔ x ∈ rowAt t r' ∨ (r' = r ∧ x = t.heap.length) := by
  rw [h.row]
  by_cases e : r' = r
  · subst e; rw [if_pos rfl, mem_insertAt]; simp
  · rw [if_neg e]; simp [e]

/-- Facts that hold for any inserted cell. -/
theorem Inv.ins_base {H0 : List TCell} {orig : List (List Nat)} {t t' : Tab} {r p : Nat} {c : TCell} {a : Nat} {f : TCell → TCell}
    (hi : Inv H0 orig t) (h : Ins t t' r p c a f) :
    H0.length ≤ t'.heap.length ∧ (∀ r, ∀ x ∈ rowAt t' r, x < t'.heap.length) ∧
    (∀ r r' x, x ∈ rowAt t' r → x ∈ rowAt t' r' → r = r') ∧ (∀ r, (rowAt t' r).Nodup) ∧
    (∀ r, (rowAt t' r).filter (fun x => decide (x < H0.length)) = orig.getD r []) := by
  have fresh : ∀ r, t.heap.length ∉ rowAt t r := fun r hm => absurd (hi.bound r _ hm) (lt_irrefl _)
  refine ⟨by rw [h.heap]; have := hi.len; omega, ?_, ?_, ?_, ?_⟩
  · intro r' x hx
    rw [h.mem] at hx
    rw [h.heap]
    rcases hx with hx | ⟨_, rfl⟩
    · have := hi.bound _ _ hx; omega
    · omega
  · intro r1 r2 x h1 h2
    rw [h.mem] at h1 h2
    rcases h1 with h1 | ⟨rfl, rfl⟩ <;> rcases h2 with h2 | ⟨rfl, e2⟩
    · exact hi.inj _ _ _ h1 h2
    · subst e2; exact absurd h1 (fresh _)
    · exact absurd h2 (fresh _)
    · rfl
  · intro r'
    rw [h.row]
    split
    · exact nodup_insertAt p (hi.nod _) (fresh _)
    · exact hi.nod _
  · intro r'
    rw [h.row]
    split
    · rename_i e
      rw [filter_insertAt p hi.len, ← e]; exact hi.auth _
    · exact hi.auth _

/-- Adding a zero cell. -/
theorem Inv.addZero {H0 : List TCell} {orig : List (List Nat)} {t t' : Tab} {r p : Nat} (hi : Inv H0 orig t)
    (h : Ins t t' r p TCell.zeroCell t.heap.length id) : Inv H0 orig t' := by
  obtain ⟨b1, b2, b3, b4, b5⟩ := hi.ins_base h
  have hc : ∀ x, x < t.heap.length → t'.cell x = t.cell x := by
    intro x hx; rw [h.cell, if_neg (by omega), if_neg (by omega)]
  have hA := hi.len
  refine ⟨b1, b2, b3, b4, b5, ?_, ?_, ?_, ?_, ?_, ?_⟩
  · intro a ha; rw [hc a (by omega)]; exact hi.authored a ha
  · intro s h1 h2
    rw [h.heap] at h2
    by_cases e : s = t.heap.length
    · rw [h.cell, if_pos e]; simp [TCell.zeroCell, TCell.new]
    · rw [hc s (by omega)]; exact hi.made s h1 (by omega)
  · intro a i ha hm s hs
    rw [hc a (by omega)] at hs
    rw [h.mem] at hm ⊢
    rcases hm with hm | ⟨_, rfl⟩
    · obtain ⟨q1, q2, q3⟩ := hi.cols a i ha hm s hs
      rw [hc s (hi.bound _ _ q1)]
      exact ⟨Or.inl q1, q2, q3⟩
    · omega
  · intro a
    by_cases e : a = t.heap.length
    · rw [h.cell, if_pos e]; simp [TCell.zeroCell, TCell.new]
    · rw [h.cell, if_neg e]; split <;> exact hi.colsNodup _
  · intro a i ha hm n s hs
    rw [hc a (by omega)] at hs
    rw [h.mem] at hm ⊢
    rcases hm with hm | ⟨_, rfl⟩
    · obtain ⟨q1, q2, q3⟩ := hi.rows a i ha hm n s hs
      rw [hc s (hi.bound _ _ q1)]
      exact ⟨Or.inl q1, q2, q3⟩
    · omega
  · intro r' s a hm hs
    rw [h.mem] at hm
    rcases hm with hm | ⟨_, rfl⟩
    · have hsl := hi.bound _ _ hm
      rw [hc s hsl] at hs
      have ha : a < t.heap.length := by
        by_cases e : s < H0.length
        · have := (hi.authored s e).2.2.2.2.1; rw [this] at hs; simp at hs
        · rcases (hi.made s (by omega) hsl).2.2.2.2 with ⟨a', q1, q2, _⟩ | ⟨q2, _⟩
          · rw [q2] at hs; simp at hs; omega
          · rw [q2] at hs; simp at hs
      rw [hc a ha]
      exact hi.own r' s a hm hs
    · rw [h.cell, if_pos rfl] at hs; simp [TCell.zeroCell, TCell.new] at hs

theorem Inv.owner_lt {H0 : List TCell} {orig : List (List Nat)} {t : Tab} (hi : Inv H0 orig t) {r s a : Nat}
    (hm : s ∈ rowAt t r) (hs : (t.cell s).spannedBy = some a) : a < H0.length := by
  have hsl := hi.bound _ _ hm
  by_cases e : s < H0.length
  · have := (hi.authored s e).2.2.2.2.1; rw [this] at hs; simp at hs
  · rcases (hi.made s (by omega) hsl).2.2.2.2 with ⟨a', q1, q2, _⟩ | ⟨q2, _⟩
    · rw [q2] at hs; simp at hs; omega
    · rw [q2] at hs; simp at hs

/-- Adding a placeholder to the right. -/
theorem Inv.addCol {H0 : List TCell} {orig : List (List Nat)} {t t' : Tab} {r p a : Nat} {rs : Int} (hi : Inv H0 orig t)
    (ha : a < H0.length) (har : a ∈ rowAt t r)
    (h : Ins t t' r p { TCell.new with spannedBy := some a, rowSpan := rs } a
      fun c => { c with spansCols := c.spansCols ++ [t.heap.length] }) : Inv H0 orig t' := by
  obtain ⟨b1, b2, b3, b4, b5⟩ := hi.ins_base h
  have hA := hi.len
  have hca : t'.cell a = { t.cell a with spansCols := (t.cell a).spansCols ++ [t.heap.length] } := by
    rw [h.cell, if_neg (by omega), if_pos rfl]
  have hcn : t'.cell t.heap.length = { TCell.new with spannedBy := some a, rowSpan := rs } := by rw [h.cell, if_pos rfl]
  have hc : ∀ x, x < t.heap.length → x ≠ a → t'.cell x = t.cell x := by
    intro x hx hxa; rw [h.cell, if_neg (by omega), if_neg hxa]
  have hsp : ∀ x, x < t.heap.length → (t'.cell x).spannedBy = (t.cell x).spannedBy := by
    intro x hx
    by_cases e : x = a
    · subst e; rw [hca]
    · rw [hc x hx e]
  have hrows : ∀ x, x < t.heap.length → (t'.cell x).spansRows = (t.cell x).spansRows := by
    intro x hx
    by_cases e : x = a
    · subst e; rw [hca]
    · rw [hc x hx e]
  refine ⟨b1, b2, b3, b4, b5, ?_, ?_, ?_, ?_, ?_, ?_⟩
  · intro x hx
    by_cases e : x = a
    · subst e; rw [hca]; exact hi.authored x hx
    · rw [hc x (by omega) e]; exact hi.authored x hx
  · intro s h1 h2
    rw [h.heap] at h2
    by_cases e : s = t.heap.length
    · subst e; rw [hcn]; simp [TCell.new, ha]
    · rw [hc s (by omega) (by omega)]; exact hi.made s h1 (by omega)
  · intro x i hx hm s hs
    rw [h.mem] at hm
    have hm' : x ∈ rowAt t i := by
      rcases hm with hm | ⟨_, rfl⟩
      · exact hm
      · omega
    rw [h.mem]
    by_cases e : x = a
    · subst e
      rw [hca] at hs
      simp only [List.mem_append, List.mem_singleton] at hs
      rcases hs with hs | rfl
      · obtain ⟨q1, q2, q3⟩ := hi.cols x i hx hm' s hs
        rw [hsp s (hi.bound _ _ q1)]
        exact ⟨Or.inl q1, q2, q3⟩
      · rw [hcn]
        exact ⟨Or.inr ⟨hi.inj _ _ _ hm' har, rfl⟩, hA, rfl⟩
    · rw [hc x (by omega) e] at hs
      obtain ⟨q1, q2, q3⟩ := hi.cols x i hx hm' s hs
      rw [hsp s (hi.bound _ _ q1)]
      exact ⟨Or.inl q1, q2, q3⟩
  · intro x
    by_cases e : x = a
    · subst e
      rw [hca]
      simp only [List.nodup_append, List.nodup_cons, List.not_mem_nil, not_false_iff, List.nodup_nil, and_self, true_and,
        List.mem_singleton]
      refine ⟨hi.colsNodup x, ?_⟩
      rintro s hs _ rfl rfl
      exact absurd (hi.bound _ _ (hi.cols x r ha har _ hs).1) (lt_irrefl _)
    · rw [h.cell]
      split
      · simp [TCell.new]
      · exact hi.colsNodup x
  · intro x i hx hm n s hs
    rw [h.mem] at hm
    have hm' : x ∈ rowAt t i := by
      rcases hm with hm | ⟨_, rfl⟩
      · exact hm
      · omega
    rw [hrows x (by omega)] at hs
    obtain ⟨q1, q2, q3⟩ := hi.rows x i hx hm' n s hs
    rw [h.mem, hsp s (hi.bound _ _ q1)]
    exact ⟨Or.inl q1, q2, q3⟩
  · intro r' s b hm hs
    rw [h.mem] at hm
    rcases hm with hm | ⟨_, rfl⟩
    · have hsl := hi.bound _ _ hm
      rw [hsp s hsl] at hs
      have hb := hi.owner_lt hm hs
      have := hi.own r' s b hm hs
      rw [hrows b (by omega)]
      by_cases e : b = a
      · subst e; rw [hca]
        simp only [List.mem_append]
        tauto
      · rw [hc b (by omega) e]; exact this
    · rw [hcn] at hs
      simp at hs
      subst hs
      rw [hca]; simp

/-- Adding a placeholder below. -/
theorem Inv.addRow {H0 : List TCell} {orig : List (List Nat)} {t t' : Tab} {i p a : Nat} (hi : Inv H0 orig t)
    (ha : a < H0.length) (har : a ∈ rowAt t i)
    (h : Ins t t' (i + 1 + (t.cell a).spansRows.length) p { TCell.new with spannedBy := some a } a
      fun c => { c with spansRows := c.spansRows ++ [t.heap.length] }) : Inv H0 orig t' := by
  obtain ⟨b1, b2, b3, b4, b5⟩ := hi.ins_base h
  have hA := hi.len
  have hca : t'.cell a = { t.cell a with spansRows := (t.cell a).spansRows ++ [t.heap.length] } := by
    rw [h.cell, if_neg (by omega), if_pos rfl]
  have hcn : t'.cell t.heap.length = { TCell.new with spannedBy := some a } := by rw [h.cell, if_pos rfl]
  have hc : ∀ x, x < t.heap.length → x ≠ a → t'.cell x = t.cell x := by
    intro x hx hxa; rw [h.cell, if_neg (by omega), if_neg hxa]
  have hsp : ∀ x, x < t.heap.length → (t'.cell x).spannedBy = (t.cell x).spannedBy := by
    intro x hx
    by_cases e : x = a
    · subst e; rw [hca]
    · rw [hc x hx e]
  have hcols : ∀ x, x < t.heap.length → (t'.cell x).spansCols = (t.cell x).spansCols := by
    intro x hx
    by_cases e : x = a
    · subst e; rw [hca]
    · rw [hc x hx e]
  refine ⟨b1, b2, b3, b4, b5, ?_, ?_, ?_, ?_, ?_, ?_⟩
  · intro x hx
    by_cases e : x = a
    · subst e; rw [hca]; exact hi.authored x hx
    · rw [hc x (by omega) e]; exact hi.authored x hx
  · intro s h1 h2
    rw [h.heap] at h2
    by_cases e : s = t.heap.length
    · subst e; rw [hcn]; simp [TCell.new, ha]
    · rw [hc s (by omega) (by omega)]; exact hi.made s h1 (by omega)
  · intro x j hx hm s hs
    rw [h.mem] at hm
    have hm' : x ∈ rowAt t j := by
      rcases hm with hm | ⟨_, rfl⟩
      · exact hm
      · omega
    rw [hcols x (by omega)] at hs
    obtain ⟨q1, q2, q3⟩ := hi.cols x j hx hm' s hs
    rw [h.mem, hsp s (hi.bound _ _ q1)]
    exact ⟨Or.inl q1, q2, q3⟩
  · intro x
    by_cases e : x = t.heap.length
    · subst e; rw [hcn]; simp [TCell.new]
    · rw [h.cell, if_neg e]
      split
      · exact hi.colsNodup a
      · exact hi.colsNodup x
  · intro x j hx hm n s hs
    rw [h.mem] at hm
    have hm' : x ∈ rowAt t j := by
      rcases hm with hm | ⟨_, rfl⟩
      · exact hm
      · omega
    rw [h.mem]
    by_cases e : x = a
    · subst e
      rw [hca] at hs
      simp only at hs
      rcases Nat.lt_or_ge n (t.cell x).spansRows.length with hn | hn
      · rw [List.getElem?_append_left hn] at hs
        obtain ⟨q1, q2, q3⟩ := hi.rows x j hx hm' n s hs
        rw [hsp s (hi.bound _ _ q1)]
        exact ⟨Or.inl q1, q2, q3⟩
      · rw [List.getElem?_append_right hn] at hs
        have hn' : n = (t.cell x).spansRows.length := by
          by_contra hne
          rw [List.getElem?_eq_none (by simp; omega)] at hs
          simp at hs
        subst hn'
        simp at hs
        subst hs
        rw [hcn, hi.inj _ _ _ hm' har]
        exact ⟨Or.inr ⟨rfl, rfl⟩, hA, rfl⟩
    · rw [hc x (by omega) e] at hs
      obtain ⟨q1, q2, q3⟩ := hi.rows x j hx hm' n s hs
      rw [hsp s (hi.bound _ _ q1)]
      exact ⟨Or.inl q1, q2, q3⟩
  · intro r' s b hm hs
    rw [h.mem] at hm
    rcases hm with hm | ⟨_, rfl⟩
    · have hsl := hi.bound _ _ hm
      rw [hsp s hsl] at hs
      have hb := hi.owner_lt hm hs
      have := hi.own r' s b hm hs
      rw [hcols b (by omega)]
      by_cases e : b = a
      · subst e; rw [hca]
        simp only [List.mem_append]
        tauto
      · rw [hc b (by omega) e]; exact this
    · rw [hcn] at hs
      simp at hs
      subst hs
      rw [hca]; simp

end Verif.Proofs
