import Verif.Proofs.TableInv
/-
Column spans keep the invariant; the rows after them.
-/
namespace Verif.Proofs
open Verif.Go Verif.Model

/-- The table with the cells of row `r` replaced: used for the rows being copied. -/
def virt (t : Tab) (r : Nat) (cells : List Nat) : Tab := { t with rows := t.rows.set r ⟨cells, 0⟩ }

theorem rowAt_set (t : Tab) (r : Nat) (cells : List Nat) (h : ℚ) (hr : r < t.rows.length) (r' : Nat) :
    rowAt { t with rows := t.rows.set r ⟨cells, h⟩ } r' = if r' = r then cells else rowAt t r' := by
  unfold rowAt
  simp only [List.getElem?_set]
  by_cases e : r' = r
  · subst e; simp [hr]
  · have : ¬ r = r' := fun q => e q.symm
    simp [this, e]

theorem rowAt_virt (t : Tab) (r : Nat) (cells : List Nat) (hr : r < t.rows.length) (r' : Nat) :
    rowAt (virt t r cells) r' = if r' = r then cells else rowAt t r' := rowAt_set t r cells 0 hr r'

theorem virt_cell (t : Tab) (r : Nat) (cells : List Nat) (x : Nat) : (virt t r cells).cell x = t.cell x := rfl

theorem virt_heap (t : Tab) (r : Nat) (cells : List Nat) : (virt t r cells).heap = t.heap := rfl

theorem rowAt_of_getElem? {t : Tab} {r : Nat} {row : TRow} (h : t.rows[r]? = some row) : rowAt t r = row.cells := by
  simp [rowAt, h]

theorem rowAt_ge {t : Tab} {r : Nat} (h : t.rows.length ≤ r) : rowAt t r = [] := by
  simp [rowAt, List.getElem?_eq_none h]

/-- The invariant only looks at the cells and at the ids in the rows. -/
theorem Inv.congr {H0 : List TCell} {orig : List (List Nat)} {t t' : Tab} (hi : Inv H0 orig t)
    (hl : t'.heap.length = t.heap.length) (hc : ∀ x, t'.cell x = t.cell x) (hr : ∀ r, rowAt t' r = rowAt t r) : Inv H0 orig t' := by
  constructor
  · rw [hl]; exact hi.len
  · intro r; rw [hr, hl]; exact hi.bound r
  · intro r r' x; rw [hr, hr]; exact hi.inj r r' x
  · intro r; rw [hr]; exact hi.nod r
  · intro r; rw [hr]; exact hi.auth r
  · intro a; rw [hc]; exact hi.authored a
  · intro s; rw [hc, hl]; exact hi.made s
  · intro a i; rw [hc, hr]; intro h1 h2 s hs; rw [hc]; exact hi.cols a i h1 h2 s hs
  · intro a; rw [hc]; exact hi.colsNodup a
  · intro a i; rw [hc, hr]; intro h1 h2 n s hs; rw [hc, hr]; exact hi.rows a i h1 h2 n s hs
  · intro r s a; rw [hc, hc, hr]; exact hi.own r s a

theorem Inv.mem_orig {H0 : List TCell} {orig : List (List Nat)} {t : Tab} (hi : Inv H0 orig t) (r x : Nat) :
    x ∈ orig.getD r [] ↔ x ∈ rowAt t r ∧ x < H0.length := by
  rw [← hi.auth r]; simp

theorem flatMap_ext {α β : Type} {l : List α} {f g : α → List β} (h : ∀ x ∈ l, f x = g x) : l.flatMap f = l.flatMap g := by
  induction l with
  | nil => rfl
  | cons x l ih =>
    rw [List.flatMap_cons, List.flatMap_cons, h x (by simp), ih (fun y hy => h y (by simp [hy]))]

theorem colShadows_spec {H0 : List TCell} {orig : List (List Nat)} (id r : Nat) (rest : List Nat) (n : Nat) : ∀ (t : Tab) (acc : List Nat),
    Inv H0 orig (virt t r (acc ++ rest)) → r < t.rows.length → id ∈ acc → id < H0.length →
    ∃ t', colShadows id n t acc = (t', acc ++ List.range' t.heap.length n) ∧
      Inv H0 orig (virt t' r (acc ++ List.range' t.heap.length n ++ rest)) ∧ t'.rows = t.rows ∧
      t'.heap.length = t.heap.length + n ∧
      (t'.cell id).spansCols = (t.cell id).spansCols ++ List.range' t.heap.length n ∧
      (t'.cell id).spansRows = (t.cell id).spansRows ∧
      ∀ x, x < t.heap.length → x ≠ id → t'.cell x = t.cell x := by
  induction n with
  | zero =>
    intro t acc hi hr hid hA
    exact ⟨t, by simp [colShadows], by simpa using hi, rfl, rfl, by simp, rfl, fun _ _ _ => rfl⟩
  | succ n ih =>
    intro t acc hi hr hid hA
    have hlen : H0.length ≤ t.heap.length := hi.len
    have hidl : id < t.heap.length := by omega
    set t2 := ((t.alloc { TCell.new with spannedBy := some id, rowSpan := (t.cell id).rowSpan }).1.modCell id
      fun c => { c with spansCols := c.spansCols ++ [t.heap.length] }) with ht2
    have hheap : t2.heap.length = t.heap.length + 1 := by rw [ht2, heap_modCell]; simp [Tab.alloc]
    have hrows : t2.rows = t.rows := rfl
    have hcell : ∀ x, t2.cell x = if x = t.heap.length then { TCell.new with spannedBy := some id, rowSpan := (t.cell id).rowSpan }
        else if x = id then { t.cell id with spansCols := (t.cell id).spansCols ++ [t.heap.length] } else t.cell x := by
      intro x
      rw [ht2, cell_modCell _ _ _ _ (by simp [Tab.alloc]; omega), cell_alloc, cell_alloc]
      by_cases e1 : x = id
      · subst e1
        rw [if_pos rfl, if_neg (by omega), if_neg (by omega), if_pos rfl]
      · rw [if_neg e1, if_neg e1]
    have hins : Ins (virt t r (acc ++ rest)) (virt t2 r (acc ++ [t.heap.length] ++ rest)) r acc.length
        { TCell.new with spannedBy := some id, rowSpan := (t.cell id).rowSpan } id
        fun c => { c with spansCols := c.spansCols ++ [(virt t r (acc ++ rest)).heap.length] } := by
      refine ⟨hheap, fun x => by rw [virt_cell, virt_cell, virt_heap, hcell, virt_cell], ?_⟩
      intro r'
      rw [rowAt_virt t2 r _ (by rw [hrows]; exact hr), rowAt_virt t r _ hr, rowAt_virt t r _ hr, virt_heap]
      by_cases e : r' = r
      · simp [e, insertAt]
      · simp [e]; rfl
    have hi2 := hi.addCol hA (by rw [rowAt_virt t r _ hr]; simp [hid]) hins
    obtain ⟨t', q1, q2, q3, q4, q5, q6, q7⟩ := ih t2 (acc ++ [t.heap.length]) hi2 hr (by simp [hid]) hA
    have hrange : List.range' t.heap.length (n + 1) = t.heap.length :: List.range' (t.heap.length + 1) n := by
      simp [List.range'_succ]
    rw [hheap] at q1 q2 q4 q5
    refine ⟨t', ?_, ?_, q3, by omega, ?_, ?_, ?_⟩
    · show colShadows id n t2 (acc ++ [t.heap.length]) = _
      rw [q1, hrange]
      simp
    · rw [hrange]; simpa using q2
    · rw [q5, hcell, if_neg (by omega), if_pos rfl, hrange]; simp
    · rw [q6, hcell, if_neg (by omega), if_pos rfl]
    · intro x hx hxid
      rw [q7 x (by omega) hxid, hcell, if_neg (by omega), if_neg hxid]

theorem colSpanCells_spec {H0 : List TCell} {orig : List (List Nat)} (r : Nat) : ∀ (ids : List Nat) (t : Tab) (acc : List Nat),
    Inv H0 orig (virt t r (acc ++ ids)) → r < t.rows.length → (∀ x ∈ ids, x < H0.length ∧ (t.cell x).spansCols = []) →
    ∃ t' cells, colSpanCells ids t acc = (t', cells) ∧
      cells = acc ++ ids.flatMap (fun x => x :: (t'.cell x).spansCols) ∧
      Inv H0 orig (virt t' r cells) ∧ t'.rows = t.rows ∧ t.heap.length ≤ t'.heap.length ∧
      (∀ x, x < H0.length → x ∉ ids → t'.cell x = t.cell x) ∧
      (∀ x ∈ ids, (t'.cell x).spansCols.length = ((H0.getD x TCell.new).colSpan - 1).toNat) ∧
      (∀ x, x < H0.length → (t'.cell x).spansRows = (t.cell x).spansRows) := by
  intro ids
  induction ids with
  | nil =>
    intro t acc hi hr _
    exact ⟨t, acc, rfl, by simp, by simpa using hi, rfl, le_refl _, fun _ _ _ => rfl, by simp, fun _ _ => rfl⟩
  | cons id ids ih =>
    intro t acc hi hr hids
    have hA := (hids id (by simp)).1
    have hsc := (hids id (by simp)).2
    have hcs : (t.cell id).colSpan = (H0.getD id TCell.new).colSpan := (hi.authored id hA).2.2.1
    have hnod : (id :: ids).Nodup := by
      have := hi.nod r
      rw [rowAt_virt t r _ hr, if_pos rfl, List.nodup_append] at this
      exact this.2.1
    have hid : id ∉ ids := (List.nodup_cons.mp hnod).1
    unfold colSpanCells
    by_cases hc : (t.cell id).colSpan ≤ 1
    · simp only [hc, if_true]
      obtain ⟨t', cells, q1, q2, q3, q4, q5, q6, q7, q8⟩ := ih t (acc ++ [id]) (by simpa using hi) hr
        (fun x hx => hids x (by simp [hx]))
      have hcid := q6 id hA hid
      refine ⟨t', cells, q1, ?_, q3, q4, q5, ?_, ?_, q8⟩
      · rw [q2, List.flatMap_cons, hcid, hsc]; simp
      · intro x hx hxn; exact q6 x hx (fun h => hxn (by simp [h]))
      · intro x hx
        rcases List.mem_cons.mp hx with rfl | hx
        · rw [hcid, hsc, ← hcs]
          simp; omega
        · exact q7 x hx
    · simp only [hc, if_false]
      obtain ⟨t1, p1, p2, p3, p4, p5, p6, p7⟩ := colShadows_spec id r ids ((t.cell id).colSpan - 1).toNat t (acc ++ [id])
        (by simpa using hi) hr (by simp) hA
      rw [p1]
      simp only
      have hlen : H0.length ≤ t.heap.length := hi.len
      obtain ⟨t', cells, q1, q2, q3, q4, q5, q6, q7, q8⟩ := ih t1 _ p2 (by rw [p3]; exact hr) (fun x hx => by
        have hx' := hids x (by simp [hx])
        rw [p7 x (by omega) (by rintro rfl; exact hid hx)]
        exact hx')
      have hcid := q6 id hA hid
      refine ⟨t', cells, q1, ?_, q3, q4.trans p3, by omega, ?_, ?_, ?_⟩
      · rw [q2, List.flatMap_cons, hcid, p5, hsc]; simp
      · intro x hx hxn
        rw [q6 x hx (fun h => hxn (by simp [h])), p7 x (by omega) (fun h => hxn (by simp [h]))]
      · intro x hx
        rcases List.mem_cons.mp hx with rfl | hx
        · rw [hcid, p5, hsc, ← hcs]; simp
        · exact q7 x hx
      · intro x hx
        rw [q8 x hx]
        by_cases e : x = id
        · subst e; exact p6
        · rw [p7 x (by omega) e]

theorem colSpanRows_spec {H0 : List TCell} {orig : List (List Nat)} : ∀ (n ir : Nat) (t : Tab),
    Inv H0 orig t → ir + n = t.rows.length → (∀ r, ir ≤ r → rowAt t r = orig.getD r []) →
    (∀ r, ir ≤ r → ∀ x ∈ orig.getD r [], (t.cell x).spansCols = []) →
    let t' := colSpanRows n ir t
    Inv H0 orig t' ∧ t'.rows.length = t.rows.length ∧
      (∀ r, r < ir → rowAt t' r = rowAt t r) ∧
      (∀ r, ir ≤ r → rowAt t' r = (orig.getD r []).flatMap (fun x => x :: (t'.cell x).spansCols)) ∧
      (∀ x, x < H0.length → (∀ r, ir ≤ r → x ∉ orig.getD r []) → t'.cell x = t.cell x) ∧
      (∀ r, ir ≤ r → ∀ x ∈ orig.getD r [], (t'.cell x).spansCols.length = ((H0.getD x TCell.new).colSpan - 1).toNat) ∧
      (∀ x, x < H0.length → (t'.cell x).spansRows = (t.cell x).spansRows) := by
  intro n
  induction n with
  | zero =>
    intro ir t hi hl hr _
    have hnil : ∀ r, ir ≤ r → orig.getD r [] = [] := fun r h => by rw [← hr r h, rowAt_ge (by omega)]
    refine ⟨hi, rfl, fun _ _ => rfl, ?_, fun _ _ _ => rfl, ?_, fun _ _ => rfl⟩
    · intro r h; rw [colSpanRows, hr r h, hnil r h]; rfl
    · intro r h x hx; rw [hnil r h] at hx; simp at hx
  | succ n ih =>
    intro ir t hi hl hr hsc
    have hlt : ir < t.rows.length := by omega
    have hget : t.rows[ir]? = some t.rows[ir] := List.getElem?_eq_getElem hlt
    have hcells : t.rows[ir].cells = orig.getD ir [] := by rw [← rowAt_of_getElem? hget, hr ir (le_refl _)]
    have hvirt : Inv H0 orig (virt t ir ([] ++ orig.getD ir [])) := by
      refine hi.congr rfl (fun _ => rfl) (fun r' => ?_)
      rw [rowAt_virt t ir _ hlt]
      by_cases e : r' = ir
      · subst e; rw [if_pos rfl, hr r' (le_refl _), List.nil_append]
      · rw [if_neg e]
    obtain ⟨t1, cells, p1, p2, p3, p4, p5, p6, p7, p8⟩ := colSpanCells_spec ir (orig.getD ir []) t [] hvirt hlt (fun x hx =>
      ⟨((hi.mem_orig ir x).mp hx).2, hsc ir (le_refl _) x hx⟩)
    have heq : colSpanRows (n + 1) ir t =
        colSpanRows n (ir + 1) { t1 with rows := t1.rows.set ir { t.rows[ir] with cells := cells } } := by
      rw [colSpanRows, hget]
      simp only [hcells, p1]
    set t2 : Tab := { t1 with rows := t1.rows.set ir { t.rows[ir] with cells := cells } } with ht2
    have hrow2 : ∀ r', rowAt t2 r' = if r' = ir then cells else rowAt t1 r' := fun r' =>
      rowAt_set t1 ir cells _ (by rw [p4]; exact hlt) r'
    have hrow1 : ∀ r', rowAt t1 r' = rowAt t r' := fun r' => by unfold rowAt; rw [p4]
    have hi2 : Inv H0 orig t2 := p3.congr rfl (fun _ => rfl) (fun r' => by
      rw [hrow2, rowAt_virt t1 ir cells (by rw [p4]; exact hlt)])
    have hlen2 : t2.rows.length = t.rows.length := by rw [ht2]; simp [p4]
    have hdisj : ∀ r, ir + 1 ≤ r → ∀ x ∈ orig.getD r [], x < H0.length ∧ x ∉ orig.getD ir [] := by
      intro r h x hx
      rw [hi.mem_orig] at hx
      refine ⟨hx.2, fun hx' => ?_⟩
      rw [hi.mem_orig] at hx'
      have := hi.inj _ _ _ hx.1 hx'.1
      omega
    obtain ⟨q1, q2, q3, q4, q5, q6, q7⟩ := ih (ir + 1) t2 hi2 (by rw [hlen2]; omega)
      (fun r h => by rw [hrow2, if_neg (by omega), hrow1, hr r (by omega)])
      (fun r h x hx => by
        have := hdisj r h x hx
        show (t1.cell x).spansCols = []
        rw [p6 x this.1 this.2]
        exact hsc r (by omega) x hx)
    rw [heq]
    have hkeep : ∀ x ∈ orig.getD ir [], (colSpanRows n (ir + 1) t2).cell x = t1.cell x := by
      intro x hx
      refine q5 x ((hi.mem_orig ir x).mp hx).2 (fun r h hx' => ?_)
      exact (hdisj r h x hx').2 hx
    refine ⟨q1, by rw [q2, hlen2], ?_, ?_, ?_, ?_, ?_⟩
    · intro r h; rw [q3 r (by omega), hrow2, if_neg (by omega), hrow1]
    · intro r h
      by_cases e : r = ir
      · subst e
        rw [q3 r (by omega), hrow2, if_pos rfl, p2, List.nil_append]
        exact flatMap_ext (fun x hx => by rw [hkeep x hx])
      · exact q4 r (by omega)
    · intro x hx hxn
      rw [q5 x hx (fun r h => hxn r (by omega))]
      exact p6 x hx (hxn ir (le_refl _))
    · intro r h x hx
      by_cases e : r = ir
      · subst e; rw [hkeep x hx]; exact p7 x hx
      · exact q6 r (by omega) x hx
    · intro x hx
      rw [q7 x hx]
      exact p8 x hx

end Verif.Proofs
