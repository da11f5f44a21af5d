import Verif.Proofs.TableCols
/-
Row spans and padding keep the invariant.
-/
namespace Verif.Proofs
open Verif.Go Verif.Model

theorem padZero_spec {H0 : List TCell} {orig : List (List Nat)} (r : Nat) (k : Nat) : ∀ (t : Tab) (cells : List Nat),
    Inv H0 orig (virt t r cells) → r < t.rows.length →
    ∃ t', padZero k t cells = (t', cells ++ List.range' t.heap.length k) ∧
      Inv H0 orig (virt t' r (cells ++ List.range' t.heap.length k)) ∧ t'.rows = t.rows ∧ t'.columnCount = t.columnCount ∧
      t'.heap.length = t.heap.length + k ∧ (∀ x, x < t.heap.length → t'.cell x = t.cell x) ∧
      (∀ x, t.heap.length ≤ x → x < t.heap.length + k → t'.cell x = TCell.zeroCell) := by
  induction k with
  | zero =>
    intro t cells hi hr
    exact ⟨t, by simp [padZero], by simpa using hi, rfl, rfl, rfl, fun _ _ => rfl, fun _ _ _ => by omega⟩
  | succ k ih =>
    intro t cells hi hr
    set t1 := (t.alloc TCell.zeroCell).1 with ht1
    have hheap : t1.heap.length = t.heap.length + 1 := by rw [ht1]; simp [Tab.alloc]
    have hins : Ins (virt t r cells) (virt t1 r (cells ++ [t.heap.length])) r cells.length TCell.zeroCell t.heap.length id := by
      refine ⟨hheap, fun x => ?_, fun r' => ?_⟩
      · rw [virt_cell, virt_cell, virt_heap, ht1, cell_alloc, virt_cell]
        split
        · rfl
        · rfl
      · rw [rowAt_virt t1 r _ hr, rowAt_virt t r _ hr, rowAt_virt t r _ hr, virt_heap]
        by_cases e : r' = r
        · simp [e, insertAt]
        · simp [e]; rfl
    have hi1 := hi.addZero hins
    obtain ⟨t', q1, q2, q3, q4, q5, q6, q7⟩ := ih t1 (cells ++ [t.heap.length]) hi1 hr
    have hrange : List.range' t.heap.length (k + 1) = t.heap.length :: List.range' (t.heap.length + 1) k := by
      simp [List.range'_succ]
    rw [hheap] at q1 q2 q5 q7
    refine ⟨t', ?_, ?_, q3, q4, by omega, ?_, ?_⟩
    · show padZero k t1 (cells ++ [t.heap.length]) = _
      rw [q1, hrange]; simp
    · rw [hrange]; simpa using q2
    · intro x hx
      rw [q6 x (by omega), ht1, cell_alloc, if_neg (by omega)]
    · intro x h1 h2
      by_cases e : x = t.heap.length
      · rw [q6 x (by omega), ht1, cell_alloc, if_pos e]
      · exact q7 x (by omega) (by omega)

theorem rowShadow_spec {H0 : List TCell} {orig : List (List Nat)} {t : Tab} {a i sr : Nat} (ic : Nat) (hi : Inv H0 orig t)
    (ha : a < H0.length) (hai : a ∈ rowAt t i) (hsr : sr = i + 1 + (t.cell a).spansRows.length) (hle : sr ≤ t.rows.length) :
    ∃ t' s zs, rowShadow a ic sr t = some t' ∧ Inv H0 orig t' ∧ t'.rows.length = max t.rows.length (sr + 1) ∧
      t.heap.length ≤ t'.heap.length ∧ t'.cell a = { t.cell a with spansRows := (t.cell a).spansRows ++ [s] } ∧
      t.heap.length ≤ s ∧ (t'.cell s).spannedBy = some a ∧
      (∀ x, x < t.heap.length → x ≠ a → t'.cell x = t.cell x) ∧
      (∀ r', r' ≠ sr → rowAt t' r' = rowAt t r') ∧
      zs.length = ic - (rowAt t sr).length ∧ (∀ z ∈ zs, t.heap.length ≤ z ∧ (t'.cell z).zero = true) ∧
      rowAt t' sr = insertAt (rowAt t sr ++ zs) ic s := by
  -- the table with the row
  obtain ⟨t1, ht1, hrow1, hheap1, hlen1⟩ : ∃ t1 : Tab, (if sr ≥ t.rows.length then ({ t with rows := t.rows ++ [⟨[], 0⟩] }, t.rows.length) else (t, sr)) = (t1, sr) ∧
      (∀ r', rowAt t1 r' = rowAt t r') ∧ t1.heap = t.heap ∧ t1.rows.length = max t.rows.length (sr + 1) := by
    by_cases h : sr ≥ t.rows.length
    · refine ⟨{ t with rows := t.rows ++ [⟨[], 0⟩] }, ?_, ?_, rfl, ?_⟩
      · rw [if_pos h, show sr = t.rows.length by omega]
      · intro r'
        unfold rowAt
        simp only
        rcases Nat.lt_trichotomy r' t.rows.length with q | q | q
        · rw [List.getElem?_append_left q]
        · subst q; simp
        · rw [List.getElem?_eq_none (by simp; omega), List.getElem?_eq_none (by omega)]
      · simp; omega
    · exact ⟨t, by rw [if_neg h], fun _ => rfl, rfl, by omega⟩
  have hcell1 : ∀ x, t1.cell x = t.cell x := fun x => by unfold Tab.cell; rw [hheap1]
  have hlt1 : sr < t1.rows.length := by omega
  have hi1 : Inv H0 orig t1 := hi.congr (by rw [hheap1]) hcell1 hrow1
  have hget : t1.rows[sr]? = some t1.rows[sr] := List.getElem?_eq_getElem hlt1
  have hcells : t1.rows[sr].cells = rowAt t sr := by rw [← hrow1, rowAt_of_getElem? hget]
  have hv1 : Inv H0 orig (virt t1 sr (rowAt t sr)) := by
    refine hi1.congr rfl (fun _ => rfl) (fun r' => ?_)
    rw [rowAt_virt t1 sr _ hlt1]
    by_cases e : r' = sr
    · subst e; rw [if_pos rfl, hrow1]
    · rw [if_neg e]
  obtain ⟨t2, p1, p2, p3, _, p5, p6, p7⟩ := padZero_spec sr (ic - (rowAt t sr).length) t1 (rowAt t sr) hv1 hlt1
  rw [hheap1] at p1 p2 p5 p6 p7
  set zs := List.range' t.heap.length (ic - (rowAt t sr).length) with hzs
  have hzl : zs.length = ic - (rowAt t sr).length := by rw [hzs]; simp
  have hA := hi.len
  have hal : a < t.heap.length := by omega
  set s := t2.heap.length with hs
  set t4 := ((t2.alloc { TCell.new with spannedBy := some a }).1.modCell a fun c => { c with spansRows := c.spansRows ++ [s] }) with ht4
  have hheap4 : t4.heap.length = t2.heap.length + 1 := by rw [ht4, heap_modCell]; simp [Tab.alloc]
  have hcell4 : ∀ x, t4.cell x = if x = t2.heap.length then { TCell.new with spannedBy := some a }
      else if x = a then { t2.cell a with spansRows := (t2.cell a).spansRows ++ [s] } else t2.cell x := by
    intro x
    rw [ht4, cell_modCell _ _ _ _ (by simp [Tab.alloc]; omega), cell_alloc, cell_alloc]
    by_cases e1 : x = a
    · subst e1
      rw [if_pos rfl, if_neg (by omega), if_neg (by omega), if_pos rfl]
    · rw [if_neg e1, if_neg e1]
  set t5 : Tab := { t4 with rows := t4.rows.set sr { t1.rows[sr] with cells := insertAt (rowAt t sr ++ zs) ic s } } with ht5
  have hrows4 : t4.rows = t1.rows := p3
  have hlt4 : sr < t4.rows.length := by rw [hrows4]; exact hlt1
  have hrow4 : ∀ r', rowAt t4 r' = rowAt t r' := fun r' => by rw [← hrow1]; unfold rowAt; rw [hrows4]
  have hrow5 : ∀ r', rowAt t5 r' = if r' = sr then insertAt (rowAt t sr ++ zs) ic s else rowAt t r' := fun r' => by
    rw [ht5, rowAt_set t4 sr _ _ hlt4, hrow4]
  have ht2a : t2.cell a = t.cell a := by rw [p6 a hal, hcell1]
  have hlt2 : sr < t2.rows.length := by rw [p3]; exact hlt1
  have hrow2 : ∀ r', rowAt t2 r' = rowAt t r' := fun r' => by rw [← hrow1]; unfold rowAt; rw [p3]
  have hzero : ∀ z ∈ zs, t.heap.length ≤ z ∧ z < t2.heap.length := by
    intro z hz
    rw [hzs, List.mem_range'_1] at hz
    omega
  have hai5 : a ∈ rowAt (virt t2 sr (rowAt t sr ++ zs)) i := by
    rw [rowAt_virt t2 sr _ hlt2, hrow2]
    rw [if_neg (by omega)]
    exact hai
  have hins : Ins (virt t2 sr (rowAt t sr ++ zs)) t5
      (i + 1 + ((virt t2 sr (rowAt t sr ++ zs)).cell a).spansRows.length) ic { TCell.new with spannedBy := some a } a
      fun c => { c with spansRows := c.spansRows ++ [(virt t2 sr (rowAt t sr ++ zs)).heap.length] } := by
    rw [virt_cell, ht2a, ← hsr, virt_heap]
    refine ⟨hheap4, hcell4, fun r' => ?_⟩
    simp only [hrow5, rowAt_virt t2 sr _ hlt2, hrow2, virt_heap, if_true]
    split <;> rfl
  have hi5 := p2.addRow ha hai5 hins
  refine ⟨t5, s, zs, ?_, hi5, ?_, ?_, ?_, by omega, ?_, ?_, ?_, hzl, ?_, ?_⟩
  · unfold rowShadow
    rw [ht1]
    simp only [hget, hcells, p1]
    have hnot : ¬ ic > (rowAt t sr ++ zs).length := by rw [List.length_append, hzl]; omega
    rw [if_neg hnot]
    rfl
  · rw [ht5]; simp [hrows4, hlen1]
  · show _ ≤ t4.heap.length; omega
  · show t4.cell a = _
    rw [hcell4, if_neg (by omega), if_pos rfl, ht2a]
  · show (t4.cell s).spannedBy = _
    rw [hcell4, if_pos rfl]
  · intro x hx hxa
    show t4.cell x = _
    rw [hcell4, if_neg (by omega), if_neg hxa, p6 x hx, hcell1]
  · intro r' h; rw [hrow5, if_neg h]
  · intro z hz
    refine ⟨(hzero z hz).1, ?_⟩
    show (t4.cell z).zero = true
    have hzA : H0.length ≤ z := by have := hzero z hz; omega
    rw [hcell4, if_neg (by have := hzero z hz; omega), if_neg (by omega)]
    rw [p7 z (hzero z hz).1 (by have := (hzero z hz).2; omega)]; rfl
  · rw [hrow5, if_pos rfl]

theorem rowShadows_spec {H0 : List TCell} {orig : List (List Nat)} (a ic : Nat) (n : Nat) : ∀ (t : Tab) (i sr : Nat), Inv H0 orig t →
    a < H0.length → a ∈ rowAt t i → sr = i + 1 + (t.cell a).spansRows.length → sr ≤ t.rows.length →
    (∀ r, orig.length ≤ r → r < t.rows.length → ∃ s ∈ rowAt t r, (t.cell s).spannedBy.isSome) →
    ∃ t', rowShadows a ic n sr t = some t' ∧ Inv H0 orig t' ∧ t.rows.length ≤ t'.rows.length ∧ t.heap.length ≤ t'.heap.length ∧
      (∀ r, orig.length ≤ r → r < t'.rows.length → ∃ s ∈ rowAt t' r, (t'.cell s).spannedBy.isSome) ∧
      (t'.cell a).spansRows.length = (t.cell a).spansRows.length + n ∧ (t'.cell a).spansCols = (t.cell a).spansCols ∧
      (∀ x, x < t.heap.length → x ≠ a → t'.cell x = t.cell x) ∧
      (∀ r', r' < sr → rowAt t' r' = rowAt t r') := by
  induction n with
  | zero =>
    intro t i sr hi _ _ _ _ hT
    exact ⟨t, rfl, hi, le_refl _, le_refl _, hT, rfl, rfl, fun _ _ _ => rfl, fun _ _ => rfl⟩
  | succ n ih =>
    intro t i sr hi ha hai hsr hle hT
    obtain ⟨t1, s, zs, p1, p2, p3, p4, p5, p6, p7, p8, p9, _, _, p12⟩ := rowShadow_spec ic hi ha hai hsr hle
    have hai1 : a ∈ rowAt t1 i := by rw [p9 i (by omega)]; exact hai
    have hA := hi.len
    have hT1 : ∀ r, orig.length ≤ r → r < t1.rows.length → ∃ s ∈ rowAt t1 r, (t1.cell s).spannedBy.isSome := by
      intro r h1 h2
      by_cases e : r = sr
      · subst e
        exact ⟨s, by rw [p12, mem_insertAt]; simp, by rw [p7]; rfl⟩
      · obtain ⟨s', q1, q2⟩ := hT r h1 (by rw [p3] at h2; omega)
        refine ⟨s', by rw [p9 r e]; exact q1, ?_⟩
        have hsa : s' ≠ a := by
          rintro rfl
          rw [(hi.authored s' ha).2.2.2.2.1] at q2
          simp at q2
        rw [p8 s' (hi.bound _ _ q1) hsa]; exact q2
    obtain ⟨t', q1, q2, q3, q4, q5, q6, q7, q8, q9⟩ := ih t1 i (sr + 1) p2 ha hai1 (by rw [p5]; simp; omega)
      (by rw [p3]; omega) hT1
    refine ⟨t', by rw [rowShadows, p1]; exact q1, q2, by rw [p3] at q3; omega, by omega, q5, ?_, ?_, ?_, ?_⟩
    · rw [q6, p5]; simp; omega
    · rw [q7, p5]
    · intro x hx hxa; rw [q8 x (by omega) hxa, p8 x hx hxa]
    · intro r' h; rw [q9 r' (by omega), p9 r' (by omega)]

theorem rowSpanCells_spec {H0 : List TCell} {orig : List (List Nat)} (ir : Nat) : ∀ (ids : List Nat) (ic : Nat) (t : Tab), Inv H0 orig t →
    (∀ x ∈ ids, x ∈ rowAt t ir) → ids.Nodup → (∀ x ∈ ids, x < H0.length → (t.cell x).spansRows = []) → ir < t.rows.length →
    (∀ r, orig.length ≤ r → r < t.rows.length → ∃ s ∈ rowAt t r, (t.cell s).spannedBy.isSome) →
    ∃ t', rowSpanCells ir ic ids t = some t' ∧ Inv H0 orig t' ∧ t.rows.length ≤ t'.rows.length ∧ t.heap.length ≤ t'.heap.length ∧
      (∀ r, orig.length ≤ r → r < t'.rows.length → ∃ s ∈ rowAt t' r, (t'.cell s).spannedBy.isSome) ∧
      (∀ x ∈ ids, x < H0.length → (t'.cell x).spansRows.length = ((H0.getD x TCell.new).rowSpan - 1).toNat) ∧
      (∀ x, x < H0.length → x ∉ ids → t'.cell x = t.cell x) ∧
      (∀ x, x < H0.length → (t'.cell x).spansCols = (t.cell x).spansCols) ∧
      (∀ r', r' ≤ ir → rowAt t' r' = rowAt t r') := by
  intro ids
  induction ids with
  | nil =>
    intro ic t hi _ _ _ _ hT
    exact ⟨t, rfl, hi, le_refl _, le_refl _, hT, by simp, fun _ _ _ => rfl, fun _ _ => rfl, fun _ _ => rfl⟩
  | cons id ids ih =>
    intro ic t hi hmem hnod hsr hir hT
    have hid := (List.nodup_cons.mp hnod).1
    have hnod' := (List.nodup_cons.mp hnod).2
    unfold rowSpanCells
    -- skipped cells
    have skip : (id < H0.length → ((H0.getD id TCell.new).rowSpan - 1).toNat = 0) →
        ∃ t', rowSpanCells ir (ic + 1) ids t = some t' ∧ Inv H0 orig t' ∧ t.rows.length ≤ t'.rows.length ∧
          t.heap.length ≤ t'.heap.length ∧
          (∀ r, orig.length ≤ r → r < t'.rows.length → ∃ s ∈ rowAt t' r, (t'.cell s).spannedBy.isSome) ∧
          (∀ x ∈ id :: ids, x < H0.length → (t'.cell x).spansRows.length = ((H0.getD x TCell.new).rowSpan - 1).toNat) ∧
          (∀ x, x < H0.length → x ∉ id :: ids → t'.cell x = t.cell x) ∧
          (∀ x, x < H0.length → (t'.cell x).spansCols = (t.cell x).spansCols) ∧
          (∀ r', r' ≤ ir → rowAt t' r' = rowAt t r') := by
      intro h0
      obtain ⟨t', q1, q2, q3, q4, q5, q6, q7, q8, q9⟩ := ih (ic + 1) t hi (fun x hx => hmem x (by simp [hx])) hnod'
        (fun x hx => hsr x (by simp [hx])) hir hT
      refine ⟨t', q1, q2, q3, q4, q5, ?_, ?_, q8, q9⟩
      · intro x hx hA
        rcases List.mem_cons.mp hx with rfl | hx
        · rw [q7 x hA hid, hsr x (by simp) hA, h0 hA]; rfl
        · exact q6 x hx hA
      · intro x hA hx; exact q7 x hA (fun h => hx (by simp [h]))
    by_cases hA : id < H0.length
    · have hau := hi.authored id hA
      by_cases h1 : (t.cell id).rowSpan ≤ 1
      · simp only [h1, if_true]
        exact skip (fun _ => by rw [← hau.2.2.2.1]; omega)
      · simp only [h1, if_false, hau.2.2.2.2.1, hau.2.2.2.2.2]
        simp only [Option.isSome_none, Bool.false_eq_true, or_self, if_false]
        obtain ⟨t1, p1, p2, p3, p4, p5, p6, p7, p8, p9⟩ := rowShadows_spec id ic ((t.cell id).rowSpan - 1).toNat t ir (ir + 1) hi hA
          (hmem id (by simp)) (by rw [hsr id (by simp) hA]; rfl) (by omega) hT
        rw [p1]
        simp only
        have hlen := hi.len
        obtain ⟨t', q1, q2, q3, q4, q5, q6, q7, q8, q9⟩ := ih (ic + 1) t1 p2
          (fun x hx => by rw [p9 ir (by omega)]; exact hmem x (by simp [hx])) hnod'
          (fun x hx hxA => by
            rw [p8 x (by omega) (by rintro rfl; exact hid hx)]
            exact hsr x (by simp [hx]) hxA) (by omega) p5
        refine ⟨t', q1, q2, by omega, by omega, q5, ?_, ?_, ?_, ?_⟩
        · intro x hx hxA
          rcases List.mem_cons.mp hx with rfl | hx
          · rw [q7 x hxA hid, p6, hsr x (by simp) hxA, ← hau.2.2.2.1]; simp
          · exact q6 x hx hxA
        · intro x hxA hx
          rw [q7 x hxA (fun h => hx (by simp [h])), p8 x (by omega) (fun h => hx (by simp [h]))]
        · intro x hxA
          rw [q8 x hxA]
          by_cases e : x = id
          · subst e; exact p7
          · rw [p8 x (by omega) e]
        · intro r' h; rw [q9 r' h, p9 r' (by omega)]
    · have hmade := hi.made id (by omega) (hi.bound _ _ (hmem id (by simp)))
      have hor : (t.cell id).spannedBy.isSome ∨ (t.cell id).zero = true := by
        rcases hmade.2.2.2.2 with ⟨a, _, h, _⟩ | ⟨_, h⟩
        · left; rw [h]; rfl
        · right; exact h
      simp only [if_pos hor, ite_self]
      exact skip (fun h => absurd h hA)

theorem rowSpanRows_spec {H0 : List TCell} {orig : List (List Nat)} : ∀ (n ir : Nat) (t : Tab), Inv H0 orig t →
    ir + n = orig.length → orig.length ≤ t.rows.length →
    (∀ r, ir ≤ r → ∀ x ∈ orig.getD r [], (t.cell x).spansRows = []) →
    (∀ r, orig.length ≤ r → r < t.rows.length → ∃ s ∈ rowAt t r, (t.cell s).spannedBy.isSome) →
    ∃ t', rowSpanRows n ir t = some t' ∧ Inv H0 orig t' ∧ orig.length ≤ t'.rows.length ∧
      (∀ r, orig.length ≤ r → r < t'.rows.length → ∃ s ∈ rowAt t' r, (t'.cell s).spannedBy.isSome) ∧
      (∀ r, ir ≤ r → ∀ x ∈ orig.getD r [], (t'.cell x).spansRows.length = ((H0.getD x TCell.new).rowSpan - 1).toNat) ∧
      (∀ r, r < ir → ∀ x ∈ orig.getD r [], t'.cell x = t.cell x) ∧
      (∀ x, x < H0.length → (t'.cell x).spansCols = (t.cell x).spansCols) ∧
      (∀ r', r' ≤ ir → rowAt t' r' = rowAt t r') := by
  intro n
  induction n with
  | zero =>
    intro ir t hi hn hle hsr hT
    refine ⟨t, rfl, hi, hle, hT, ?_, fun _ _ _ _ => rfl, fun _ _ => rfl, fun _ _ => rfl⟩
    intro r h x hx
    rw [List.getD_eq_getElem?_getD, List.getElem?_eq_none (by omega)] at hx
    simp at hx
  | succ n ih =>
    intro ir t hi hn hle hsr hT
    have hlt : ir < t.rows.length := by omega
    have hget : t.rows[ir]? = some t.rows[ir] := List.getElem?_eq_getElem hlt
    have hcells : t.rows[ir].cells = rowAt t ir := (rowAt_of_getElem? hget).symm
    obtain ⟨t1, p1, p2, p3, p4, p5, p6, p7, p8, p9⟩ := rowSpanCells_spec ir (rowAt t ir) 0 t hi (fun _ h => h) (hi.nod ir)
      (fun x hx hA => hsr ir (le_refl _) x ((hi.mem_orig ir x).mpr ⟨hx, hA⟩)) hlt hT
    have hother : ∀ r, r ≠ ir → ∀ x ∈ orig.getD r [], t1.cell x = t.cell x := by
      intro r h x hx
      rw [hi.mem_orig] at hx
      exact p7 x hx.2 (fun h' => h (hi.inj _ _ _ hx.1 h'))
    obtain ⟨t', q1, q2, q3, q4, q5, q6, q7, q8⟩ := ih (ir + 1) t1 p2 (by omega) (by omega)
      (fun r h x hx => by rw [hother r (by omega) x hx]; exact hsr r (by omega) x hx) p5
    refine ⟨t', ?_, q2, q3, q4, ?_, ?_, ?_, fun r' h => by rw [q8 r' (by omega), p9 r' h]⟩
    · rw [rowSpanRows, hget]; simp only [hcells, p1]; exact q1
    · intro r h x hx
      by_cases e : r = ir
      · subst e
        rw [q6 r (by omega) x hx]
        have := (hi.mem_orig r x).mp hx
        exact p6 x this.1 this.2
      · exact q5 r (by omega) x hx
    · intro r h x hx
      rw [q6 r (by omega) x hx, hother r (by omega) x hx]
    · intro x hx; rw [q7 x hx, p8 x hx]

theorem maxCells_aux (rows : List TRow) : ∀ m : Nat,
    m ≤ rows.foldl (fun m r => if r.cells.length > m then r.cells.length else m) m ∧
    (∀ r ∈ rows, r.cells.length ≤ rows.foldl (fun m r => if r.cells.length > m then r.cells.length else m) m) ∧
    (rows.foldl (fun m r => if r.cells.length > m then r.cells.length else m) m = m ∨
      ∃ r ∈ rows, r.cells.length = rows.foldl (fun m r => if r.cells.length > m then r.cells.length else m) m) := by
  induction rows with
  | nil => intro m; simp
  | cons r rows ih =>
    intro m
    rw [List.foldl_cons]
    obtain ⟨h1, h2, h3⟩ := ih (if r.cells.length > m then r.cells.length else m)
    have hm : m ≤ (if r.cells.length > m then r.cells.length else m) ∧ r.cells.length ≤ (if r.cells.length > m then r.cells.length else m) ∧
      ((if r.cells.length > m then r.cells.length else m) = m ∨ (if r.cells.length > m then r.cells.length else m) = r.cells.length) := by
      split <;> omega
    refine ⟨by omega, ?_, ?_⟩
    · intro r' hr'
      rcases List.mem_cons.mp hr' with rfl | h
      · omega
      · exact h2 r' h
    · rcases h3 with h3 | ⟨r', q1, q2⟩
      · rcases hm.2.2 with h | h
        · left; omega
        · right; exact ⟨r, by simp, by omega⟩
      · right; exact ⟨r', by simp [q1], q2⟩

theorem le_maxCells {rows : List TRow} {r : TRow} (h : r ∈ rows) : r.cells.length ≤ maxCells rows := (maxCells_aux rows 0).2.1 r h

theorem padRows_spec {H0 : List TCell} {orig : List (List Nat)} (cc : Nat) : ∀ (n ir : Nat) (t : Tab), Inv H0 orig t →
    ir + n = t.rows.length → (∀ r, (rowAt t r).length ≤ cc) → (∀ r, r < ir → (rowAt t r).length = cc) →
    let t' := padRows cc n ir t
    Inv H0 orig t' ∧ t'.rows.length = t.rows.length ∧ (∀ r, r < t.rows.length → (rowAt t' r).length = cc) ∧
      (∀ r, ∃ zs, rowAt t' r = rowAt t r ++ zs ∧ ∀ z ∈ zs, t.heap.length ≤ z) ∧ t.heap.length ≤ t'.heap.length ∧
      (∀ x, x < t.heap.length → t'.cell x = t.cell x) ∧ t'.columnCount = t.columnCount := by
  intro n
  induction n with
  | zero =>
    intro ir t hi hn hle hdone
    exact ⟨hi, rfl, fun r h => hdone r (by omega), fun r => ⟨[], by simp [padRows]⟩, le_refl _, fun _ _ => rfl, rfl⟩
  | succ n ih =>
    intro ir t hi hn hle hdone
    have hlt : ir < t.rows.length := by omega
    have hget : t.rows[ir]? = some t.rows[ir] := List.getElem?_eq_getElem hlt
    have hcells : t.rows[ir].cells = rowAt t ir := (rowAt_of_getElem? hget).symm
    have hv : Inv H0 orig (virt t ir (rowAt t ir)) := hi.congr rfl (fun _ => rfl) (fun r' => by
      rw [rowAt_virt t ir _ hlt]
      by_cases e : r' = ir
      · subst e; rw [if_pos rfl]
      · rw [if_neg e])
    obtain ⟨t1, p1, p2, p3, p4, p5, p6, _⟩ := padZero_spec ir (cc - (rowAt t ir).length) t (rowAt t ir) hv hlt
    set zs := List.range' t.heap.length (cc - (rowAt t ir).length) with hzs
    set t2 : Tab := { t1 with rows := t1.rows.set ir { t.rows[ir] with cells := rowAt t ir ++ zs } } with ht2
    have hlt1 : ir < t1.rows.length := by rw [p3]; exact hlt
    have heq : padRows cc (n + 1) ir t = padRows cc n (ir + 1) t2 := by
      rw [padRows, hget]; simp only [hcells, p1]; rfl
    have hrow2 : ∀ r', rowAt t2 r' = if r' = ir then rowAt t ir ++ zs else rowAt t r' := fun r' => by
      rw [ht2, rowAt_set t1 ir _ _ hlt1]
      have : rowAt t1 r' = rowAt t r' := by unfold rowAt; rw [p3]
      rw [this]
    have hi2 : Inv H0 orig t2 := p2.congr rfl (fun _ => rfl) (fun r' => by
      rw [ht2, rowAt_set t1 ir _ _ hlt1, rowAt_virt t1 ir _ hlt1])
    have hlen2 : t2.rows.length = t.rows.length := by rw [ht2]; simp [p3]
    have hl : (rowAt t ir ++ zs).length = cc := by
      rw [List.length_append, hzs, List.length_range']
      have := hle ir
      omega
    obtain ⟨q1, q2, q3, q4, q5, q6, q7⟩ := ih (ir + 1) t2 hi2 (by rw [hlen2]; omega)
      (fun r => by
        rw [hrow2]
        split
        · rw [hl]
        · exact hle r)
      (fun r h => by
        rw [hrow2]
        split
        · exact hl
        · exact hdone r (by omega))
    rw [heq]
    have hheap2 : t2.heap.length = t.heap.length + (cc - (rowAt t ir).length) := p5
    refine ⟨q1, by rw [q2, hlen2], fun r h => q3 r (by rw [hlen2]; exact h), ?_, by omega, ?_, by rw [q7]; exact p4⟩
    · intro r
      obtain ⟨ys, hy, hyb⟩ := q4 r
      rw [hrow2] at hy
      by_cases e : r = ir
      · subst e
        rw [if_pos rfl] at hy
        refine ⟨zs ++ ys, by rw [hy, List.append_assoc], ?_⟩
        intro z hz
        rcases List.mem_append.mp hz with h | h
        · rw [hzs, List.mem_range'_1] at h; omega
        · have := hyb z h; omega
      · rw [if_neg e] at hy
        exact ⟨ys, hy, fun z hz => by have := hyb z hz; omega⟩
    · intro x hx
      rw [q6 x (by omega)]
      exact p6 x hx

/-- What numbering leaves unchanged. -/
def SameButIdx (c d : TCell) : Prop := ∃ i j, c = { d with rowIdx := i, cellIdx := j }

theorem SameButIdx.refl (c : TCell) : SameButIdx c c := ⟨c.rowIdx, c.cellIdx, rfl⟩

theorem SameButIdx.trans {c d e : TCell} (h1 : SameButIdx c d) (h2 : SameButIdx d e) : SameButIdx c e := by
  obtain ⟨i, j, rfl⟩ := h1
  obtain ⟨i', j', rfl⟩ := h2
  exact ⟨i, j, rfl⟩

theorem indexCells_spec (ir : Nat) : ∀ (ids : List Nat) (ic : Nat) (t : Tab), (∀ x ∈ ids, x < t.heap.length) → ids.Nodup →
    let t' := indexCells ir ic ids t
    t'.heap.length = t.heap.length ∧ t'.rows = t.rows ∧ t'.columnCount = t.columnCount ∧ (∀ x, SameButIdx (t'.cell x) (t.cell x)) ∧
      (∀ x, x ∉ ids → t'.cell x = t.cell x) ∧
      (∀ k x, ids[k]? = some x → (t'.cell x).rowIdx = ir ∧ (t'.cell x).cellIdx = ic + k) := by
  intro ids
  induction ids with
  | nil => intro ic t _ _; exact ⟨rfl, rfl, rfl, fun x => SameButIdx.refl _, fun _ _ => rfl, by simp⟩
  | cons id ids ih =>
    intro ic t hb hn
    have hid := hb id (by simp)
    set t1 := t.modCell id fun c => { c with rowIdx := ir, cellIdx := ic } with ht1
    have hc1 : ∀ x, t1.cell x = if x = id then { t.cell id with rowIdx := ir, cellIdx := ic } else t.cell x := fun x => by
      rw [ht1, cell_modCell _ _ _ _ hid]
    have hh1 : t1.heap.length = t.heap.length := by rw [ht1, heap_modCell]
    obtain ⟨q1, q2, q3, q4, q5, q6⟩ := ih (ic + 1) t1 (fun x hx => by rw [hh1]; exact hb x (by simp [hx])) (List.nodup_cons.mp hn).2
    refine ⟨by rw [indexCells, q1, hh1], q2, q3, ?_, ?_, ?_⟩
    · intro x
      refine (q4 x).trans ?_
      rw [hc1]
      split
      · rename_i e; subst e; exact ⟨_, _, rfl⟩
      · exact SameButIdx.refl _
    · intro x hx
      rw [indexCells, q5 x (fun h => hx (by simp [h])), hc1, if_neg (fun h => hx (by simp [h]))]
    · intro k x hk
      cases k with
      | zero =>
        simp at hk
        subst hk
        rw [indexCells, q5 id (List.nodup_cons.mp hn).1, hc1, if_pos rfl]
        exact ⟨rfl, rfl⟩
      | succ k =>
        have := q6 k x (by simpa using hk)
        exact ⟨this.1, by rw [indexCells, this.2]; omega⟩

theorem indexRows_spec : ∀ (rows : List TRow) (ir : Nat) (t : Tab), (∀ r ∈ rows, ∀ x ∈ r.cells, x < t.heap.length) →
    (∀ r ∈ rows, r.cells.Nodup) → (∀ (i j x : Nat) (r r' : TRow), rows[i]? = some r → rows[j]? = some r' → x ∈ r.cells → x ∈ r'.cells → i = j) →
    let t' := indexRows ir rows t
    t'.heap.length = t.heap.length ∧ t'.rows = t.rows ∧ t'.columnCount = t.columnCount ∧ (∀ x, SameButIdx (t'.cell x) (t.cell x)) ∧
      (∀ x, (∀ r ∈ rows, x ∉ r.cells) → t'.cell x = t.cell x) ∧
      (∀ (i : Nat) (r : TRow) (k x : Nat), rows[i]? = some r → r.cells[k]? = some x → (t'.cell x).rowIdx = ir + i ∧ (t'.cell x).cellIdx = k) := by
  intro rows
  induction rows with
  | nil => intro ir t _ _ _; exact ⟨rfl, rfl, rfl, fun x => SameButIdx.refl _, fun _ _ => rfl, by simp⟩
  | cons r rows ih =>
    intro ir t hb hn hd
    obtain ⟨p1, p2, p3, p4, p5, p6⟩ := indexCells_spec ir r.cells 0 t (hb r (by simp)) (hn r (by simp))
    set t1 := indexCells ir 0 r.cells t
    obtain ⟨q1, q2, q3, q4, q5, q6⟩ := ih (ir + 1) t1 (fun r' hr' x hx => by rw [p1]; exact hb r' (by simp [hr']) x hx)
      (fun r' hr' => hn r' (by simp [hr']))
      (fun i j x r1 r2 h1 h2 hx1 hx2 => by
        have := hd (i + 1) (j + 1) x r1 r2 (by simpa using h1) (by simpa using h2) hx1 hx2
        omega)
    refine ⟨by rw [indexRows, q1, p1], by rw [indexRows, q2, p2], by rw [indexRows, q3, p3], fun x => (q4 x).trans (p4 x), ?_, ?_⟩
    · intro x hx
      rw [indexRows, q5 x (fun r' hr' => hx r' (by simp [hr'])), p5 x (hx r (by simp))]
    · intro i r' k x hr hx
      cases i with
      | zero =>
        simp at hr
        subst hr
        have hnot : ∀ r' ∈ rows, x ∉ r'.cells := by
          intro r' hr' hx'
          obtain ⟨j, hj⟩ := List.getElem?_of_mem hr'
          have := hd 0 (j + 1) x r r' (by simp) (by simpa using hj) (List.mem_of_getElem? hx) hx'
          omega
        rw [indexRows, q5 x hnot]
        have := p6 k x hx
        exact ⟨by rw [this.1]; rfl, by rw [this.2]; omega⟩
      | succ i =>
        have := q6 i r' k x (by simpa using hr) hx
        exact ⟨by rw [indexRows, this.1]; omega, this.2⟩

end Verif.Proofs
