import Verif.Proofs.TableLaid
/-
Properties C21-C24, C26, C27 and the rest of C31: the layout of tables (/repo/table.go).
-/
namespace Verif.Props
open Verif.Go Verif.Model Verif.Proofs Verif.Spec

variable {σ : Type} {m : Measure σ} {cs : Classes} {page : Page} {curr : Styles} {st : Styled} {xrows : List TableRow} {s s' : σ} {t : Tab}

/-- A table for the examples: a cell over two columns, a cell over three rows (one more than there are), a column of width 30 and a
cell of height 50. -/
def exRows : List TableRow :=
  [.mk ⟨[], []⟩ [.mk ⟨[], []⟩ 0 0 [], .mk ⟨[], []⟩ 2 0 [.textBlock b!"abc"]],
   .mk ⟨[], []⟩ [.mk ⟨[], []⟩ 0 3 [.textBlock b!"x"], .mk ⟨[[([3, 0], .flt 30)]], []⟩ 1 1 []],
   .mk ⟨[], []⟩ [.mk ⟨[[([2, 1], .flt 50)]], []⟩ 0 0 [.textBlock b!"y"], .mk ⟨[], []⟩ 0 0 []]]

/-- A text is as high as it has instructions, times 12. -/
def exMeasure : Measure Unit := fun _ iss _ s => (12 * iss.length, s)

def exLaid : Option (Tab × Unit) :=
  transformTable exMeasure [] ⟨⟨0, 0, 100, 200⟩⟩ zeroStyles ⟨[[([2, 0], .flt (-1))]], []⟩ exRows ()

theorem table_laid_of (h : transformTable m cs page curr st xrows s = some (t, s')) :
    ∃ H0 orig cws, Laid m (page.effectiveWidth (st.mutatedStyles cs curr).dim.width) H0 orig cws t ∧
      Fresh H0 orig (makeTable cs (st.mutatedStyles cs curr) xrows) ∧
      orig.map (fun ids => ids.map fun x => ((H0.getD x TCell.new).iss, (H0.getD x TCell.new).colSpan, (H0.getD x TCell.new).rowSpan)) =
        xrows.map (fun x => x.cells.map fun c => (c.iss, c.colSpan, c.rowSpan)) := by
  obtain ⟨t', s'', H0, orig, cws, h1, h2, h3, h4⟩ := transformTable_laid m cs page curr st xrows s
  rw [h] at h1
  simp only [Option.some.injEq, Prod.mk.injEq] at h1
  obtain ⟨rfl, _⟩ := h1
  exact ⟨H0, orig, cws, h2, h3, h4⟩

private theorem authored_lt {H0 : List TCell} {orig : List (List Nat)} (hi : Inv H0 orig t) {i a : Nat} (ha : a ∈ idsOf t i)
    (hau : isAuthored t a = true) : a < H0.length := by
  rw [idsOf_eq] at ha
  rw [hi.isAuthored_iff ha] at hau
  simpa using hau

/-! ### C21 -/

/-- C21: laying out a table never panics, whatever the spans. -/
theorem C21_no_panic (m : Measure σ) (cs : Classes) (page : Page) (curr : Styles) (st : Styled) (xrows : List TableRow) (s : σ) :
    transformTable m cs page curr st xrows s ≠ none := by
  obtain ⟨t, s', _, _, _, h, _⟩ := transformTable_laid m cs page curr st xrows s
  rw [h]; simp

/-- C21: all rows have as many cells as the table has columns; every cell knows its row and column. -/
theorem C21_shape (h : transformTable m cs page curr st xrows s = some (t, s')) :
    (∀ row ∈ t.rows, row.cells.length = t.columnCount) ∧
    (∀ r k x, (idsOf t r)[k]? = some x → (t.cell x).rowIdx = r ∧ (t.cell x).cellIdx = k) := by
  obtain ⟨H0, orig, cws, hl, _, _⟩ := table_laid_of h
  refine ⟨?_, ?_⟩
  · intro row hrow
    obtain ⟨i, hi, he⟩ := hl.span.inv.cell_mem hrow
    rw [← he]
    refine hl.span.width i ?_
    by_contra hc
    rw [List.getElem?_eq_none (by omega)] at hi
    simp at hi
  · intro r k x hx
    rw [idsOf_eq] at hx
    exact hl.span.index r k x hx

/-- C21: every cell that is in a row, or that is a placeholder of such a cell, exists; cells in rows are all different. -/
theorem C21_allocated (h : transformTable m cs page curr st xrows s = some (t, s')) :
    (∀ r, ∀ x ∈ idsOf t r, x < t.heap.length ∧ (∀ y ∈ (t.cell x).spansCols ++ (t.cell x).spansRows, y < t.heap.length)) ∧
    (∀ r, (idsOf t r).Nodup) ∧ (∀ r r' x, x ∈ idsOf t r → x ∈ idsOf t r' → r = r') := by
  obtain ⟨H0, orig, cws, hl, _, _⟩ := table_laid_of h
  have hi := hl.span.inv
  simp only [idsOf_eq]
  refine ⟨?_, hi.nod, hi.inj⟩
  intro r x hx
  refine ⟨hi.bound r x hx, ?_⟩
  intro y hy
  by_cases hA : x < H0.length
  · rcases List.mem_append.mp hy with q | q
    · exact hi.bound _ _ (hi.cols x r hA hx y q).1
    · obtain ⟨n, hn⟩ := List.getElem?_of_mem q
      exact hi.bound _ _ (hi.rows x r hA hx n y hn).1
  · have := hi.made x (by omega) (hi.bound r x hx)
    rw [this.1, this.2.1] at hy
    simp at hy

/-! ### C22 -/

/-- C22: the authored cells of each row are those of the document, in the same order; rows added for spans have none. -/
theorem C22_authored (h : transformTable m cs page curr st xrows s = some (t, s')) (r : Nat) :
    authoredIn t r = written xrows r := by
  obtain ⟨H0, orig, cws, hl, _, hw⟩ := table_laid_of h
  rw [hl.span.inv.authored_row r]
  have := congrArg (fun l => l[r]?) hw
  simp only [List.getElem?_map] at this
  unfold written
  rw [List.getD_eq_getElem?_getD]
  cases h1 : orig[r]? <;> cases h2 : xrows[r]? <;> rw [h1, h2] at this <;> simp_all

/-- C22: no row of the document is lost. -/
theorem C22_rows (h : transformTable m cs page curr st xrows s = some (t, s')) : xrows.length ≤ t.rows.length := by
  obtain ⟨H0, orig, cws, hl, _, hw⟩ := table_laid_of h
  have := congrArg List.length hw
  simp at this
  have := hl.span.height
  omega

/-! ### C23 -/

/-- C23: an authored cell in row `i` has `extent - 1` placeholders in its own row, exactly one in each further row of its extent
(which exists), and no others. -/
theorem C23_owns (h : transformTable m cs page curr st xrows s = some (t, s')) {i a : Nat} (ha : a ∈ idsOf t i)
    (hau : isAuthored t a = true) :
    (placeholders t a i).length + 1 = extent (t.cell a).colSpan ∧
    (∀ k, 0 < k → k < extent (t.cell a).rowSpan → (placeholders t a (i + k)).length = 1 ∧ i + k < t.rows.length) ∧
    (∀ r, (r < i ∨ i + extent (t.cell a).rowSpan ≤ r) → placeholders t a r = []) := by
  obtain ⟨H0, orig, cws, hl, _, _⟩ := table_laid_of h
  have hi := hl.span.inv
  have hA := authored_lt hi ha hau
  have hai : a ∈ rowAt t i := by rw [← idsOf_eq]; exact ha
  have hc := (hi.authored a hA).2.2.1
  have hr := (hi.authored a hA).2.2.2.1
  refine ⟨?_, ?_, ?_⟩
  · rw [(hi.placeholders_own hA hai).length_eq, hl.span.nCols a hA, hc, extent_eq]; omega
  · intro k h0 hk
    rw [hr, extent_eq] at hk
    have hn := hl.span.nRows a hA
    have hlt : k - 1 < (t.cell a).spansRows.length := by omega
    have hget := List.getElem?_eq_getElem hlt
    have he : i + k = i + 1 + (k - 1) := by omega
    rw [he, hi.placeholders_below hA hai, hget]
    refine ⟨rfl, ?_⟩
    have hm := (hi.rows a i hA hai (k - 1) _ hget).1
    by_contra hcon
    rw [rowAt_ge (by omega)] at hm
    simp at hm
  · intro r hrr
    rcases hrr with q | q
    · exact hi.placeholders_above hA hai q
    · rw [hr, extent_eq] at q
      have hn := hl.span.nRows a hA
      rw [show r = i + 1 + (r - i - 1) by omega, hi.placeholders_below hA hai, List.getElem?_eq_none (by omega)]
      rfl

/-- C23: a placeholder belongs to an authored cell of the table; rows are added only for placeholders. -/
theorem C23_owned (h : transformTable m cs page curr st xrows s = some (t, s')) :
    (∀ r x a, x ∈ idsOf t r → (t.cell x).spannedBy = some a → ∃ i, i ≤ r ∧ a ∈ idsOf t i ∧ isAuthored t a = true) ∧
    (∀ r, xrows.length ≤ r → r < t.rows.length → ∃ x ∈ idsOf t r, (t.cell x).spannedBy.isSome) := by
  obtain ⟨H0, orig, cws, hl, hf, hw⟩ := table_laid_of h
  have hi := hl.span.inv
  simp only [idsOf_eq]
  refine ⟨?_, ?_⟩
  · intro r x a hx hs
    have hA := hi.owner_lt hx hs
    obtain ⟨i, _, hi'⟩ := hf.in_row hA
    have hai := ((hi.mem_orig i a).mp hi').1
    refine ⟨i, ?_, hai, by rw [hi.isAuthored_iff hai]; simpa using hA⟩
    rcases hi.own r x a hx hs with q | q
    · have := hi.inj _ _ _ hx (hi.cols a i hA hai x q).1; omega
    · obtain ⟨n, hn⟩ := List.getElem?_of_mem q
      have := hi.inj _ _ _ hx (hi.rows a i hA hai n x hn).1; omega
  · intro r h1 h2
    have := congrArg List.length hw
    simp at this
    exact hl.span.extra r (by omega) h2

/-! ### C24 -/

/-- C24: the height of an authored cell is the sum of the heights of the rows it extends over. -/
theorem C24_height (h : transformTable m cs page curr st xrows s = some (t, s')) {i a : Nat} (ha : a ∈ idsOf t i)
    (hau : isAuthored t a = true) :
    (t.dim a).2 = ((List.range (extent (t.cell a).rowSpan)).map fun k => heightOf t (i + k)).sum := by
  obtain ⟨H0, orig, cws, hl, _, _⟩ := table_laid_of h
  have hi := hl.span.inv
  have hA := authored_lt hi ha hau
  rw [hl.dim_height hA (by rw [← idsOf_eq]; exact ha), hl.span.nRows a hA, extent_eq, (hi.authored a hA).2.2.2.1]

/-! ### C26 -/

/-- C26: column widths. -/
theorem C26_widths (h : transformTable m cs page curr st xrows s = some (t, s')) :
    ∃ ws : List ℚ, ws.length = t.columnCount ∧
      (∀ r k x, (idsOf t r)[k]? = some x → (t.cell x).width = ws.getD k 0) ∧
      (∀ k, Explicit t k → (∃ r x, (idsOf t r)[k]? = some x ∧ (t.cell x).styles.columnWidth = ws.getD k 0) ∧
        ∀ r x, (idsOf t r)[k]? = some x → (t.cell x).styles.columnWidth ≤ ws.getD k 0) ∧
      (∀ k k', k < t.columnCount → k' < t.columnCount → ¬ Explicit t k → ¬ Explicit t k' → ws.getD k 0 = ws.getD k' 0) ∧
      ((∃ k, k < t.columnCount ∧ ¬ Explicit t k) → ws.sum = page.effectiveWidth (st.mutatedStyles cs curr).dim.width) := by
  obtain ⟨H0, orig, cws, hl, _, _⟩ := table_laid_of h
  have hnn : ∀ w ∈ cws, 0 ≤ w := by
    intro w hw
    obtain ⟨k, hk⟩ := List.getElem?_of_mem hw
    have := hl.cwsNonneg k
    rw [List.getD_eq_getElem?_getD, hk] at this
    exact this
  obtain ⟨hsum, share, hshare⟩ := fillWidths_spec hnn (page.effectiveWidth (st.mutatedStyles cs curr).dim.width)
  set ws := fillWidths (page.effectiveWidth (st.mutatedStyles cs curr).dim.width) cws with hws
  have hval : ∀ k, k < t.columnCount → ws.getD k 0 = if cws.getD k 0 = 0 then share else cws.getD k 0 := by
    intro k hk
    have hk' : k < cws.length := by rw [hl.cwsLen]; exact hk
    rw [hshare]
    simp only [List.getD_eq_getElem?_getD, List.getElem?_map, List.getElem?_eq_getElem hk']
    rfl
  have hcol : ∀ r k x, (rowAt t r)[k]? = some x → k < t.columnCount := by
    intro r k x hx
    obtain ⟨row, h1, h2, h3⟩ := rowAt_mem_rows hx
    have hlen := (C21_shape h).1 row h1
    by_contra hc
    rw [List.getElem?_eq_none (by omega)] at h2
    simp at h2
  have hexp : ∀ k, Explicit t k ↔ 0 < cws.getD k 0 := by
    intro k
    unfold Explicit
    simp only [idsOf_eq]
    constructor
    · rintro ⟨r, x, h1, h2⟩
      exact lt_of_lt_of_le h2 (hl.cwsUpper r k x h1)
    · intro hp
      rcases hl.cwsReached k with q | ⟨r, x, h1, h2⟩
      · rw [q] at hp; exact absurd hp (lt_irrefl _)
      · exact ⟨r, x, h1, by rw [h2]; exact hp⟩
  have hnexp : ∀ k, ¬ Explicit t k → cws.getD k 0 = 0 := by
    intro k hk
    rw [hexp] at hk
    exact le_antisymm (not_lt.mp hk) (hl.cwsNonneg k)
  refine ⟨ws, by rw [hshare, List.length_map, hl.cwsLen], ?_, ?_, ?_, ?_⟩
  · intro r k x hx
    rw [idsOf_eq] at hx
    exact hl.widths r k x hx
  · intro k hk
    have hp := (hexp k).mp hk
    obtain ⟨r0, x0, hx0, _⟩ := hk
    rw [idsOf_eq] at hx0
    have hkc := hcol r0 k x0 hx0
    have he : ws.getD k 0 = cws.getD k 0 := by rw [hval k hkc, if_neg (ne_of_gt hp)]
    rw [he]
    simp only [idsOf_eq]
    refine ⟨?_, fun r x hx => hl.cwsUpper r k x hx⟩
    rcases hl.cwsReached k with q | ⟨r, x, h1, h2⟩
    · rw [q] at hp; exact absurd hp (lt_irrefl _)
    · exact ⟨r, x, h1, h2⟩
  · intro k k' hk hk' hn hn'
    rw [hval k hk, hval k' hk', hnexp k hn, hnexp k' hn']
  · rintro ⟨k, hk, hn⟩
    refine hsum ?_
    have := hnexp k hn
    have hk' : k < cws.length := by rw [hl.cwsLen]; exact hk
    rw [List.getD_eq_getElem?_getD, List.getElem?_eq_getElem hk'] at this
    simp at this
    rw [← this]
    exact List.getElem_mem hk'

/-! ### C27 -/

/-- C27: every cell has the height of its row, and the row is at least as high as each of its cells asks for; it is not higher than
needed. -/
theorem C27_rows (h : transformTable m cs page curr st xrows s = some (t, s')) {r : Nat} {row : TRow} (hr : t.rows[r]? = some row) :
    (∀ x ∈ row.cells, (t.cell x).height = row.height ∧ (t.cell x).minHeight ≤ row.height) ∧
    (row.height = 0 ∨ ∃ x ∈ row.cells, (t.cell x).minHeight = row.height) := by
  obtain ⟨H0, orig, cws, hl, _, _⟩ := table_laid_of h
  exact ⟨(hl.rowHeights r row hr).2.1, (hl.rowHeights r row hr).2.2⟩

/-- C27: an authored cell is at least as high as its explicit height or, without one, as its text and its padding.  The text is measured at the
width of the cell without padding, in one of the states `I` that measuring does not leave. -/
theorem C27_holds (h : transformTable m cs page curr st xrows s = some (t, s')) {i a : Nat} (ha : a ∈ idsOf t i)
    (hau : isAuthored t a = true) {I : σ → Prop} (hI : ∀ sty iss w s, I s → I (m sty iss w s).2) (hs : I s) :
    if (t.cell a).styles.dim.height > 0 then (t.cell a).styles.dim.height ≤ (t.dim a).2
    else ∃ s0, I s0 ∧ (m (t.cell a).styles (t.cell a).iss
      ((t.dim a).1 - ((t.cell a).styles.box.padding.left + (t.cell a).styles.box.padding.right)) s0).1
      + (t.cell a).styles.box.padding.top + (t.cell a).styles.box.padding.bottom ≤ (t.dim a).2 := by
  let m' : Measure { s : σ // I s } := fun sty iss w s => ((m sty iss w s.1).1, ⟨(m sty iss w s.1).2, hI sty iss w s.1 s.2⟩)
  have hn := transformTable_nat (m := m) (m' := m') (f := Subtype.val) (fun _ _ _ _ => rfl) cs page curr st xrows ⟨s, hs⟩
  rw [h] at hn
  cases h' : transformTable m' cs page curr st xrows ⟨s, hs⟩ with
  | none => rw [h'] at hn; simp at hn
  | some r =>
    rw [h'] at hn
    simp only [Option.map_some, Option.some.injEq, Prod.mk.injEq] at hn
    have h'' : transformTable m' cs page curr st xrows ⟨s, hs⟩ = some (t, r.2) := by rw [h', hn.1]
    obtain ⟨H0, orig, cws, hl, _, _⟩ := table_laid_of h''
    have := hl.dim_holds (authored_lt hl.span.inv ha hau) (by rw [← idsOf_eq]; exact ha)
    split
    · rename_i hh; rw [if_pos hh] at this; exact this
    · rename_i hh
      rw [if_neg hh] at this
      obtain ⟨s0, h0⟩ := this
      exact ⟨s0.1, s0.2, h0⟩

/-! ### C31 -/

/-- C31: a cell with spans of 1 or less is a normal cell: it has no placeholders at all. -/
theorem C31_span_one (h : transformTable m cs page curr st xrows s = some (t, s')) {i a : Nat} (ha : a ∈ idsOf t i)
    (hau : isAuthored t a = true) (hc : (t.cell a).colSpan ≤ 1) (hr : (t.cell a).rowSpan ≤ 1) (r : Nat) : placeholders t a r = [] := by
  obtain ⟨h1, _, h3⟩ := C23_owns h ha hau
  have ec : extent (t.cell a).colSpan = 1 := by unfold extent; rw [if_pos hc]
  have er : extent (t.cell a).rowSpan = 1 := by unfold extent; rw [if_pos hr]
  rw [er] at h3
  rw [ec] at h1
  rcases Nat.lt_trichotomy r i with q | q | q
  · exact h3 r (Or.inl q)
  · subst q
    exact List.length_eq_zero_iff.mp (by omega)
  · exact h3 r (Or.inr q)

/-! The example: the cell over two columns (1) has placeholder 6; the cell over three rows (2) has placeholders 7 and 8, the last in
an added row filled up with zero cells. -/
example : exLaid.map (fun r => (r.1.rows.map (·.cells), r.1.columnCount)) = some ([[0, 1, 6], [2, 3, 9], [7, 4, 5], [8, 10, 11]], 3) := by
  decide +kernel
example : exLaid.map (fun r => ((List.range 12).filter fun x => decide ((r.1.cell x).spannedBy = some 2))) = some [7, 8] := by
  decide +kernel
example : exLaid.map (fun r => (r.1.rows.map (·.height), (r.1.cell 2).height, (r.1.dim 2).2, r.1.dim 1)) =
    some ([12, 4, 50, 4], 4, 58, (65, 12)) := by decide +kernel
example : exLaid.map (fun r => r.1.rows.map fun row => row.cells.map fun x => (r.1.cell x).width) =
    some [[35, 30, 35], [35, 30, 35], [35, 30, 35], [35, 30, 35]] := by decide +kernel

end Verif.Props
