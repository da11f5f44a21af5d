import Verif.Proofs.Sizes
import Verif.Props.Places
/-
Property C123: the sizes of a table, exactly (/repo/table.go).
-/
namespace Verif.Props
open Verif.Go Verif.Model Verif.Proofs Verif.Spec

variable {σ : Type} {m : Measure σ} {cs : Classes} {page : Page} {curr : Styles} {st : Styled} {xrows : List TableRow} {s s' : σ} {t : Tab}

/-- The width of the table: the one that is given, if it is not more than there is. -/
def tableWidth (page : Page) (given : ℚ) : ℚ :=
  if 0 ≤ given ∧ given ≤ page.printableArea.x1 - page.printableArea.x0 then given else page.printableArea.x1 - page.printableArea.x0

theorem tableWidth_eq (page : Page) (given : ℚ) : page.effectiveWidth given = tableWidth page given := by
  unfold Page.effectiveWidth tableWidth
  by_cases h : 0 ≤ given ∧ given ≤ page.printableArea.x1 - page.printableArea.x0
  · rw [if_pos h, if_neg (by rintro (h' | h') <;> linarith [h.1, h.2])]
  · rw [if_neg h, if_pos]
    by_contra hc
    exact h ⟨not_lt.mp fun h' => hc (.inl h'), not_lt.mp fun h' => hc (.inr h')⟩

/-- The widths of the columns of a table with the given places and styles. -/
def widthsOf (cs : Classes) (page : Page) (curr : Styles) (st : Styled) (xrows : List TableRow) (sty : Nat → Styles) : List ℚ :=
  columnWidths sty (tableWidth page (st.mutatedStyles cs curr).dim.width) (tablePlaces xrows)

/-- What the cells ask for, one after the other in the order of the file. -/
def sharesOf (m : Measure σ) (xrows : List TableRow) (ws : List ℚ) (sty : Nat → Styles) (s : σ) : List ℚ × σ :=
  inTurn (fun c s => shareOf m (sty c.2) c.1.iss (extent c.1.rowSpan) (widthOf ws (tablePlaces xrows) c.2) s) (xrows.flatMap (·.cells)).zipIdx s

/-- C123: the widths of the cells of each row. -/
theorem C123_widths (h : transformTable m cs page curr st xrows s = some (t, s')) {row : TRow} (hr : row ∈ t.rows) :
    row.cells.map (fun x => (t.cell x).width) = widthsOf cs page curr st xrows fun a => (t.cell a).styles := by
  unfold widthsOf
  rw [← tableWidth_eq]
  exact (transformTable_sizes h).1 row hr

/-- C123: the heights of the rows, and what becomes of the state of the measuring function. -/
theorem C123_heights (h : transformTable m cs page curr st xrows s = some (t, s')) :
    let sty := fun a => (t.cell a).styles
    let q := sharesOf m xrows (widthsOf cs page curr st xrows sty) sty s
    t.rows.map (·.height) = rowHeights sty q.1 (tablePlaces xrows) ∧ s' = q.2 := by
  unfold sharesOf widthsOf
  rw [← tableWidth_eq]
  exact (transformTable_sizes h).2

private theorem sum_rows (l : List ℚ) (i : Nat) : ∀ n : Nat, ((List.range n).map fun k => l.getD (i + k) 0).sum = ((l.drop i).take n).sum := by
  intro n
  induction n with
  | zero => rfl
  | succ n ih =>
    rw [List.range_succ, List.map_append, List.sum_append, ih, List.take_add_one, List.sum_append, List.getElem?_drop, List.map_singleton, List.getD_eq_getElem?_getD]
    cases l[i + n]? <;> simp

/-- C123: the width and the height of a cell of the file, as it is drawn: the columns it covers in its row, and the rows it extends over. -/
theorem C123_cell (h : transformTable m cs page curr st xrows s = some (t, s')) {i a : Nat} (ha : a ∈ idsOf t i) (hau : isAuthored t a = true) :
    (t.dim a).1 = widthOf (widthsOf cs page curr st xrows fun a => (t.cell a).styles) (tablePlaces xrows) a ∧
    (t.dim a).2 = (((t.rows.map (·.height)).drop i).take (extent (t.cell a).rowSpan)).sum := by
  obtain ⟨H0, orig, cws, hl, _, _⟩ := table_laid_of h
  have hi := hl.span.inv
  have hlt : a < H0.length := by
    rw [idsOf_eq] at ha
    rw [hi.isAuthored_iff ha] at hau
    simpa using hau
  constructor
  · rw [idsOf_eq] at ha
    have hil : i < t.rows.length := by
      by_contra hc
      rw [rowAt_ge (by omega)] at ha
      simp at ha
    have hg := List.getElem?_eq_getElem hil
    have hw := C123_widths h (List.getElem_mem hil)
    rw [← rowAt_of_getElem? hg] at hw
    have := widthOf_eq hi hlt ha hw
    rw [(transformTable_places h).1] at this
    rw [this]
    unfold Tab.dim
    dsimp only
    rw [foldl_add_sum]
  · rw [C24_height h ha hau, ← sum_rows]
    congr 2
    funext k
    unfold heightOf
    rw [List.getD_eq_getElem?_getD, List.getElem?_map]
    cases t.rows[i + k]? <;> rfl

/-- C123: the example table is 100 wide.  Its second column is 30 wide, as cell 3 asks; the others share the rest. -/
example : exLaid.map (fun r => r.1.rows.map fun row => row.cells.map fun x => (r.1.cell x).width) = some (List.replicate 4 [35, 30, 35]) ∧
    exLaid.map (fun r => widthsOf [] ⟨⟨0, 0, 100, 200⟩⟩ zeroStyles ⟨[[([2, 0], .flt (-1))]], []⟩ exRows fun a => (r.1.cell a).styles) = some [35, 30, 35] := by decide +kernel

/-- C123: cell 1 makes its row 12 high, cell 4 asks for 50, and cell 2 for a third of 12 in each of its three rows. -/
example : exLaid.map (fun r => r.1.rows.map (·.height)) = some [12, 4, 50, 4] ∧
    exLaid.map (fun r => (sharesOf exMeasure exRows [35, 30, 35] (fun a => (r.1.cell a).styles) ()).1) = some [0, 12, 4, 0, 50, 0] ∧
    exLaid.map (fun r => rowHeights (fun a => (r.1.cell a).styles) [0, 12, 4, 0, 50, 0] (tablePlaces exRows)) = some [12, 4, 50, 4] := by decide +kernel

/-- C123: cells 1 and 2 of the example, as they are drawn. -/
example : exLaid.map (fun r => [r.1.dim 1, r.1.dim 2]) = some [(65, 12), (35, 58)] ∧ exLaid.map (fun r => [isAuthored r.1 1, isAuthored r.1 2]) = some [true, true] ∧
    exLaid.map (fun r => [idsOf r.1 0, idsOf r.1 1]) = some [[0, 1, 6], [2, 3, 9]] := by decide +kernel

end Verif.Props
