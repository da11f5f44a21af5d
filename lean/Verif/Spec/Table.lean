import Verif.Model.Table
/-
What the properties of tables (C21-C30) talk about.
-/
namespace Verif.Spec
open Verif.Go Verif.Model

/-- The cells in row `r`, from left to right. -/
def idsOf (t : Tab) (r : Nat) : List Nat :=
  match t.rows[r]? with
  | some row => row.cells
  | none => []

/-- The height of row `r`. -/
def heightOf (t : Tab) (r : Nat) : ℚ :=
  match t.rows[r]? with
  | some row => row.height
  | none => 0

/-- A cell of the document, as opposed to a placeholder or a filling cell. -/
def isAuthored (t : Tab) (x : Nat) : Bool := (t.cell x).spannedBy.isNone && !(t.cell x).zero

/-- The authored cells of row `r`, from left to right: contents and spans. -/
def authoredIn (t : Tab) (r : Nat) : List (List Instr × Int × Int) :=
  ((idsOf t r).filter (isAuthored t)).map fun x => ((t.cell x).iss, (t.cell x).colSpan, (t.cell x).rowSpan)

/-- The cells of row `r` of the document. -/
def written (xrows : List TableRow) (r : Nat) : List (List Instr × Int × Int) :=
  match xrows[r]? with
  | some xr => xr.cells.map fun c => (c.iss, c.colSpan, c.rowSpan)
  | none => []

/-- The placeholders of cell `a` in row `r`. -/
def placeholders (t : Tab) (a r : Nat) : List Nat := (idsOf t r).filter fun x => decide ((t.cell x).spannedBy = some a)

/-- The number of rows or columns a cell with the given attribute extends over: values below 1 count as 1. -/
def extent (span : Int) : Nat := if span ≤ 1 then 1 else span.toNat

/-- Column `k` has a cell with a positive column-width. -/
def Explicit (t : Tab) (k : Nat) : Prop := ∃ r x, (idsOf t r)[k]? = some x ∧ 0 < (t.cell x).styles.columnWidth

end Verif.Spec
