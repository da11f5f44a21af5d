import Verif.Model.Table
/-
Model of renderTable in /repo/table.go, over an arbitrary state `σ` and arbitrary operations on it.  Process.lean uses it with the
processor and its engine.
-/
namespace Verif.Model
open Verif.Go

/-- What renderTable calls.  `none`: the call does not return (endless recursion) or panics. -/
structure TableOps (σ : Type) where
  /-- engine.GetXY -/
  getXY : σ → ℚ × ℚ
  /-- engine.SetX -/
  setX : ℚ → σ → σ
  /-- engine.SetY -/
  setY : ℚ → σ → σ
  /-- the field preventPageBreak -/
  prevent : σ → Bool
  /-- engine.AddPage -/
  addPage : σ → Option σ
  /-- renderCell; the cell is given by its id -/
  renderCell : Area → Nat → σ → Option σ

section
variable {σ : Type} (ops : TableOps σ) (t : Tab)

/-- table.go:349-363: the cells of a row, starting at `x`. -/
def renderRowCells (y : ℚ) : ℚ → List Nat → σ → Option σ
  | _, [], s => some s
  | x, id :: ids, s =>
    let cell := t.cell id
    if cell.spannedBy.isSome ∨ cell.zero then renderRowCells y (x + cell.width) ids s
    else
      let d := t.dim id
      match ops.renderCell { x0 := x, y0 := y, x1 := x + d.1, y1 := y + d.2 } id s with
      | none => none
      | some s' => renderRowCells y (x + cell.width) ids s'

/-- table.go:348-366, renderRow; the variable `y` is returned. -/
def renderRow (x0 : ℚ) (row : TRow) (y : ℚ) (s : σ) : Option (ℚ × σ) :=
  match renderRowCells ops t y x0 row.cells s with
  | none => none
  | some s' => some (y + row.height, ops.setX x0 s')

/-- table.go:387-391: the header rows. -/
def renderHeader (x0 : ℚ) : List TRow → ℚ → σ → Option (ℚ × σ)
  | [], y, s => some (y, s)
  | row :: rows, y, s =>
    match renderRow ops t x0 row y s with
    | none => none
    | some (y', s') => renderHeader x0 rows y' s'

/-- table.go:382-395: the rows from index `i` on; `bottom` is page.printableArea.y1. -/
def renderRows (repeatHeader : Int) (bottom x0 : ℚ) : Nat → List TRow → ℚ → σ → Option (ℚ × σ)
  | _, [], y, s => some (y, s)
  | i, row :: rows, y, s =>
    let start : Option (ℚ × σ) :=
      if !ops.prevent s ∧ y + t.maxCellHeight row > bottom then
        match ops.addPage s with
        | none => none
        | some s1 =>
          let y1 := (ops.getXY s1).2
          if i > 0 ∧ repeatHeader > 0 then renderHeader ops t x0 (t.rows.take repeatHeader.toNat) y1 s1 else some (y1, s1)
      else some (y, s)
    match start with
    | none => none
    | some (y2, s2) =>
      match renderRow ops t x0 row y2 s2 with
      | none => none
      | some (y3, s3) => renderRows repeatHeader bottom x0 (i + 1) rows y3 s3

/-- table.go:370-375: the height of the header rows and one more. -/
def headHeight (repeatHeader : Int) : ℚ :=
  (t.rows.take (repeatHeader + 1).toNat).foldl (fun h r => h + t.maxCellHeight r) 0

/-- table.go:345-396: renderTable after the layout; `bottom` is page.printableArea.y1. -/
def renderLaid (repeatHeader : Int) (bottom : ℚ) (s : σ) : Option σ :=
  let x0 := (ops.getXY s).1
  let y := (ops.getXY s).2
  let start : Option (ℚ × σ) :=
    if !ops.prevent s ∧ y + headHeight t repeatHeader > bottom then
      match ops.addPage s with
      | none => none
      | some s1 => some ((ops.getXY s1).2, s1)
    else some (y, s)
  match start with
  | none => none
  | some (y1, s1) =>
    match renderRows ops t repeatHeader bottom x0 0 t.rows y1 s1 with
    | none => none
    | some (y2, s2) => some (ops.setY y2 s2)

end
end Verif.Model
