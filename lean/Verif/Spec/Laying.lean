import Verif.Spec.Sizes
import Verif.Spec.Looks
/-
What C123 and C116 talk about: a table laid out, from what is in the file alone.
-/
namespace Verif.Spec
open Verif.Go Verif.Model

/-- A cell that is laid out: how it looks, what is in it, and its size. -/
structure SetCell where
  sty : Styles
  iss : List Instr
  width : ℚ
  height : ℚ

/-- A row that is laid out: its height, how far down its cells reach, and its places from left to right with their widths.  There is a cell at a place unless the place is covered or free. -/
structure SetRow where
  height : ℚ
  reach : ℚ
  cells : List (ℚ × Option SetCell)

/-- How far down the cells of a row of the given height reach. -/
def reachOf (height : ℚ) (cells : List (ℚ × Option SetCell)) : ℚ := largest (cells.map fun c => (c.2.map (·.height)).getD height)

/-- What is set at a place of row `i` of a table with columns of widths `ws` and rows of heights `hs`; `all` are the styles and the contents of its cells. -/
def cellSetAt (rows : List TableRow) (all : List (Styles × List Instr)) (ws hs : List ℚ) (i : Nat) : TPlace → Option SetCell
  | .cell a => all[a]?.map fun c => ⟨c.1, c.2, widthOf ws (tablePlaces rows) a, ((hs.drop i).take (extent (rowSpanOf rows a))).sum⟩
  | _ => none

/-- The rows of such a table. -/
def setRows (rows : List TableRow) (all : List (Styles × List Instr)) (ws hs : List ℚ) : List SetRow :=
  (tablePlaces rows).mapIdx fun i row =>
    let height := hs.getD i 0
    let cells := (row.zip ws).map fun q => (q.2, cellSetAt rows all ws hs i q.1)
    ⟨height, reachOf height cells, cells⟩

/-- A table of the given width and style, laid out: what the cells ask for is measured one after the other, in the order of the file. -/
def layTable {σ : Type} (m : Measure σ) (cs : Classes) (width : ℚ) (sty : Styles) (rows : List TableRow) (s : σ) : List SetRow × σ :=
  let all := (styledCells cs sty rows).flatten
  let look := fun a => (all.getD a (zeroStyles, [])).1
  let ws := columnWidths look width (tablePlaces rows)
  let q := inTurn (fun c s => shareOf m (look c.2) c.1.iss (extent c.1.rowSpan) (widthOf ws (tablePlaces rows) c.2) s) (rows.flatMap (·.cells)).zipIdx s
  (setRows rows all ws (rowHeights look q.1 (tablePlaces rows)), q.2)

/-- A table as the code has laid it out. -/
def laidRows (t : Tab) : List SetRow :=
  t.rows.map fun r => ⟨r.height, t.maxCellHeight r, r.cells.map fun x => ((t.cell x).width,
    if (t.cell x).spannedBy.isSome ∨ (t.cell x).zero then none else some ⟨(t.cell x).styles, (t.cell x).iss, (t.dim x).1, (t.dim x).2⟩)⟩

end Verif.Spec
