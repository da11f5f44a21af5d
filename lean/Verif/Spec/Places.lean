import Verif.Spec.Table
/-
What C122 talks about: the places of a table.
-/
namespace Verif.Spec
open Verif.Go Verif.Model

/-- What is at a place of a table: the cell with the given number (cells are numbered as they come in the file), something covered by it, or nothing. -/
inductive TPlace
  | cell (a : Nat)
  | covered (a : Nat)
  | free
deriving DecidableEq

/-- A row as it is in the file, its first cell having number `a`: each cell is followed by the places to its right that it covers. -/
def placesOf : Nat → List TableCell → List TPlace
  | _, [] => []
  | a, c :: cs => .cell a :: List.replicate (extent c.colSpan - 1) (.covered a) ++ placesOf (a + 1) cs

/-- All rows, as they are in the file. -/
def placesIn : Nat → List TableRow → List (List TPlace)
  | _, [] => []
  | a, r :: rs => placesOf a r.cells :: placesIn (a + r.cells.length) rs

/-- A place is put into a row, at column `k`; what was there moves to the right.  Short rows are filled up first. -/
def putPlace (k : Nat) (x : TPlace) (row : List TPlace) : List TPlace :=
  row.take k ++ List.replicate (k - row.length) .free ++ [x] ++ row.drop k

/-- A place is put into each of the next `n` rows, at column `k`; there are new rows if they are needed. -/
def putBelow (k : Nat) (x : TPlace) : Nat → List (List TPlace) → List (List TPlace)
  | 0, rows => rows
  | n + 1, [] => putPlace k x [] :: putBelow k x n []
  | n + 1, row :: rows => putPlace k x row :: putBelow k x n rows

/-- What the cells of a row, from column `k` on, cover below it; `rowSpan` gives the attribute of the cell with the given number. -/
def coverBelow (rowSpan : Nat → Int) : Nat → List TPlace → List (List TPlace) → List (List TPlace)
  | _, [], rows => rows
  | k, .cell a :: xs, rows => coverBelow rowSpan (k + 1) xs (putBelow k (.covered a) (extent (rowSpan a) - 1) rows)
  | k, _ :: xs, rows => coverBelow rowSpan (k + 1) xs rows

/-- Row by row: the first `n` rows cover places in the rows below them. -/
def coverRows (rowSpan : Nat → Int) : Nat → List (List TPlace) → List (List TPlace)
  | 0, rows => rows
  | _ + 1, [] => []
  | n + 1, row :: rows => row :: coverRows rowSpan n (coverBelow rowSpan 0 row rows)

/-- The attribute rowspan of the cell with number `a`. -/
def rowSpanOf (rows : List TableRow) (a : Nat) : Int := ((rows.flatMap (·.cells))[a]?.map (·.rowSpan)).getD 0

/-- The attribute colspan of the cell with number `a`. -/
def colSpanOf (rows : List TableRow) (a : Nat) : Int := ((rows.flatMap (·.cells))[a]?.map (·.colSpan)).getD 0

/-- The longest row. -/
def longest (rows : List (List TPlace)) : Nat := (rows.map List.length).foldl max 0

/-- The places of a table: all rows are filled up to the longest one. -/
def tablePlaces (rows : List TableRow) : List (List TPlace) :=
  let all := coverRows (rowSpanOf rows) rows.length (placesIn 0 rows)
  all.map fun row => row ++ List.replicate (longest all - row.length) .free

/-- What the code has at a place: a cell is what it made from the file, a placeholder, or a filling cell. -/
def foundAt (t : Tab) (id : Nat) : TPlace :=
  if (t.cell id).zero then .free else
  match (t.cell id).spannedBy with
  | some a => .covered a
  | none => .cell id

end Verif.Spec
