import Verif.Spec.Places
/-
What C123 talks about: the sizes of the columns and rows of a table, from what is at its places.
-/
namespace Verif.Spec
open Verif.Go Verif.Model

/-- The width that is asked for, if it is there; else all of it. -/
def wideSet (room width : ℚ) : ℚ := if 0 ≤ width ∧ width ≤ room then width else room

/-- The largest of some numbers; at least 0. -/
def largest (l : List ℚ) : ℚ := l.foldr max 0

/-- The width that is asked for at a place: a cell may have a column-width. -/
def askedAt (sty : Nat → Styles) : Option TPlace → ℚ
  | some (.cell a) => (sty a).columnWidth
  | _ => 0

/-- The widths asked for, by columns: 0 if there is none. -/
def askedWidths (sty : Nat → Styles) (places : List (List TPlace)) : List ℚ :=
  (List.range (longest places)).map fun k => largest (places.map fun row => askedAt sty row[k]?)

/-- The widths of the columns: those asked for; the other columns share the rest. -/
def columnWidths (sty : Nat → Styles) (width : ℚ) (places : List (List TPlace)) : List ℚ :=
  let asked := askedWidths sty places
  asked.map fun w => if w = 0 then (width - asked.sum) / asked.count 0 else w

/-- The width of cell `a`: its own column and those it covers in its row. -/
def widthOf (ws : List ℚ) (places : List (List TPlace)) (a : Nat) : ℚ :=
  match places.find? fun row => decide (TPlace.cell a ∈ row) with
  | some row => (((row.zip ws).filter fun q => decide (q.1 = .cell a ∨ q.1 = .covered a)).map (·.2)).sum
  | none => 0

/-- The height a cell asks for in each of its rows: the one that is given, or its share of the text and the padding.  The text is measured in the width of the cell inside its padding. -/
def shareOf {σ : Type} (m : Measure σ) (sty : Styles) (iss : List Instr) (rows : Nat) (width : ℚ) (s : σ) : ℚ × σ :=
  if 0 < sty.dim.height then (sty.dim.height, s) else
  let r := m sty iss (width - (sty.box.padding.left + sty.box.padding.right)) s
  ((r.1 + sty.box.padding.top + sty.box.padding.bottom) / rows, r.2)

/-- One cell after the other. -/
def inTurn {α σ : Type} (f : α → σ → ℚ × σ) : List α → σ → List ℚ × σ
  | [], s => ([], s)
  | a :: as, s =>
    let r := f a s
    let q := inTurn f as r.2
    (r.1 :: q.1, q.2)

/-- The height that is asked for at a place of a row; `share` are the heights the cells ask for.  A place covered from above asks for as much as the cell, unless this has a given height:
then it is in its first row only. -/
def heightAsked (sty : Nat → Styles) (share : List ℚ) (row : List TPlace) : TPlace → ℚ
  | .cell a => share.getD a 0
  | .covered a => if .cell a ∈ row ∨ 0 < (sty a).dim.height then 0 else share.getD a 0
  | .free => 0

/-- The heights of the rows. -/
def rowHeights (sty : Nat → Styles) (share : List ℚ) (places : List (List TPlace)) : List ℚ :=
  places.map fun row => largest (row.map (heightAsked sty share row))

end Verif.Spec
