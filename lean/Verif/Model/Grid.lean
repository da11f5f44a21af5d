import Verif.Model.Style
/-
Model of /repo/grid.go and of Grid.Validate in /repo/xdoc/grid.go.
-/
namespace Verif.Model
open Verif.Go

/-- Outcome of a Go function that can return an error or panic. -/
inductive Res (α : Type)
  | ok (a : α)
  | err
  | panic

def Res.bind {α β : Type} (r : Res α) (f : α → Res β) : Res β :=
  match r with
  | .ok a => f a
  | .err => .err
  | .panic => .panic

/-- grid.go:9-12, areaRow. -/
structure AreaRow where
  idx : Nat
  cols : List Nat
deriving DecidableEq, Repr

/-- grid.go:14-19, gridBox (its name is the map key; `pa` is never set). -/
structure GridBox where
  rows : List AreaRow
  left : Nat
  top : Nat
  right : Nat
  bottom : Nat
deriving DecidableEq, Repr

/-- The zero gridBox of grid.go:69-71. -/
def GridBox.zero : GridBox := { rows := [], left := 0, top := 0, right := 0, bottom := 0 }

/-- grid.go:22-33, the loop looking for the row; `done` are the rows already passed.  `none`: no such row. -/
def GridBox.addExisting (b : GridBox) (row col : Nat) : (done todo : List AreaRow) → Option (Res GridBox)
  | _, [] => none
  | done, r :: rs =>
    if r.idx = row then
      match r.cols.getLast? with
      | none => some .panic
      | some c =>
        if col ≠ c + 1 then some .err
        else some (.ok { b with
          rows := done ++ { r with cols := r.cols ++ [col] } :: rs,
          right := if col > b.right then col else b.right })
    else GridBox.addExisting b row col (done ++ [r]) rs

/-- grid.go:21-51, add. -/
def GridBox.add (b : GridBox) (row col : Nat) : Res GridBox :=
  match b.addExisting row col [] b.rows with
  | some r => r
  | none =>
    match b.rows.getLast? with
    | none => .ok { rows := [{ idx := row, cols := [col] }], left := col, right := col, top := row, bottom := row }
    | some last =>
      if row ≠ last.idx + 1 then .err
      else if col ≠ b.left then .err
      else .ok { b with bottom := row, rows := b.rows ++ [{ idx := row, cols := [col] }] }

/-- grid.go:53-61, validate. -/
def GridBox.validate (b : GridBox) : Res Unit :=
  match b.rows with
  | [] => .panic
  | r :: _ => if b.rows.all (fun r' => r'.cols.length = r.cols.length) then .ok () else .err

/-- The map of grid.go:64. -/
abbrev Boxes := List (Str × GridBox)

/-- grid.go:66-79, the loop body for one area. -/
def addArea (ir ia : Nat) (a : Str) (boxes : Boxes) : Res Boxes :=
  match mapGet a boxes with
  | some b => (b.add ir ia).bind fun b' => .ok (mapSet a b' boxes)
  | none => (GridBox.zero.add ir ia).bind fun b' => .ok (mapSet a b' boxes)

/-- grid.go:66-79, the loop over the areas of row `ir`, from column `ia` on. -/
def addRow (ir : Nat) : Nat → List Str → Boxes → Res Boxes
  | _, [], boxes => .ok boxes
  | ia, a :: as, boxes => (addArea ir ia a boxes).bind (addRow ir (ia + 1) as)

/-- grid.go:65-80, the loop over the rows, from row `ir` on. -/
def addRows : Nat → List (List Str) → Boxes → Res Boxes
  | _, [], boxes => .ok boxes
  | ir, r :: rs, boxes => (addRow ir 0 r boxes).bind (addRows (ir + 1) rs)

/-- grid.go:81-86, over the map in some order. -/
def validateAll : Boxes → Res Unit
  | [] => .ok ()
  | (_, b) :: bs => b.validate.bind fun _ => validateAll bs

/-- grid.go:63-87, renderGrid: `.err` is the early return after logging; the result is the map at the end (the code
stops there and draws nothing).  `order` is the iteration order of the map. -/
def renderGrid (order : Boxes → Boxes) (rows : List (List Str)) : Res Boxes :=
  (addRows 0 rows []).bind fun boxes => (validateAll (order boxes)).bind fun _ => .ok boxes

/-- xdoc/grid.go:34-43, the first loop of Validate: collects the names, `none` if a row has another size. -/
def gridNames (ac : Nat) : List (List Str) → List Str → Option (List Str)
  | [], am => some am
  | r :: rs, am => if r.length ≠ ac then none else gridNames ac rs (am ++ r)

/-- xdoc/grid.go:30-50, Validate: is there no error? `rows` are the areas of the rows, `parts` the areas of the parts. -/
def gridValidate (rows : List (List Str)) (parts : List Str) : Bool :=
  match rows with
  | [] => false
  | r :: _ =>
    match gridNames r.length rows [] with
    | none => false
    | some am => parts.all (fun p => am.contains p)

end Verif.Model
