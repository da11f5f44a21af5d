import Verif.Model.Style
/-
Model of the DecodeAttrs methods of /repo/xdoc/table.go and /repo/xdoc/grid.go.
-/
namespace Verif.Model
open Verif.Go

/-- xdoc/table.go:31-43, the loop of Table.DecodeAttrs; `rh` is RepeatHeader so far. -/
def tableAttrs : List Attr → Int → Option Int
  | [], rh => some rh
  | (n, v) :: as, rh =>
    if n = b!"repeatheader" then
      match parseInt v with
      | none => none
      | some n => if n < 0 ∨ n > 10 then none else tableAttrs as n
    else tableAttrs as rh

/-- xdoc/table.go:31-45, Table.DecodeAttrs on a fresh Table: RepeatHeader and the styles. -/
def tableDecodeAttrs (fl : Floats) (ord : Nat → MapOrder) (attrs : List Attr) : Option (Int × Styled) :=
  match tableAttrs attrs 0 with
  | none => none
  | some rh => (Styled.decodeAttrs fl ord attrs ⟨[], []⟩).map fun st => (rh, st)

/-- xdoc/table.go:47-63, the loop of TableCell.DecodeAttrs. -/
def cellAttrs : List Attr → Int → Int → Option (Int × Int)
  | [], cs, rs => some (cs, rs)
  | (n, v) :: as, cs, rs =>
    if n = b!"colspan" then
      match parseInt v with
      | none => none
      | some n => cellAttrs as n rs
    else if n = b!"rowspan" then
      match parseInt v with
      | none => none
      | some n => cellAttrs as cs n
    else cellAttrs as cs rs

/-- xdoc/table.go:47-65, TableCell.DecodeAttrs on a fresh cell: ColSpan, RowSpan and the styles. -/
def cellDecodeAttrs (fl : Floats) (ord : Nat → MapOrder) (attrs : List Attr) : Option (Int × Int × Styled) :=
  match cellAttrs attrs 0 0 with
  | none => none
  | some (cs, rs) => (Styled.decodeAttrs fl ord attrs ⟨[], []⟩).map fun st => (cs, rs, st)

/-- xdoc/grid.go:98-106, GridPart.DecodeAttrs: the area (the last one given) and the styles. -/
def partDecodeAttrs (fl : Floats) (ord : Nat → MapOrder) (attrs : List Attr) : Option (Str × Styled) :=
  let area := attrs.foldl (fun acc a => if a.1 = b!"area" then a.2 else acc) []
  (Styled.decodeAttrs fl ord attrs ⟨[], []⟩).map fun st => (area, st)

end Verif.Model
