import Verif.Spec.Style
/-
Where the styles of a table cell come from (C63).
-/
namespace Verif.Spec
open Verif.Go Verif.Model

/-- The name for a place among `n`: the first one, otherwise the last one, otherwise none. -/
def placeName (first last : Str) (i n : Nat) : Option Str := if i = 0 then some first else if i + 1 = n then some last else none

/-- What sets the properties of an element: for each of its classes the block for its place if there is one, and the block of the
class itself otherwise; then its inline styles. -/
def sourcesAt (S : SheetMeaning) (place : Option Str) (classes : List Str) (inline : List (Prp → Option Leaf)) : List (Prp → Option Leaf) :=
  classes.filterMap (fun n => (S n).map fun C => (place.bind C.sel).getD C.own) ++ inline

end Verif.Spec
