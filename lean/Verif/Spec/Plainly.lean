import Mathlib.Data.List.Forall2
import Verif.Spec.Typeset
/-
What C125 talks about: tables whose attributes differ where it does not matter.
-/
namespace Verif.Spec
open Verif.Go Verif.Model

/-- The same span, or none in both. -/
def SameSpan (a b : Int) : Prop := a = b ∨ a ≤ 1 ∧ b ≤ 1

/-- Two tables with the same contents of their cells, whose spans are the same or none, and whose cells look the same, whatever the styles of the table. -/
structure SameCells (cs : Classes) (rows rows' : List TableRow) : Prop where
  spans : List.Forall₂ (fun r r' => List.Forall₂ (fun c c' => c.iss = c'.iss ∧ SameSpan c.colSpan c'.colSpan ∧ SameSpan c.rowSpan c'.rowSpan) r.cells r'.cells) rows rows'
  look : ∀ sty, styledCells cs sty rows = styledCells cs sty rows'

/-- Two tables with the same cells, whose spans are the same or none. -/
def SameSpans (rows rows' : List TableRow) : Prop :=
  List.Forall₂ (fun r r' => r.st = r'.st ∧ List.Forall₂ (fun c c' => c.st = c'.st ∧ c.iss = c'.iss ∧ SameSpan c.colSpan c'.colSpan ∧ SameSpan c.rowSpan c'.rowSpan) r.cells r'.cells)
    rows rows'

/-- The cells of a row without classes have the style text of the row in front of theirs, and the row has none. -/
def movedDown (r : TableRow) : TableRow := .mk ⟨[], []⟩ (r.cells.map fun c => .mk ⟨r.st.mutators ++ c.st.mutators, c.st.classes⟩ c.colSpan c.rowSpan c.iss)

/-- The same number of header rows, or all `n` rows in both. -/
def SameHeaders (n : Nat) (a b : Int) : Prop := a = b ∨ (n : Int) ≤ a ∧ (n : Int) ≤ b

/-- Two instructions that are the same, or tables as above. -/
inductive SameSetting (cs : Classes) : Instr → Instr → Prop
  | same (i : Instr) : SameSetting cs i i
  | table (st : Styled) {rh rh' : Int} {rows rows' : List TableRow} (hs : SameCells cs rows rows') (hr : SameHeaders (tablePlaces rows).length rh rh') :
    SameSetting cs (.table st rh rows) (.table st rh' rows')

end Verif.Spec
