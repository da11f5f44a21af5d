import Verif.Spec.Words
import Verif.Spec.Alike
/-
A document in which every word of its texts is a paragraph of its own: what is left of a text if it does not count how it is divided
into pieces of text and paragraphs.
-/
namespace Verif.Spec
open Verif.Go Verif.Model

/-- The contents of a text or box with every word in a paragraph of its own; text outside of paragraphs is in paragraphs without
styles.  All else stays. -/
def wordwise : List Instr → List Instr
  | [] => []
  | .textBlock t :: iss => (cutWords t).map (.paragraph ⟨[], []⟩) ++ wordwise iss
  | .paragraph st t :: iss => (cutWords t).map (.paragraph st) ++ wordwise iss
  | i :: iss => i :: wordwise iss

/-- A box in a cell. -/
def boxwise : Instr → Instr
  | .box st iss => .box st (wordwise iss)
  | i => i

/-- The contents of a cell: its own text and that of its boxes. -/
def cellwise (iss : List Instr) : List Instr := wordwise (iss.map boxwise)

/-- An instruction of the body, header or footer. -/
def instrwise : Instr → Instr
  | .text st iss => .text st (wordwise iss)
  | .box st iss => .box st (wordwise iss)
  | .table st rh rows => .table st rh (rows.map fun r =>
      .mk r.st (r.cells.map fun c => .mk c.st c.colSpan c.rowSpan (cellwise c.iss)))
  | i => i

/-- The document with every word in a paragraph of its own. -/
def docwise (d : Document) : Document :=
  { d with header := d.header.map instrwise, footer := d.footer.map instrwise, body := d.body.map instrwise }

/-- The piece of text has a word, and no backslash (white space next to a backslash is dropped). -/
def Worded (t : Str) : Prop := cutWords t ≠ [] ∧ 92 ∉ t

/-- All pieces of text have words. -/
def AllWorded (iss : List Instr) : Prop := (∀ t, .textBlock t ∈ iss → Worded t) ∧ ∀ st t, .paragraph st t ∈ iss → Worded t

/-- The same for a cell and the boxes in it. -/
def CellWorded (iss : List Instr) : Prop := AllWorded iss ∧ ∀ st l, .box st l ∈ iss → AllWorded l

/-- The same for an instruction of the body, header or footer. -/
def InstrWorded : Instr → Prop
  | .text _ iss => AllWorded iss
  | .box _ iss => AllWorded iss
  | .table _ _ rows => ∀ r ∈ rows, ∀ c ∈ r.cells, CellWorded c.iss
  | _ => True

/-- The same for a document. -/
def DocWorded (d : Document) : Prop := ∀ i, i ∈ d.header ∨ i ∈ d.footer ∨ i ∈ d.body → InstrWorded i

/-- Of an engine: to choose a font again changes nothing, and choosing a font leaves the page. -/
structure FontAgain {E : Type} (eng : Engine E) : Prop where
  again : ∀ f e, eng.changeFont f (eng.changeFont f e) = eng.changeFont f e
  page : ∀ f e, eng.currentPage (eng.changeFont f e) = eng.currentPage e

end Verif.Spec
