import Verif.Spec.Load
import Verif.Spec.Content
/-
The words of an XML file, and where in it a word can be seen (C91).
-/
namespace Verif.Spec
open Verif.Go Verif.Model

/-- The words of a text, `w` being the beginning of the first: the longest pieces without blanks. -/
def cutFrom (w : Str) : Str → List Str
  | [] => [w].filter (· ≠ [])
  | c :: cs => if blank c then [w].filter (· ≠ []) ++ cutFrom [] cs else cutFrom (w ++ [c]) cs

/-- The words of a text. -/
def cutWords (t : Str) : List Str := cutFrom [] t

/-- A text without the place holder of the page number and without backslashes (at which blanks are dropped). -/
def PlainText (t : Str) : Prop := 92 ∉ t ∧ ¬ b!"{cp}" <:+: t

mutual
/-- The words of a tree, at any depth; the contents of an image are the name of a file. -/
def Node.words : Node → List Str
  | .elem n _ kids => if n = b!"image" then [] else wordsAll kids
  | .chars t => cutWords t
  | .other => []
/-- The words of a list of trees. -/
def wordsAll : List Node → List Str
  | [] => []
  | nd :: ns => nd.words ++ wordsAll ns
end

variable (fl : Floats) (ord : Nat → MapOrder)

/-- What can stand in a text or box: characters, paragraphs, and anything without words. -/
inductive Line : Node → Prop
  | chars {t} : PlainText t → Line (.chars t)
  | paragraph {as t} : PlainText t → Line (.elem b!"p" as [.chars t])
  | wordless {nd : Node} : nd.words = [] → Line nd

/-- What can stand in a cell before its boxes: the same, but the styles of a paragraph must be valid, and all this can stand in unknown
elements. -/
inductive CellLine : Node → Prop
  | chars {t} : PlainText t → CellLine (.chars t)
  | paragraph {as t} : PlainText t → (newStyled fl ord as).isSome → CellLine (.elem b!"p" as [.chars t])
  | unknown {name as kids} : name ∉ instructionNames → (∀ nd ∈ kids, CellLine nd) → CellLine (.elem name as kids)
  | wordless {nd : Node} : nd.words = [] → CellLine nd

/-- What can stand in a cell after its texts: boxes, and anything without words. -/
inductive CellBox : Node → Prop
  | box {as kids} : (∀ nd ∈ kids, Line nd) → CellBox (.elem b!"box" as kids)
  | wordless {nd : Node} : nd.words = [] → CellBox nd

/-- What can stand in a row: cells, and anything without words. -/
inductive Cell : Node → Prop
  | cell {as texts boxes} : (∀ nd ∈ texts, CellLine fl ord nd) → (∀ nd ∈ boxes, CellBox nd) → Cell (.elem b!"td" as (texts ++ boxes))
  | wordless {nd : Node} : nd.words = [] → Cell nd

/-- What can stand in a table: rows, and anything without words. -/
inductive Row : Node → Prop
  | row {as kids} : (∀ nd ∈ kids, Cell fl ord nd) → Row (.elem b!"tr" as kids)
  | wordless {nd : Node} : nd.words = [] → Row nd

/-- What can stand in a body: texts, boxes, tables, and anything without words. -/
inductive Visible : Node → Prop
  | text {as kids} : (∀ nd ∈ kids, Line nd) → Visible (.elem b!"text" as kids)
  | box {as kids} : (∀ nd ∈ kids, Line nd) → Visible (.elem b!"box" as kids)
  | table {as kids} : (∀ nd ∈ kids, Row fl ord nd) → Visible (.elem b!"table" as kids)
  | wordless {nd : Node} : nd.words = [] → Visible nd

/-- The texts are the words, whole or broken, and stand in the document in this order. -/
def AllShown (hyph : Str → List Str) (words : List Str) (e : Fpdf) : Prop :=
  ∃ ts, Written hyph words ts ∧ (ts.map Put.text).Sublist (putsOn e)

end Verif.Spec
