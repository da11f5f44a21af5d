import Verif.Spec.Spelled
/-
Where in an XML file the texts on the pages can come from, and what of them a text on a page is (C119).
-/
namespace Verif.Spec
open Verif.Go Verif.Model

/-- A text directly in a text or box: between its elements, or that of a paragraph. -/
inductive LineIn (x : Str) (kids : List Node) : Prop
  | chars : .chars x ∈ kids → LineIn x kids
  | paragraph {as ks} : .elem b!"p" as ks ∈ kids → x = directText ks → LineIn x kids

/-- The elements of a cell that can be passed over, so that what they contain is read as if it stood in the cell itself: unknown ones, and
moves of the position (if their numbers are not valid). -/
def passable (name : Str) : Prop := name ∉ instructionNames ∨ name ∈ [b!"lf", b!"setx", b!"sety"]

/-- A text in a cell: like in a text, or in one of its boxes. -/
inductive CellIn (x : Str) : List Node → Prop
  | text {kids} : LineIn x kids → CellIn x kids
  | box {kids as ks} : .elem b!"box" as ks ∈ kids → LineIn x ks → CellIn x kids
  | inner {kids name as ks} : .elem name as ks ∈ kids → passable name → CellIn x ks → CellIn x kids

/-- The places of a body, header or footer where texts are printed: in texts, in boxes, and in the cells of tables.  Not among them: texts
between the elements, in paragraphs outside of texts and boxes, in images, fonts and grids, and outside of the cells of a table. -/
inductive PrintedIn (x : Str) : Node → Prop
  | text {as kids} : LineIn x kids → PrintedIn x (.elem b!"text" as kids)
  | box {as kids} : LineIn x kids → PrintedIn x (.elem b!"box" as kids)
  | table {as rows ras cells cas kids} : .elem b!"tr" ras cells ∈ rows → .elem b!"td" cas kids ∈ cells → CellIn x kids → PrintedIn x (.elem b!"table" as rows)

/-- One of the texts that stand for a word: all of it, or one of the two parts it is broken into; perhaps with a space before. -/
inductive WordPiece (breaks : Str → Str → Str → Prop) (w : Str) : Str → Prop
  | whole {v} : (v = w ∨ v = 32 :: w) → WordPiece breaks w v
  | first {t u v} : breaks w t u → (v = t ++ [45] ∨ v = 32 :: (t ++ [45])) → WordPiece breaks w v
  | second {t u} : breaks w t u → WordPiece breaks w u

/-- A hyphenator breaks a word between two of its parts. -/
def PartsBreak (hyph : Str → List Str) (w t u : Str) : Prop :=
  ∃ i, 1 ≤ i ∧ i < (hyph w).length ∧ t = ((hyph w).take i).flatten ∧ u = ((hyph w).drop i).flatten

end Verif.Spec
