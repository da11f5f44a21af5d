import Verif.Model.Describe
import Mathlib.Tactic.Common
/-
Property C58: Describe shows every text and every image of the document once, in document order (/repo/xdoc/describe.go).
-/
namespace Verif.Props
open Verif.Go Verif.Model

/-- A text or an image source. -/
inductive Content
  | text (s : Str)
  | image (s : Str)
deriving DecidableEq

mutual
/-- The texts (after clearing white space) and image sources inside an instruction, in document order. -/
def contents : Instr → List Content
  | .textBlock t => [.text (clearStr t)]
  | .paragraph _ t => [.text (clearStr t)]
  | .image _ s => [.image s]
  | .box _ iss => contentsAll iss
  | .text _ iss => contentsAll iss
  | .table _ _ rows => contentsRows rows
  | .grid _ _ parts => contentsParts parts
  | _ => []
def contentsAll : List Instr → List Content
  | [] => []
  | i :: is => contents i ++ contentsAll is
def contentsRows : List TableRow → List Content
  | [] => []
  | .mk _ cells :: rs => contentsCells cells ++ contentsRows rs
def contentsCells : List TableCell → List Content
  | [] => []
  | .mk _ _ _ iss :: cs => contentsAll iss ++ contentsCells cs
def contentsParts : List GridPart → List Content
  | [] => []
  | .mk _ _ iss :: ps => contentsAll iss ++ contentsParts ps
end

mutual
/-- The contents shown by a description: the values of the items named paragraph, text-block and image, from top to bottom. -/
def shown : List DescItem → List Content
  | [] => []
  | i :: is => shownItem i ++ shown is
def shownItem : DescItem → List Content
  | .mk name v _ items =>
    (match v with
      | .str s => if name = b!"paragraph" ∨ name = b!"text-block" then [.text s] else if name = b!"image" then [.image s] else []
      | _ => []) ++ shown items
end

theorem shown_append (a b : List DescItem) : shown (a ++ b) = shown a ++ shown b := by
  induction a with
  | nil => simp [shown]
  | cons i a ih => simp [shown, ih]

private theorem shown_gridRows (env : DescEnv) (rows : List (Styled × List Str)) :
    shown (rows.map fun r => .mk b!"grid-row" (.str (join r.2 b!" ")) (describeMutator env (some r.1)) []) = [] := by
  induction rows with
  | nil => simp [shown]
  | cons r rows ih => rw [List.map_cons, shown, ih, shownItem, shown]; simp

mutual
private theorem shown_instr (env : DescEnv) : ∀ i : Instr, shown (describeInstr env i) = contents i
  | .font st => by simp [describeInstr, shown, shownItem, contents]
  | .lineFeed n => by simp [describeInstr, shown, shownItem, contents]
  | .setX n => by simp [describeInstr, shown, shownItem, contents]
  | .setY n => by simp [describeInstr, shown, shownItem, contents]
  | .box st iss => by simp [describeInstr, shown, shownItem, contents, shown_all env iss]
  | .text st iss => by simp [describeInstr, shown, shownItem, contents, shown_all env iss]
  | .image st s => by simp [describeInstr, shown, shownItem, contents]
  | .textBlock t => by simp [describeInstr, shown, shownItem, contents]
  | .paragraph st t => by simp [describeInstr, shown, shownItem, contents]
  | .lineBreak => by simp [describeInstr, shown, shownItem, contents]
  | .pageBreak => by simp [describeInstr, shown, shownItem, contents]
  | .table st rh rows => by simp [describeInstr, shown, shownItem, contents, shown_rows env rows]
  | .tableRow r => by simp [describeInstr, shown, contents]
  | .tableCell c => by simp [describeInstr, shown, contents]
  | .grid st rows parts => by
      rw [describeInstr, shown, shown, shownItem, shown_append, shown_gridRows, shown_parts env parts] <;> simp [contents]
  | .gridRow st a => by simp [describeInstr, shown, contents]
  | .gridPart p => by simp [describeInstr, shown, contents]
private theorem shown_all (env : DescEnv) : ∀ is : List Instr, shown (describeInstructions env is) = contentsAll is
  | [] => by simp [describeInstructions, shown, contentsAll]
  | i :: is => by rw [describeInstructions, shown_append, shown_instr env i, shown_all env is, contentsAll]
private theorem shown_rows (env : DescEnv) : ∀ rs : List TableRow, shown (describeRows env rs) = contentsRows rs
  | [] => by simp [describeRows, shown, contentsRows]
  | .mk st cells :: rs => by
      rw [describeRows, shown, shownItem, shown_cells env cells, shown_rows env rs, contentsRows] <;> simp
private theorem shown_cells (env : DescEnv) : ∀ cs : List TableCell, shown (describeCells env cs) = contentsCells cs
  | [] => by simp [describeCells, shown, contentsCells]
  | .mk st c r iss :: cs => by
      rw [describeCells, shown, shownItem, shown_all env iss, shown_cells env cs, contentsCells] <;> simp
private theorem shown_parts (env : DescEnv) : ∀ ps : List GridPart, shown (describeParts env ps) = contentsParts ps
  | [] => by simp [describeParts, shown, contentsParts]
  | .mk st a iss :: ps => by
      rw [describeParts, shown, shownItem, shown_all env iss, shown_parts env ps, contentsParts]; simp
end

/-- C58: the description of a document shows the texts and images of header, footer and body, in this order, each once. -/
theorem C58_contents (ji : JsonInts) (o : DiffOrder) (doc : Document) :
    shown (describe ji o doc) = contentsAll doc.header ++ contentsAll doc.footer ++ contentsAll doc.body := by
  simp [describe, shown, shownItem, describeMeta, describePage, describeMargins, shown_all]

/-- C58: an instruction yields one item, except rows, cells and parts found outside of their table or grid, which yield none. -/
theorem C58_one_item (env : DescEnv) (i : Instr) :
    (describeInstr env i).length = match i with
      | .tableRow _ | .tableCell _ | .gridRow _ _ | .gridPart _ => 0
      | _ => 1 := by
  cases i <;> simp [describeInstr]

/-- C58: describing a sequence is describing its parts one after the other. -/
theorem C58_append (env : DescEnv) (is js : List Instr) :
    describeInstructions env (is ++ js) = describeInstructions env is ++ describeInstructions env js := by
  induction is with
  | nil => simp [describeInstructions]
  | cons i is ih => simp [describeInstructions, ih]

-- A table with a cell holding a text and a box, and a stray cell.
example : contentsAll [.table ⟨[], []⟩ 0 [.mk ⟨[], []⟩ [.mk ⟨[], []⟩ 1 1 [.textBlock b!" a\n", .box ⟨[], []⟩ [.image ⟨[], []⟩ b!"x.png"]]]],
    .tableCell (.mk ⟨[], []⟩ 1 1 [.textBlock b!"lost"]), .paragraph ⟨[], []⟩ b!"b"] =
    [.text b!"a", .image b!"x.png", .text b!"b"] := by decide +kernel

end Verif.Props
