import Verif.Model.Style
/-
Model of the document types of /repo/xdoc (doc.go, instructions.go, table.go, grid.go).
-/
namespace Verif.Model
open Verif.Go

mutual
/-- The instruction types registered in xdoc/registry.go:13-33, and TextBlock.  Box, Text, TableCell and GridPart embed both
Styled and Instructions (which has a Styled of its own); methods called on them are those of the outer Styled, so only that one
is kept. -/
inductive Instr
  /-- xdoc/instructions.go:53-56 -/
  | font (st : Styled)
  /-- xdoc/instructions.go:58-62 -/
  | lineFeed (lines : ℚ)
  /-- xdoc/instructions.go:64-68 -/
  | setX (x : ℚ)
  /-- xdoc/instructions.go:70-74 -/
  | setY (y : ℚ)
  /-- xdoc/instructions.go:76-81 -/
  | box (st : Styled) (iss : List Instr)
  /-- xdoc/instructions.go:83-87 -/
  | text (st : Styled) (iss : List Instr)
  /-- xdoc/instructions.go:89-93 -/
  | image (st : Styled) (source : Str)
  /-- xdoc/instructions.go:95-98 -/
  | textBlock (text : Str)
  /-- xdoc/instructions.go:100-104 -/
  | paragraph (st : Styled) (text : Str)
  /-- xdoc/instructions.go:106-109 -/
  | lineBreak
  /-- xdoc/instructions.go:111-114 -/
  | pageBreak
  /-- xdoc/table.go:10-15 -/
  | table (st : Styled) (repeatHeader : Int) (rows : List TableRow)
  /-- a `tr` outside of a table -/
  | tableRow (row : TableRow)
  /-- a `td` outside of a row -/
  | tableCell (cell : TableCell)
  /-- xdoc/grid.go:10-15 -/
  | grid (st : Styled) (rows : List (Styled × List Str)) (parts : List GridPart)
  /-- xdoc/grid.go:17-21 -/
  | gridRow (st : Styled) (areas : List Str)
  /-- a `part` outside of a grid -/
  | gridPart (part : GridPart)
/-- xdoc/table.go:17-21 -/
inductive TableRow
  | mk (st : Styled) (cells : List TableCell)
/-- xdoc/table.go:23-29 -/
inductive TableCell
  | mk (st : Styled) (colSpan rowSpan : Int) (iss : List Instr)
/-- xdoc/grid.go:23-28 -/
inductive GridPart
  | mk (st : Styled) (area : Str) (iss : List Instr)
end

def TableRow.st : TableRow → Styled | .mk st _ => st
def TableRow.cells : TableRow → List TableCell | .mk _ cs => cs
def TableCell.st : TableCell → Styled | .mk st _ _ _ => st
def TableCell.colSpan : TableCell → Int | .mk _ c _ _ => c
def TableCell.rowSpan : TableCell → Int | .mk _ _ r _ => r
def TableCell.iss : TableCell → List Instr | .mk _ _ _ is => is
def GridPart.st : GridPart → Styled | .mk st _ _ => st
def GridPart.area : GridPart → Str | .mk _ a _ => a
def GridPart.iss : GridPart → List Instr | .mk _ _ is => is

/-- xdoc/doc.go:70-76, Margins. -/
structure Margins where
  left : ℚ
  top : ℚ
  right : ℚ
  bottom : ℚ
deriving DecidableEq

/-- xdoc/doc.go:63-68, Meta. -/
structure Meta where
  author : Str
  creator : Str
  subject : Str
deriving DecidableEq

/-- xdoc/doc.go:78-83, Page. -/
structure DocPage where
  orientation : Str
  format : Str
  margins : Margins
deriving DecidableEq

/-- xdoc/doc.go:52-61, Document (Style is only used to make styleClasses; the Styled of header, footer and body is not used
after loading). -/
structure Document where
  info : Meta
  page : DocPage
  header : List Instr
  footer : List Instr
  body : List Instr
  styleClasses : Classes

/-- MutatedStyles of the types embedding Styled (xdoc/style.go:32-39) and NoStyles (lines 56-58). -/
def Instr.styled : Instr → Option Styled
  | .font st => some st
  | .box st _ => some st
  | .text st _ => some st
  | .image st _ => some st
  | .paragraph st _ => some st
  | .table st _ _ => some st
  | .tableRow r => some r.st
  | .tableCell c => some c.st
  | .grid st _ _ => some st
  | .gridRow st _ => some st
  | .gridPart p => some p.st
  | .lineFeed _ => none
  | .setX _ => none
  | .setY _ => none
  | .textBlock _ => none
  | .lineBreak => none
  | .pageBreak => none

def Instr.mutatedStyles (i : Instr) (cs : Classes) (s : Styles) : Styles :=
  match i.styled with
  | some st => st.mutatedStyles cs s
  | none => s

end Verif.Model
