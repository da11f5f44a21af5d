import Verif.Model.Doc
import Verif.Model.Dim
import Verif.Model.Diff
import Verif.Model.Text
import Verif.Model.Hyphen
/-
Model of /repo/xdoc/describe.go.  Dump (the output format) is in Dump.lean.
-/
namespace Verif.Model
open Verif.Go

/-- The values of DescribeItem.Value; `none` is nil. -/
inductive DescValue
  | none
  | str (s : Str)
  | num (q : ℚ)
deriving DecidableEq

/-- xdoc/describe.go:18-23, DescribeItem. -/
inductive DescItem
  | mk (name : Str) (value : DescValue) (diffs : List Diff) (items : List DescItem)

/-- fmt's %d. -/
def intDec (n : Int) : Str := if n < 0 then 45 :: natDec n.natAbs else natDec n.natAbs

/-- What Describe depends on: the classes, and the choices made by encoding/json and map iteration. -/
structure DescEnv where
  classes : Classes
  ji : JsonInts
  ord : DiffOrder

/-- describe.go:307-320, describeMutator (`none`: NoStyles; line 308 makes the zero style).  The error item cannot occur (`C48_no_error`); its text is left
out. -/
def describeMutator (env : DescEnv) (st : Option Styled) : List Diff :=
  let mutsty := match st with
    | some st => st.mutatedStyles env.classes zeroStyles
    | none => zeroStyles
  match stylesDiff env.ji env.ord zeroStyles mutsty with
  | some ds => ds
  | none => [⟨b!"ERROR", .str [], .str []⟩]

mutual
/-- describe.go:210-278, the switch of describeInstructions: the items added for one instruction. -/
def describeInstr (env : DescEnv) : Instr → List DescItem
  | .font st => [.mk b!"font" .none (describeMutator env (some st)) []]
  | .lineFeed n => [.mk b!"line-feed" (.num n) (describeMutator env none) []]
  | .setX x => [.mk b!"setx" (.num x) (describeMutator env none) []]
  | .setY y => [.mk b!"sety" (.num y) (describeMutator env none) []]
  | .box st iss => [.mk b!"box" .none (describeMutator env (some st)) (describeInstructions env iss)]
  | .text st iss => [.mk b!"text" .none (describeMutator env (some st)) (describeInstructions env iss)]
  | .paragraph st t => [.mk b!"paragraph" (.str (clearStr t)) (describeMutator env (some st)) []]
  | .lineBreak => [.mk b!"line-break" .none [] []]
  | .pageBreak => [.mk b!"page-break" .none [] []]
  | .textBlock t => [.mk b!"text-block" (.str (clearStr t)) [] []]
  | .image st src => [.mk b!"image" (.str src) (describeMutator env (some st)) []]
  | .table st _ rows => [.mk b!"table" .none (describeMutator env (some st)) (describeRows env rows)]
  | .grid st rows parts => [.mk b!"grid" .none (describeMutator env (some st))
      (rows.map (fun r => .mk b!"grid-row" (.str (join r.2 b!" ")) (describeMutator env (some r.1)) []) ++
        describeParts env parts)]
  | .tableRow _ => []
  | .tableCell _ => []
  | .gridRow _ _ => []
  | .gridPart _ => []

/-- describe.go:207-281, describeInstructions. -/
def describeInstructions (env : DescEnv) : List Instr → List DescItem
  | [] => []
  | i :: is => describeInstr env i ++ describeInstructions env is

/-- describe.go:143-163, describeTable's loop and describeTableRow. -/
def describeRows (env : DescEnv) : List TableRow → List DescItem
  | [] => []
  | .mk st cells :: rs =>
    .mk b!"table-row" .none (describeMutator env (some st)) (describeCells env cells) :: describeRows env rs

/-- describe.go:154-172, describeTableRow's loop and describeTableCell. -/
def describeCells (env : DescEnv) : List TableCell → List DescItem
  | [] => []
  | .mk st cs rs iss :: tds =>
    .mk (b!"table-cell colspan=" ++ intDec cs ++ b!" rowspan=" ++ intDec rs) .none (describeMutator env (some st))
      (describeInstructions env iss) :: describeCells env tds

/-- describe.go:174-205, describeGrid's loop over the parts and describeGridPart. -/
def describeParts (env : DescEnv) : List GridPart → List DescItem
  | [] => []
  | .mk st area iss :: ps =>
    .mk b!"grid-part" (.str area) (describeMutator env (some st)) (describeInstructions env iss) :: describeParts env ps
end

/-- describe.go:122-141, describeMargins. -/
def describeMargins (m : Margins) : List DescItem :=
  [.mk b!"left" (.num m.right) [] [], .mk b!"top" (.num m.top) [] [],
   .mk b!"right" (.num m.right) [] [], .mk b!"bottom" (.num m.bottom) [] []]

/-- describe.go:105-120, describePage. -/
def describePage (p : DocPage) : List DescItem :=
  [.mk b!"orientation" (.str p.orientation) [] [], .mk b!"format" (.str p.format) [] [],
   .mk b!"margins" .none [] (describeMargins p.margins)]

/-- describe.go:88-103, describeMeta. -/
def describeMeta (m : Meta) : List DescItem :=
  [.mk b!"author" (.str m.author) [] [], .mk b!"creator" (.str m.creator) [] [], .mk b!"subject" (.str m.subject) [] []]

/-- describe.go:50-86, Describe: the items. -/
def describe (ji : JsonInts) (o : DiffOrder) (doc : Document) : List DescItem :=
  let env : DescEnv := ⟨doc.styleClasses, ji, o⟩
  [.mk b!"meta" .none [] (describeMeta doc.info),
   .mk b!"page" .none [] (describePage doc.page),
   .mk b!"header" .none [] (describeInstructions env doc.header),
   .mk b!"footer" .none [] (describeInstructions env doc.footer),
   .mk b!"body" .none [] (describeInstructions env doc.body)]

end Verif.Model
