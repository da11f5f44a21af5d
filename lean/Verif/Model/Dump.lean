import Verif.Go.XmlOut
import Verif.Model.Describe
import Verif.Model.Main
/-
Model of Dump in /repo/xdoc/describe.go and of the program /repo/cmd/describe/main.go.
Simplifications: the JSON format is a parameter (no program uses it), and so are the texts of float64 numbers; error messages are
left out of the output.
-/
namespace Verif.Model
open Verif.Go

/-- The libraries behind Dump: strconv.FormatFloat(x, 'g', -1, 64), and encoding/json for a description. -/
structure Printing where
  float : ℚ → Str
  json : List DescItem → Str

variable (pr : Printing)

/-- encoding/xml: the text of a string or a number; a map is an error. -/
def jleafText : JLeaf → Option Str
  | .str s => some s
  | .num q => some (pr.float q)
  | .map => none

/-- xdoc/describe.go:18-23, the field Value: nil writes no element. -/
def valueXml : DescValue → List XmlOut
  | .none => []
  | .str s => [.leaf b!"Value" s]
  | .num q => [.leaf b!"Value" (pr.float q)]

/-- xdoc/diff.go:10-14: the element of a Diff in the field StyleDiffs. -/
def diffXml (d : Diff) : Option XmlOut :=
  match jleafText pr d.org, jleafText pr d.mod with
  | some o, some m => some (.node b!"StyleDiffs" [.leaf b!"Path" d.path, .leaf b!"Org" o, .leaf b!"Mod" m])
  | _, _ => none

/-- The elements of a list; the first error ends it. -/
def diffsXml : List Diff → Option (List XmlOut)
  | [] => some []
  | d :: ds =>
    match diffXml pr d, diffsXml ds with
    | some x, some xs => some (x :: xs)
    | _, _ => none

mutual
/-- xdoc/describe.go:18-23: the element of a DescribeItem in a field Items. -/
def itemXml : DescItem → Option XmlOut
  | .mk name value diffs items =>
    match diffsXml pr diffs, itemsXml items with
    | some ds, some is => some (.node b!"Items" (.leaf b!"Name" name :: valueXml pr value ++ ds ++ is))
    | _, _ => none

/-- The elements of the field Items. -/
def itemsXml : List DescItem → Option (List XmlOut)
  | [] => some []
  | i :: is =>
    match itemXml i, itemsXml is with
    | some x, some xs => some (x :: xs)
    | _, _ => none
end

/-- xdoc/describe.go:25-28, Description: the field doc is not exported and not written. -/
def descriptionXml (items : List DescItem) : Option XmlOut := (itemsXml pr items).map (.node b!"Description")

/-- xdoc/describe.go:37-48, Dump.  The error of the libraries is dropped, and then there are no bytes. -/
def dump (format : Str) (items : List DescItem) : Str :=
  if format = b!"xml" then
    match descriptionXml pr items with
    | some x => xmlPrint 0 x
    | none => []
  else pr.json items

/-- What a program prints: its output, or an error message. -/
inductive Printed
  | text (s : Str)
  | message
deriving DecidableEq

/-- cmd/describe/main.go:11-17: the input. -/
def describeInput : List Str → Str
  | _ :: a :: _ => a
  | _ => b!"../../examples/grid.xml"

/-- cmd/describe/main.go:10-26, main.  No file is written. -/
def describeMain {E : Type} (lib : Libraries E) (ji : JsonInts) (o : DiffOrder) (w : World) : Exit × Printed :=
  match loadFile lib w (describeInput w.args) with
  | none => (.code 2, .message)
  | some doc => (.code 0, .text (dump pr b!"xml" (describe ji o doc) ++ b!"\n"))

end Verif.Model
