import Verif.Model.Describe
/-
Specification of what a description says: how an item is to be read (the kind of element named, the value shown), and the
outline of a document that the items must show.  Independent of how describe.go walks the document.
-/
namespace Verif.Spec
open Verif.Go Verif.Model

/-- The kinds of elements with what is to be shown of each. -/
inductive ElemKind
  | font
  | lineFeed (n : ℚ)
  | setX (x : ℚ)
  | setY (y : ℚ)
  | box
  | text
  | paragraph (t : Str)
  | lineBreak
  | pageBreak
  | textBlock (t : Str)
  | image (src : Str)
  | table
  | tableRow
  | tableCell (colSpan rowSpan : Int)
  | grid
  | gridRow (areas : List Str)
  | gridPart (area : Str)

/-- An element: its kind, its style (if it has one) and what is inside. -/
inductive Elem
  | mk (kind : ElemKind) (style : Option Styled) (inside : List Elem)

mutual
/-- The elements that a list of instructions (rows, cells, parts) stands for. -/
def elemsOf : List Instr → List Elem
  | [] => []
  | .font st :: is => .mk .font (some st) [] :: elemsOf is
  | .lineFeed n :: is => .mk (.lineFeed n) none [] :: elemsOf is
  | .setX x :: is => .mk (.setX x) none [] :: elemsOf is
  | .setY y :: is => .mk (.setY y) none [] :: elemsOf is
  | .box st inner :: is => .mk .box (some st) (elemsOf inner) :: elemsOf is
  | .text st inner :: is => .mk .text (some st) (elemsOf inner) :: elemsOf is
  | .paragraph st t :: is => .mk (.paragraph t) (some st) [] :: elemsOf is
  | .lineBreak :: is => .mk .lineBreak none [] :: elemsOf is
  | .pageBreak :: is => .mk .pageBreak none [] :: elemsOf is
  | .textBlock t :: is => .mk (.textBlock t) none [] :: elemsOf is
  | .image st src :: is => .mk (.image src) (some st) [] :: elemsOf is
  | .table st _ rows :: is => .mk .table (some st) (elemsOfRows rows) :: elemsOf is
  | .grid st rows parts :: is =>
    .mk .grid (some st) ((rows.map fun r => .mk (.gridRow r.2) (some r.1) []) ++ elemsOfParts parts) :: elemsOf is
  -- rows, cells and parts that are not in a table or grid are nothing
  | .tableRow _ :: is => elemsOf is
  | .tableCell _ :: is => elemsOf is
  | .gridRow _ _ :: is => elemsOf is
  | .gridPart _ :: is => elemsOf is
def elemsOfRows : List TableRow → List Elem
  | [] => []
  | .mk st cells :: rs => .mk .tableRow (some st) (elemsOfCells cells) :: elemsOfRows rs
def elemsOfCells : List TableCell → List Elem
  | [] => []
  | .mk st cs rs iss :: tds => .mk (.tableCell cs rs) (some st) (elemsOf iss) :: elemsOfCells tds
def elemsOfParts : List GridPart → List Elem
  | [] => []
  | .mk st area iss :: ps => .mk (.gridPart area) (some st) (elemsOf iss) :: elemsOfParts ps
end

/-- The value of a decimal number without sign. -/
def decNat : Nat → Str → Option Nat
  | n, [] => some n
  | n, c :: cs => if 48 ≤ c.toNat ∧ c.toNat ≤ 57 then decNat (10 * n + (c.toNat - 48)) cs else none

/-- The same for a positive number without leading zeros. -/
def decPos : Str → Option Nat
  | [] => none
  | c :: cs => if c = 48 then none else decNat 0 (c :: cs)

/-- The value of a decimal number: zero, or digits with a minus sign if negative, without leading zeros. -/
def decInt : Str → Option Int
  | [48] => some 0
  | 45 :: ds => (decPos ds).map fun n : Nat => -(n : Int)
  | ds => (decPos ds).map fun n : Nat => (n : Int)

/-- How an item is read: the name and value that stand for a kind. -/
def Says (name : Str) (value : DescValue) : ElemKind → Prop
  | .font => name = b!"font" ∧ value = .none
  | .lineFeed n => name = b!"line-feed" ∧ value = .num n
  | .setX x => name = b!"setx" ∧ value = .num x
  | .setY y => name = b!"sety" ∧ value = .num y
  | .box => name = b!"box" ∧ value = .none
  | .text => name = b!"text" ∧ value = .none
  | .paragraph t => name = b!"paragraph" ∧ value = .str (clearStr t)
  | .lineBreak => name = b!"line-break" ∧ value = .none
  | .pageBreak => name = b!"page-break" ∧ value = .none
  | .textBlock t => name = b!"text-block" ∧ value = .str (clearStr t)
  | .image src => name = b!"image" ∧ value = .str src
  | .table => name = b!"table" ∧ value = .none
  | .tableRow => name = b!"table-row" ∧ value = .none
  | .tableCell cs rs => value = .none ∧
      ∃ a b, name = b!"table-cell colspan=" ++ a ++ b!" rowspan=" ++ b ∧ decInt a = some cs ∧ decInt b = some rs
  | .grid => name = b!"grid" ∧ value = .none
  | .gridRow areas => name = b!"grid-row" ∧ value = .str (join areas b!" ")
  | .gridPart area => name = b!"grid-part" ∧ value = .str area

mutual
/-- An item shows an element: it names it, lists the differences between the zero style and the element's own style applied to
it (none for an element without style), and its items show what is inside. -/
def ShowsElem (cs : Classes) (ji : JsonInts) (o : DiffOrder) : DescItem → Elem → Prop
  | .mk name value diffs items, .mk kind st inside =>
    Says name value kind ∧
    (match st with
      | some st => stylesDiff ji o zeroStyles (st.mutatedStyles cs zeroStyles) = some diffs
      | none => diffs = []) ∧
    ShowsAll cs ji o items inside
/-- Item by item. -/
def ShowsAll (cs : Classes) (ji : JsonInts) (o : DiffOrder) : List DescItem → List Elem → Prop
  | [], [] => True
  | i :: is, e :: es => ShowsElem cs ji o i e ∧ ShowsAll cs ji o is es
  | _, _ => False
end

end Verif.Spec
