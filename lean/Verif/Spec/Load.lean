import Verif.Model.Load
/-
What loading a document should give, in terms of the tree of the XML file.
-/
namespace Verif.Spec
open Verif.Go Verif.Model

/-- An XML tree. -/
inductive Node
  | elem (name : Str) (attrs : List Attr) (kids : List Node)
  | chars (text : Str)
  | other

mutual
/-- The tokens of a tree. -/
def Node.toks : Node → List Tok
  | .elem n as kids => .start n as :: (toksAll kids ++ [.close n])
  | .chars t => [.chars t]
  | .other => [.other]
/-- The tokens of a list of trees. -/
def toksAll : List Node → List Tok
  | [] => []
  | nd :: ns => nd.toks ++ toksAll ns
end

/-- The characters directly inside an element. -/
def directText : List Node → Str
  | [] => []
  | .chars t :: ns => t ++ directText ns
  | _ :: ns => directText ns

mutual
/-- Does an element of that name occur, at any depth? -/
def Node.has (name : Str) : Node → Bool
  | .elem n _ kids => n == name || hasAny name kids
  | _ => false
def hasAny (name : Str) : List Node → Bool
  | [] => false
  | nd :: ns => nd.has name || hasAny name ns
end

mutual
/-- The last piece of text at any depth, if there is one. -/
def Node.lastText : Node → Option Str
  | .elem _ _ kids => lastTextAll kids
  | .chars t => some t
  | .other => none
def lastTextAll : List Node → Option Str
  | [] => none
  | nd :: ns => (lastTextAll ns).or nd.lastText
end

/-- The elements that are instructions. -/
def instructionNames : List Str :=
  [b!"font", b!"box", b!"text", b!"lf", b!"setx", b!"sety", b!"image", b!"table", b!"tr", b!"td", b!"grid", b!"gr", b!"part", b!"p",
   b!"br", b!"newpage"]

/-- What becomes of an element where an instruction is expected. -/
inductive Outcome
  /-- It is read as this instruction. -/
  | ok (i : Instr)
  /-- It is not valid and gives nothing, but the reading can go on after it. -/
  | dropped
  /-- It is not valid; its start is passed over and the reading can go on inside it. -/
  | opened
  /-- The document cannot be loaded. -/
  | fatal

/-- From a value or an error after the whole element. -/
def Outcome.of : Option Instr → Outcome
  | some i => .ok i
  | none => .dropped

/-- From a value or an error before the contents. -/
def Outcome.ofAttr : Option Instr → Outcome
  | some i => .ok i
  | none => .opened

mutual
/-- What becomes of a tree where an instruction is expected (`opened` for text). -/
def outcome (fl : Floats) (ord : Nat → MapOrder) : Node → Outcome
  | .chars _ => .opened
  | .other => .opened
  | .elem name attrs kids =>
    if name = b!"font" then .of ((newStyled fl ord attrs).map .font)
    else if name = b!"image" then .of ((newStyled fl ord attrs).map (.image · (directText kids)))
    else if name = b!"p" then .of ((newStyled fl ord attrs).map (.paragraph · (directText kids)))
    else if name = b!"br" then .ok .lineBreak
    else if name = b!"newpage" then .ok .pageBreak
    else if name = b!"lf" then .ofAttr ((floatAttr fl b!"lines" attrs 0).map .lineFeed)
    else if name = b!"setx" then .ofAttr ((floatAttr fl b!"x" attrs 0).map .setX)
    else if name = b!"sety" then .ofAttr ((floatAttr fl b!"y" attrs 0).map .setY)
    else if name = b!"box" then
      match newStyled fl ord attrs, strictly fl ord true kids with
      | some st, some iss => .ok (.box st iss)
      | _, _ => .fatal
    else if name = b!"text" then
      match newStyled fl ord attrs, strictly fl ord true kids with
      | some st, some iss => .ok (.text st iss)
      | _, _ => .fatal
    else if name = b!"table" then
      match strictly fl ord false kids with
      | none => .fatal
      | some iss => .of ((tableDecodeAttrs fl ord attrs).map fun x => .table x.2 x.1 (rowsOf iss))
    else if name = b!"tr" then
      match strictly fl ord false kids with
      | none => .fatal
      | some iss => .of ((newStyled fl ord attrs).map fun st => .tableRow (.mk st (cellsOf iss)))
    else if name = b!"td" then
      match leniently fl ord true kids with
      | none => .fatal
      | some iss => .of ((cellDecodeAttrs fl ord attrs).map fun x => .tableCell (.mk x.2.2 x.1 x.2.1 iss))
    else if name = b!"grid" then
      match leniently fl ord false kids with
      | none => .fatal
      | some iss =>
        if gridValidate ((gridRowsOf iss).map (·.2)) ((partsOf iss).map (·.area)) then
          .of ((newStyled fl ord attrs).map (.grid · (gridRowsOf iss) (partsOf iss)))
        else .dropped
    else if name = b!"gr" then
      if hasAny b!"gr" kids then .fatal
      else .of ((newStyled fl ord attrs).map (.gridRow · (match lastTextAll kids with | some t => split 32 t | none => [])))
    else if name = b!"part" then
      match leniently fl ord false kids with
      | none => .fatal
      | some iss => .of ((partDecodeAttrs fl ord attrs).map fun x => .gridPart (.mk x.2 x.1 iss))
    else .opened
/-- The contents of a body, header, footer, box, text, table or tr: every element must be an instruction. -/
def strictly (fl : Floats) (ord : Nat → MapOrder) (texts : Bool) : List Node → Option (List Instr)
  | [] => some []
  | .chars t :: ns =>
    (strictly fl ord texts ns).map fun r => if texts ∧ t ≠ [] then .textBlock t :: r else r
  | .other :: ns => strictly fl ord texts ns
  | .elem name attrs kids :: ns =>
    match outcome fl ord (.elem name attrs kids) with
    | .ok i => (strictly fl ord texts ns).map (i :: ·)
    | _ => none
/-- The contents of a td, grid or part: what is no instruction is passed over, as far as possible. -/
def leniently (fl : Floats) (ord : Nat → MapOrder) (texts : Bool) : List Node → Option (List Instr)
  | [] => some []
  | .chars t :: ns =>
    (leniently fl ord texts ns).map fun r => if texts ∧ t ≠ [] then .textBlock t :: r else r
  | .other :: ns => leniently fl ord texts ns
  | .elem name attrs kids :: ns =>
    match outcome fl ord (.elem name attrs kids) with
    | .ok i => (leniently fl ord texts ns).map (i :: ·)
    | .dropped => leniently fl ord texts ns
    | .opened =>
      match leniently fl ord texts kids with
      | none => none
      | some iss => (leniently fl ord texts ns).map (iss ++ ·)
    | .fatal => none
end

/-- The elements directly inside, in order. -/
def elems : List Node → List (Str × List Attr × List Node)
  | [] => []
  | .elem n as kids :: ns => (n, as, kids) :: elems ns
  | _ :: ns => elems ns

/-- The contents of all inner elements with that name, one after the other. -/
def inside (name : Str) (ns : List Node) : List Node := ((elems ns).filter (·.1 = name)).flatMap (·.2.2)

/-- The text of the last inner element with that name. -/
def textOf (name : Str) (ns : List Node) : Str :=
  (((elems ns).filter (·.1 = name)).map fun e => directText e.2.2).getLastD []

/-- The number in the last inner element with that name, 0 if there is none; there must be a number in each of them. -/
def numberOf (fl : Floats) (name : Str) (ns : List Node) : Option ℚ :=
  (((elems ns).filter (·.1 = name)).mapM fun e => floatValue fl (directText e.2.2)).map (·.getLastD 0)

/-- The instructions of one header, footer or body: its style and class attributes must be valid, though they have no effect. -/
def contents (fl : Floats) (ord : Nat → MapOrder) (attrs : List Attr) (kids : List Node) : Option (List Instr) :=
  if (newStyled fl ord attrs).isSome then strictly fl ord true kids else none

/-- The instructions of all headers, footers or bodies. -/
def section_ (fl : Floats) (ord : Nat → MapOrder) (name : Str) (ns : List Node) : Option (List Instr) :=
  (((elems ns).filter (·.1 = name)).mapM fun e => contents fl ord e.2.1 e.2.2).map List.flatten

/-- The document with these contents. -/
def loaded (fl : Floats) (ord sheetOrd : Nat → MapOrder) (ns : List Node) : Option Document := do
  let info := inside b!"meta" ns
  let page := inside b!"page" ns
  let margins := inside b!"margins" page
  let left ← numberOf fl b!"left" margins
  let top ← numberOf fl b!"top" margins
  let right ← numberOf fl b!"right" margins
  let bottom ← numberOf fl b!"bottom" margins
  let header ← section_ fl ord b!"header" ns
  let footer ← section_ fl ord b!"footer" ns
  let body ← section_ fl ord b!"body" ns
  let classes ← decodeClasses fl sheetOrd (textOf b!"style" ns)
  pure ⟨⟨textOf b!"author" info, textOf b!"creator" info, textOf b!"subject" info⟩,
    ⟨textOf b!"orientation" page, textOf b!"format" page, ⟨left, top, right, bottom⟩⟩, header, footer, body, classes⟩

/-- The tokens that may stand before the document. -/
def isMisc : Tok → Bool
  | .chars _ => true
  | .other => true
  | _ => false

/-! ### The XML of an instruction tree -/

mutual
/-- The node is the XML of the instruction.  Attributes are written in any way that has the meaning wanted. -/
inductive IsXml (fl : Floats) (ord : Nat → MapOrder) : Node → Instr → Prop
  | font {as st} : newStyled fl ord as = some st → IsXml fl ord (.elem b!"font" as []) (.font st)
  | lineFeed {as x} : floatAttr fl b!"lines" as 0 = some x → IsXml fl ord (.elem b!"lf" as []) (.lineFeed x)
  | setX {as x} : floatAttr fl b!"x" as 0 = some x → IsXml fl ord (.elem b!"setx" as []) (.setX x)
  | setY {as x} : floatAttr fl b!"y" as 0 = some x → IsXml fl ord (.elem b!"sety" as []) (.setY x)
  | image {as st t} : newStyled fl ord as = some st → IsXml fl ord (.elem b!"image" as [.chars t]) (.image st t)
  | paragraph {as st t} : newStyled fl ord as = some st → IsXml fl ord (.elem b!"p" as [.chars t]) (.paragraph st t)
  | lineBreak {as} : IsXml fl ord (.elem b!"br" as []) .lineBreak
  | pageBreak {as} : IsXml fl ord (.elem b!"newpage" as []) .pageBreak
  | box {as st kids iss} : newStyled fl ord as = some st → AreXml fl ord false true kids iss →
      IsXml fl ord (.elem b!"box" as kids) (.box st iss)
  | text {as st kids iss} : newStyled fl ord as = some st → AreXml fl ord false true kids iss →
      IsXml fl ord (.elem b!"text" as kids) (.text st iss)
  | table {as rh st kids rows} : tableDecodeAttrs fl ord as = some (rh, st) → AreXml fl ord false false kids (rows.map .tableRow) →
      IsXml fl ord (.elem b!"table" as kids) (.table st rh rows)
  | row {as st kids cells} : newStyled fl ord as = some st → AreXml fl ord false false kids (cells.map .tableCell) →
      IsXml fl ord (.elem b!"tr" as kids) (.tableRow (.mk st cells))
  | cell {as cs rs st kids iss} : cellDecodeAttrs fl ord as = some (cs, rs, st) → AreXml fl ord true true kids iss →
      IsXml fl ord (.elem b!"td" as kids) (.tableCell (.mk st cs rs iss))
  | grid {as st kids} {rows : List (Styled × List Str)} {parts : List GridPart} : newStyled fl ord as = some st →
      AreXml fl ord true false kids (rows.map (fun r => .gridRow r.1 r.2) ++ parts.map .gridPart) →
      gridValidate (rows.map (·.2)) (parts.map (·.area)) = true →
      IsXml fl ord (.elem b!"grid" as kids) (.grid st rows parts)
  | gridRow {as st t} : newStyled fl ord as = some st → IsXml fl ord (.elem b!"gr" as [.chars t]) (.gridRow st (split 32 t))
  | gridPart {as area st kids iss} : partDecodeAttrs fl ord as = some (area, st) → AreXml fl ord true false kids iss →
      IsXml fl ord (.elem b!"part" as kids) (.gridPart (.mk st area iss))
/-- The nodes are the XML of the instructions, in an element that passes over unknown elements (`lenient`) and knows text
(`texts`). -/
inductive AreXml (fl : Floats) (ord : Nat → MapOrder) : Bool → Bool → List Node → List Instr → Prop
  | nil {lenient texts} : AreXml fl ord lenient texts [] []
  | text {lenient t ns iss} : t ≠ [] → AreXml fl ord lenient true ns iss →
      AreXml fl ord lenient true (.chars t :: ns) (.textBlock t :: iss)
  /-- for example white space between the rows of a table -/
  | space {lenient t ns iss} : AreXml fl ord lenient false ns iss → AreXml fl ord lenient false (.chars t :: ns) iss
  | comment {lenient texts ns iss} : AreXml fl ord lenient texts ns iss → AreXml fl ord lenient texts (.other :: ns) iss
  | elem {lenient texts m as kids i ns iss} : IsXml fl ord (.elem m as kids) i → AreXml fl ord lenient texts ns iss →
      AreXml fl ord lenient texts (.elem m as kids :: ns) (i :: iss)
  /-- for example `<rows>` and `<parts>` in a grid -/
  | wrapped {texts m as kids ns iss jss} : m ∉ instructionNames → AreXml fl ord true texts kids iss →
      AreXml fl ord true texts ns jss → AreXml fl ord true texts (.elem m as kids :: ns) (iss ++ jss)
end

/-! ### Unknown elements -/

/-- The elements with instructions inside. -/
inductive Contains : Bool → Str → Prop
  | box : Contains false b!"box"
  | text : Contains false b!"text"
  | table : Contains false b!"table"
  | row : Contains false b!"tr"
  | cell : Contains true b!"td"
  | grid : Contains true b!"grid"
  | part : Contains true b!"part"

/-- Somewhere in these contents, where instructions are expected, stands a node with the property `P`.  The `Bool`s say whether
the contents are those of a td, grid or part. -/
inductive Somewhere (P : Bool → Node → Prop) : Bool → List Node → Prop
  | here {lenient pre nd post} : P lenient nd → Somewhere P lenient (pre ++ nd :: post)
  | within {lenient inner c pre as kids post} : Contains inner c → Somewhere P inner kids →
      Somewhere P lenient (pre ++ .elem c as kids :: post)
  | wrapped {m pre as kids post} : m ∉ instructionNames → Somewhere P true kids → Somewhere P true (pre ++ .elem m as kids :: post)

/-- An unknown element directly in a body, header, footer, box, text, table or tr. -/
inductive Misplaced : Bool → Node → Prop
  | unknown {m as kids} : m ∉ instructionNames → Misplaced false (.elem m as kids)

/-- A box or text whose style cannot be read. -/
inductive BadBox (fl : Floats) (ord : Nat → MapOrder) : Bool → Node → Prop
  | box {lenient as kids} : newStyled fl ord as = none → BadBox fl ord lenient (.elem b!"box" as kids)
  | text {lenient as kids} : newStyled fl ord as = none → BadBox fl ord lenient (.elem b!"text" as kids)

/-- The second list is the first one with the contents of a td, grid or part somewhere inside changed as `R` says. -/
inductive Changed (R : List Node → List Node → Prop) : Bool → List Node → List Node → Prop
  | here {ns ns'} : R ns ns' → Changed R true ns ns'
  | within {lenient inner c pre as kids kids' post} : Contains inner c → Changed R inner kids kids' →
      Changed R lenient (pre ++ .elem c as kids :: post) (pre ++ .elem c as kids' :: post)
  | wrapped {m pre as kids kids' post} : m ∉ instructionNames → Changed R true kids kids' →
      Changed R true (pre ++ .elem m as kids :: post) (pre ++ .elem m as kids' :: post)

/-- The start and end tags of an unknown element are left out. -/
inductive Unwraps : List Node → List Node → Prop
  | mk {pre m as kids post} : m ∉ instructionNames → Unwraps (pre ++ .elem m as kids :: post) (pre ++ (kids ++ post))

/-- An instruction that is not valid is left out: a font, p or image whose style cannot be read, or a grid that is not valid. -/
inductive Drops (fl : Floats) (ord : Nat → MapOrder) : List Node → List Node → Prop
  | leaf {pre m as kids post} : m = b!"font" ∨ m = b!"p" ∨ m = b!"image" → newStyled fl ord as = none →
      Drops fl ord (pre ++ .elem m as kids :: post) (pre ++ post)
  | grid {pre as kids post} {rows : List (Styled × List Str)} {parts : List GridPart} :
      AreXml fl ord true false kids (rows.map (fun r => .gridRow r.1 r.2) ++ parts.map .gridPart) →
      gridValidate (rows.map (·.2)) (parts.map (·.area)) = false →
      Drops fl ord (pre ++ .elem b!"grid" as kids :: post) (pre ++ post)

end Verif.Spec
