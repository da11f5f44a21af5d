import Verif.Go.Xml
import Verif.Model.Doc
import Verif.Model.Attrs
import Verif.Model.Grid
/-
Model of loading a document: /repo/xdoc/doc.go, registry.go and the UnmarshalXML methods of instructions.go, table.go and
grid.go.  A result is the value (`none` is an error) and the state of the decoder, which matters after an error too, because
TableCell, Grid and GridPart carry on with it.

Simplifications: see Verif/Go/Xml.lean; elements `Mutators` and `Classes` inside font, image and p (encoding/xml would decode
them into the fields of Styled) are skipped like other elements; the iteration order of maps is the same `ord` for all
attributes of a document (it does not matter, C13).
-/
namespace Verif.Model
open Verif.Go

/-- encoding/xml copyValue for a float64: empty is 0, otherwise ParseFloat of the text without surrounding white space. -/
def floatValue (fl : Floats) (s : Str) : Option ℚ := if s = [] then some 0 else fl.parseFloat (trimWhite s)

/-- The attributes of an element decoded by reflection into a float64 field tagged `name,attr`, starting from 0. -/
def floatAttr (fl : Floats) (name : Str) : List Attr → ℚ → Option ℚ
  | [], x => some x
  | (n, v) :: as, x =>
    if n = name then
      match floatValue fl v with
      | none => none
      | some y => floatAttr fl name as y
    else floatAttr fl name as x

/-- xdoc/style.go:17-30, DecodeAttrs of a new Styled. -/
def newStyled (fl : Floats) (ord : Nat → MapOrder) (attrs : List Attr) : Option Styled := Styled.decodeAttrs fl ord attrs ⟨[], []⟩

/-- How the token loop of an UnmarshalXML method treats the contents. -/
structure Policy where
  /-- `continue` after a child that cannot be decoded, or return the error -/
  lenient : Bool
  /-- make a TextBlock of character data -/
  texts : Bool

/-- xdoc/instructions.go:26-50 -/
def instructionsPolicy : Policy := ⟨false, true⟩
/-- xdoc/table.go:68-88 -/
def tablePolicy : Policy := ⟨false, false⟩
/-- xdoc/table.go:92-112 -/
def rowPolicy : Policy := ⟨false, false⟩
/-- xdoc/table.go:116-139 -/
def cellPolicy : Policy := ⟨true, true⟩
/-- xdoc/grid.go:53-75 -/
def gridPolicy : Policy := ⟨true, false⟩
/-- xdoc/grid.go:109-126 -/
def partPolicy : Policy := ⟨true, false⟩

/-- What a token loop gets: the policy, the name of the element, the instructions so far and the decoder. -/
abbrev Loop := Policy → Str → List Instr → Decoder → Option (List Instr) × Decoder

/-- xdoc/table.go:83-86, the rows among the children. -/
def rowsOf (iss : List Instr) : List TableRow := iss.filterMap fun | .tableRow r => some r | _ => none
/-- xdoc/table.go:107-110, the cells among the children. -/
def cellsOf (iss : List Instr) : List TableCell := iss.filterMap fun | .tableCell c => some c | _ => none
/-- xdoc/grid.go:72-73 -/
def gridRowsOf (iss : List Instr) : List (Styled × List Str) := iss.filterMap fun | .gridRow st as => some (st, as) | _ => none
/-- xdoc/grid.go:70-71 -/
def partsOf (iss : List Instr) : List GridPart := iss.filterMap fun | .gridPart p => some p | _ => none

/-- xdoc/registry.go:80-86: the decoded element, then DecodeAttrs. -/
def andThen {α β : Type} (x : Option α × Decoder) (f : α → Option β) : Option β × Decoder := (x.1.bind f, x.2)

/-- xdoc/instructions.go:21-51, Instructions.UnmarshalXML; the Styled decoded in lines 22-25 is the one of Instructions. -/
def unmarshalInstructions (fl : Floats) (ord : Nat → MapOrder) (loop : Loop) (name : Str) (attrs : List Attr) (d : Decoder) :
    Option (List Instr) × Decoder :=
  match newStyled fl ord attrs with
  | none => (none, d)
  | some _ => loop instructionsPolicy name [] d

/-- xdoc/grid.go:79-95, the loop of GridRow.UnmarshalXML: other elements inside are not decoded, but their characters and the end of
an inner `gr` are seen.  strings.Split at " " never returns an empty slice. -/
def gridRowLoop : Nat → Str → List Str → Decoder → Option (List Str) × Decoder
  | 0, _, _, d => (none, d)
  | n + 1, name, areas, d =>
    match d.token with
    | (none, d) => (none, d)
    | (some (.close m), d) => if m = name then (some areas, d) else gridRowLoop n name areas d
    | (some (.chars t), d) => gridRowLoop n name (split 32 t) d
    | (some (.start _ _), d) => gridRowLoop n name areas d
    | (some .other, d) => gridRowLoop n name areas d

/-- xdoc/grid.go:78-96, GridRow.UnmarshalXML. -/
def unmarshalGridRow (name : Str) (d : Decoder) : Option (List Str) × Decoder := gridRowLoop (d.rest.length + 1) name [] d

/-- xdoc/grid.go:52-76, Grid.UnmarshalXML. -/
def unmarshalGrid (loop : Loop) (name : Str) (d : Decoder) : Option (List Instr) × Decoder :=
  andThen (loop gridPolicy name [] d) fun iss =>
    if gridValidate ((gridRowsOf iss).map (·.2)) ((partsOf iss).map (·.area)) then some iss else none

/-- xdoc/registry.go:68-86, DecodeInstruction, with the instructions registered in lines 13-33; the start of the element has been
read.  `loop` is the token loop for the inner elements. -/
def decodeInstruction (fl : Floats) (ord : Nat → MapOrder) (loop : Loop) (name : Str) (attrs : List Attr) (d : Decoder) :
    Option Instr × Decoder :=
  if name = b!"font" then andThen (leaf d) fun _ => (newStyled fl ord attrs).map .font
  else if name = b!"box" then
    andThen (unmarshalInterface (unmarshalInstructions fl ord loop name attrs) d) fun iss => (newStyled fl ord attrs).map (.box · iss)
  else if name = b!"text" then
    andThen (unmarshalInterface (unmarshalInstructions fl ord loop name attrs) d) fun iss => (newStyled fl ord attrs).map (.text · iss)
  else if name = b!"lf" then
    match floatAttr fl b!"lines" attrs 0 with
    | none => (none, d)
    | some x => andThen (leaf d) fun _ => some (.lineFeed x)
  else if name = b!"setx" then
    match floatAttr fl b!"x" attrs 0 with
    | none => (none, d)
    | some x => andThen (leaf d) fun _ => some (.setX x)
  else if name = b!"sety" then
    match floatAttr fl b!"y" attrs 0 with
    | none => (none, d)
    | some x => andThen (leaf d) fun _ => some (.setY x)
  else if name = b!"image" then andThen (leaf d) fun data => (newStyled fl ord attrs).map (.image · data)
  else if name = b!"table" then
    andThen (unmarshalInterface (loop tablePolicy name []) d) fun iss =>
      (tableDecodeAttrs fl ord attrs).map fun x => .table x.2 x.1 (rowsOf iss)
  else if name = b!"tr" then
    andThen (unmarshalInterface (loop rowPolicy name []) d) fun iss => (newStyled fl ord attrs).map fun st => .tableRow (.mk st (cellsOf iss))
  else if name = b!"td" then
    andThen (unmarshalInterface (loop cellPolicy name []) d) fun iss =>
      (cellDecodeAttrs fl ord attrs).map fun x => .tableCell (.mk x.2.2 x.1 x.2.1 iss)
  else if name = b!"grid" then
    andThen (unmarshalInterface (unmarshalGrid loop name) d) fun iss => (newStyled fl ord attrs).map (.grid · (gridRowsOf iss) (partsOf iss))
  else if name = b!"gr" then
    andThen (unmarshalInterface (unmarshalGridRow name) d) fun areas => (newStyled fl ord attrs).map (.gridRow · areas)
  else if name = b!"part" then
    andThen (unmarshalInterface (loop partPolicy name []) d) fun iss =>
      (partDecodeAttrs fl ord attrs).map fun x => .gridPart (.mk x.2 x.1 iss)
  else if name = b!"p" then andThen (leaf d) fun data => (newStyled fl ord attrs).map (.paragraph · data)
  else if name = b!"br" then andThen (leaf d) fun _ => some .lineBreak
  else if name = b!"newpage" then andThen (leaf d) fun _ => some .pageBreak
  else (none, d)

/-- The token loops of xdoc/instructions.go:26-50, xdoc/table.go:68-88, 92-112, 116-139 and xdoc/grid.go:53-75, 109-126.  The first argument
bounds the number of tokens read by the loop and the depth of the elements inside. -/
def childLoop (fl : Floats) (ord : Nat → MapOrder) : Nat → Loop
  | 0 => fun _ _ _ d => (none, d)
  | n + 1 => fun pol name acc d =>
    match d.token with
    | (none, d) => (none, d)
    | (some (.close m), d) => if m = name then (some acc, d) else childLoop fl ord n pol name acc d
    | (some (.start m attrs), d) =>
      match decodeInstruction fl ord (childLoop fl ord n) m attrs d with
      | (some i, d) => childLoop fl ord n pol name (acc ++ [i]) d
      | (none, d) => if pol.lenient then childLoop fl ord n pol name acc d else (none, d)
    | (some (.chars t), d) =>
      childLoop fl ord n pol name (if pol.texts && t != [] then acc ++ [.textBlock t] else acc) d
    | (some .other, d) => childLoop fl ord n pol name acc d

/-- A header, footer or body decoded as a field of Document. -/
def unmarshalField (fl : Floats) (ord : Nat → MapOrder) (name : Str) (attrs : List Attr) (d : Decoder) :
    Option (List Instr) × Decoder :=
  unmarshalInterface (unmarshalInstructions fl ord (childLoop fl ord (d.rest.length + 1)) name attrs) d

/-- The loop of `Decoder.unmarshal` for a struct: `field` decodes an inner element that has a field and gives the new value of
the struct; character data has no field.  The first argument bounds the number of tokens. -/
def structLoop {σ : Type} (field : Str → List Attr → σ → Decoder → Option σ × Decoder) : Nat → σ → Decoder → Option σ × Decoder
  | 0, _, d => (none, d)
  | n + 1, s, d =>
    match d.token with
    | (none, d) => (none, d)
    | (some (.close _), d) => (some s, d)
    | (some (.start m attrs), d) =>
      match field m attrs s d with
      | (none, d) => (none, d)
      | (some s, d) => structLoop field n s d
    | (some (.chars _), d) => structLoop field n s d
    | (some .other, d) => structLoop field n s d

/-- The content of an element decoded into a struct. -/
def struct {σ : Type} (field : Str → List Attr → σ → Decoder → Option σ × Decoder) (s : σ) (d : Decoder) : Option σ × Decoder :=
  structLoop field (d.rest.length + 1) s d

/-- xdoc/doc.go:63-68, the fields of Meta; an element without a field is skipped. -/
def metaField (name : Str) (_ : List Attr) (x : Meta) (d : Decoder) : Option Meta × Decoder :=
  andThen (leaf d) fun t =>
    if name = b!"author" then some { x with author := t }
    else if name = b!"creator" then some { x with creator := t }
    else if name = b!"subject" then some { x with subject := t }
    else some x

/-- xdoc/doc.go:70-76, the fields of Margins. -/
def marginField (fl : Floats) (name : Str) (_ : List Attr) (x : Margins) (d : Decoder) : Option Margins × Decoder :=
  andThen (leaf d) fun t =>
    if name = b!"left" then (floatValue fl t).map fun v => { x with left := v }
    else if name = b!"top" then (floatValue fl t).map fun v => { x with top := v }
    else if name = b!"right" then (floatValue fl t).map fun v => { x with right := v }
    else if name = b!"bottom" then (floatValue fl t).map fun v => { x with bottom := v }
    else some x

/-- xdoc/doc.go:78-83, the fields of Page. -/
def pageField (fl : Floats) (name : Str) (_ : List Attr) (x : DocPage) (d : Decoder) : Option DocPage × Decoder :=
  if name = b!"orientation" then andThen (leaf d) fun t => some { x with orientation := t }
  else if name = b!"format" then andThen (leaf d) fun t => some { x with format := t }
  else if name = b!"margins" then andThen (struct (marginField fl) x.margins d) fun m => some { x with margins := m }
  else andThen (leaf d) fun _ => some x

/-- xdoc/doc.go:52-61, the fields of Document filled by the decoder. -/
structure RawDoc where
  info : Meta
  page : DocPage
  style : Str
  header : List Instr
  footer : List Instr
  body : List Instr

/-- xdoc/doc.go:52-61.  Instructions.UnmarshalXML appends, so a second header, footer or body adds to the first. -/
def docField (fl : Floats) (ord : Nat → MapOrder) (name : Str) (attrs : List Attr) (x : RawDoc) (d : Decoder) :
    Option RawDoc × Decoder :=
  if name = b!"meta" then andThen (struct metaField x.info d) fun v => some { x with info := v }
  else if name = b!"page" then andThen (struct (pageField fl) x.page d) fun v => some { x with page := v }
  else if name = b!"style" then andThen (leaf d) fun t => some { x with style := t }
  else if name = b!"header" then andThen (unmarshalField fl ord name attrs d) fun v => some { x with header := x.header ++ v }
  else if name = b!"footer" then andThen (unmarshalField fl ord name attrs d) fun v => some { x with footer := x.footer ++ v }
  else if name = b!"body" then andThen (unmarshalField fl ord name attrs d) fun v => some { x with body := x.body ++ v }
  else andThen (leaf d) fun _ => some x

/-- The zero value of Document. -/
def emptyDoc : RawDoc := ⟨⟨[], [], []⟩, ⟨[], [], ⟨0, 0, 0, 0⟩⟩, [], [], [], []⟩

/-- `Decoder.unmarshal` without a start element: looks for the first one; its name must be that of XMLName (xdoc/doc.go:53). -/
def decodeRoot (fl : Floats) (ord : Nat → MapOrder) : Nat → Decoder → Option RawDoc × Decoder
  | 0, d => (none, d)
  | n + 1, d =>
    match d.token with
    | (none, d) => (none, d)
    | (some (.start name _), d) => if name = b!"document" then struct (docField fl ord) emptyDoc d else (none, d)
    | (some _, d) => decodeRoot fl ord n d

/-- xdoc/doc.go:13-24, Load, from the tokens of the file; `sheetOrd` is the map order used for the style sheet. -/
def load (fl : Floats) (ord sheetOrd : Nat → MapOrder) (toks : List Tok) : Option Document :=
  match (decodeRoot fl ord (toks.length + 1) ⟨[], toks⟩).1 with
  | none => none
  | some x => (decodeClasses fl sheetOrd x.style).map fun cs => ⟨x.info, x.page, x.header, x.footer, x.body, cs⟩

end Verif.Model
