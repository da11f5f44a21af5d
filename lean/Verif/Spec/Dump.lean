import Verif.Go.Utf8
import Verif.Go.Strconv
/-
Reading XML without attributes, and reading a description back from it.
-/
namespace Verif.Spec
open Verif.Go

/-- An element with its character data (that of inner elements is left out) and its inner elements. -/
inductive XmlNode
  | mk (name text : Str) (kids : List XmlNode)

/-- The character named between `&` and `;`. -/
def entity (e : Str) : Option Nat :=
  if e = b!"amp" then some 38 else if e = b!"lt" then some 60 else if e = b!"gt" then some 62 else if e = b!"quot" then some 34
  else if e = b!"apos" then some 39
  else match e with
    | 35 :: 120 :: ds => digitsVal 16 0 ds
    | 35 :: ds => digitsVal 10 0 ds
    | _ => none

/-- Reading character data: the text so far, and the name of the entity being read. -/
structure Chars where
  text : Str
  ent : Option Str

/-- One byte of character data. -/
def Chars.step (s : Option Chars) (c : UInt8) : Option Chars :=
  match s with
  | none => none
  | some ⟨t, none⟩ => if c = 38 then some ⟨t, some []⟩ else some ⟨t ++ [c], none⟩
  | some ⟨t, some e⟩ => if c = 59 then (entity e).map fun r => ⟨t ++ encodeRune r, none⟩ else some ⟨t, some (e ++ [c])⟩

/-- The text that character data stands for. -/
def chars (s : Str) : Option Str :=
  match s.foldl Chars.step (some ⟨[], none⟩) with
  | some ⟨t, none⟩ => some t
  | _ => none

/-- An element being read: name, character data, inner elements so far. -/
structure Opened where
  name : Str
  raw : Str
  kids : List XmlNode

/-- Reading XML: the tag being read, the innermost element, and those around it. -/
structure Reader where
  tag : Option Str
  top : Opened
  outer : List Opened

/-- The end of a tag. -/
def Reader.endTag (r : Reader) : Str → Option Reader
  | 47 :: name =>
    match r.outer, chars r.top.raw with
    | o :: os, some t => if r.top.name = name then some ⟨none, { o with kids := o.kids ++ [.mk name t r.top.kids] }, os⟩ else none
    | _, _ => none
  | name => some ⟨none, ⟨name, [], []⟩, r.top :: r.outer⟩

/-- One byte. -/
def Reader.step (r : Option Reader) (c : UInt8) : Option Reader :=
  match r with
  | none => none
  | some r =>
    match r.tag with
    | none => if c = 60 then some { r with tag := some [] } else some { r with top := { r.top with raw := r.top.raw ++ [c] } }
    | some n => if c = 62 then r.endTag n else some { r with tag := some (n ++ [c]) }

/-- The element a text consists of. -/
def readXml (s : Str) : Option XmlNode :=
  match s.foldl Reader.step (some ⟨none, ⟨[], [], []⟩, []⟩) with
  | some ⟨none, ⟨_, _, [n]⟩, []⟩ => some n
  | _ => none

/-- An item as it is shown: name, value, style differences (path, value before, value after) and items inside. -/
inductive ShownItem
  | mk (name : Str) (value : Option Str) (diffs : List (Str × Str × Str)) (items : List ShownItem)

/-- The text of the first inner element with a name. -/
def textIn (k : Str) : List XmlNode → Option Str
  | [] => none
  | .mk n t _ :: ns => if n = k then some t else textIn k ns

/-- The style differences among elements. -/
def diffsIn : List XmlNode → List (Str × Str × Str)
  | [] => []
  | .mk n _ ks :: ns =>
    if n = b!"StyleDiffs" then
      ((textIn b!"Path" ks).getD [], (textIn b!"Org" ks).getD [], (textIn b!"Mod" ks).getD []) :: diffsIn ns
    else diffsIn ns

mutual
/-- The item an element shows. -/
def itemIn : XmlNode → ShownItem
  | .mk _ _ ks => .mk ((textIn b!"Name" ks).getD []) (textIn b!"Value" ks) (diffsIn ks) (itemsIn ks)

/-- The items among elements. -/
def itemsIn : List XmlNode → List ShownItem
  | [] => []
  | n :: ns => match n with
    | .mk k t ks => if k = b!"Items" then itemIn (.mk k t ks) :: itemsIn ns else itemsIn ns
end

/-- The items of a description given as XML. -/
def readDescription (s : Str) : Option (List ShownItem) :=
  match readXml s with
  | some (.mk n _ ks) => if n = b!"Description" then some (itemsIn ks) else none
  | none => none

/-- A text as XML can hold it: invalid bytes and characters become U+FFFD. -/
def cleanRune (r : Nat) : Nat :=
  if r = 9 ∨ r = 10 ∨ r = 13 ∨ (32 ≤ r ∧ r ≤ 0xD7FF) ∨ (0xE000 ≤ r ∧ r ≤ 0xFFFD) ∨ (0x10000 ≤ r ∧ r ≤ 0x10FFFF) then r else 0xFFFD

def cleanText (s : Str) : Str := encodeRunes ((decodeRunes s).map cleanRune)

end Verif.Spec
