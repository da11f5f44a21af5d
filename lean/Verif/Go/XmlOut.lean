import Verif.Go.Utf8
/-
The part of Go's encoding/xml that xdoc uses for output: MarshalIndent with the prefix "" and the indent "  " of structs without
attributes.  Written from knowledge of the Go standard library; part of the trusted base.
-/
namespace Verif.Go

/-- `isInCharacterRange`. -/
def xmlChar (r : Nat) : Bool :=
  r == 0x09 || r == 0x0A || r == 0x0D || (0x20 ≤ r && r ≤ 0xD7FF) || (0xE000 ≤ r && r ≤ 0xFFFD) || (0x10000 ≤ r && r ≤ 0x10FFFF)

/-- `printer.EscapeString`: one rune. -/
def xmlEscapeRune (r : Nat) : Str :=
  if r = 34 then b!"&#34;" else if r = 39 then b!"&#39;" else if r = 38 then b!"&amp;" else if r = 60 then b!"&lt;"
  else if r = 62 then b!"&gt;" else if r = 9 then b!"&#x9;" else if r = 10 then b!"&#xA;" else if r = 13 then b!"&#xD;"
  else if xmlChar r then encodeRune r else encodeRune runeError

/-- `printer.EscapeString`. -/
def xmlEscape (s : Str) : Str := (decodeRunes s).flatMap xmlEscapeRune

/-- What `printer.marshalValue` writes: an element with character data, or an element of a struct with the elements of its fields. -/
inductive XmlOut
  | leaf (name text : Str)
  | node (name : Str) (kids : List XmlOut)

/-- `printer.writeIndent`: the spaces at a depth. -/
def xmlIndent (depth : Nat) : Str := List.replicate (2 * depth) 32

mutual
/-- `printer.marshalValue` with `writeIndent`: an element, without the newline before it.  The end tag goes onto a line of its own if
there are elements inside. -/
def xmlPrint (depth : Nat) : XmlOut → Str
  | .leaf name text => xmlIndent depth ++ b!"<" ++ name ++ b!">" ++ xmlEscape text ++ b!"</" ++ name ++ b!">"
  | .node name kids =>
    xmlIndent depth ++ b!"<" ++ name ++ b!">" ++ xmlPrintAll (depth + 1) kids ++
      (if kids.isEmpty then [] else b!"\n" ++ xmlIndent depth) ++ b!"</" ++ name ++ b!">"

/-- The elements inside, each on a new line. -/
def xmlPrintAll (depth : Nat) : List XmlOut → Str
  | [] => []
  | x :: xs => b!"\n" ++ xmlPrint depth x ++ xmlPrintAll depth xs
end

end Verif.Go
