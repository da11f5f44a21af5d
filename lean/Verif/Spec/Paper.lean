import Verif.Model.NewFpdf
/-
Paper formats and font faces (C75, C76).
-/
namespace Verif.Spec
open Verif.Go Verif.Model

/-- ISO 216 and the North American formats, in millimeters; A4 unless the name is exactly that of another format. -/
def nominal (format : Str) : ℚ × ℚ :=
  if format = b!"a3" then (297, 420)
  else if format = b!"a5" then (148, 210)
  else if format = b!"letter" then (2159 / 10, 2794 / 10)
  else if format = b!"legal" then (2159 / 10, 3556 / 10)
  else (210, 297)

/-- At most half a millimeter apart. -/
def Near (a b : ℚ) : Prop := b - 1 / 2 ≤ a ∧ a ≤ b + 1 / 2

/-- Two letters that differ only in case. -/
def SameLetter (x y : UInt8) : Prop := x = y ∨ (65 ≤ x ∧ x ≤ 90 ∧ y = x + 32) ∨ (65 ≤ y ∧ y ≤ 90 ∧ x = y + 32)

/-- The same name, up to case. -/
def SameName (a b : Str) : Prop := List.Forall₂ SameLetter a b

/-- Bold and italic, for a registered font and for the font of a style. -/
def faceOfFile (style : Str) : Bool × Bool :=
  if style = b!"bold" then (true, false) else if style = b!"italic" then (false, true) else if style = b!"bold+italic" then (true, true) else (false, false)

def faceOfFont (f : Font) : Bool × Bool := (f.weight = b!"bold", f.style = b!"italic")

/-- A file that brings the font. -/
def Supplies (d : Descriptor) (f : Font) : Prop := SameName d.name f.family ∧ faceOfFile d.style = faceOfFont f

/-- Two files for the same font. -/
def SameFont (d e : Descriptor) : Prop := SameName d.name e.name ∧ faceOfFile d.style = faceOfFile e.style

/-- The file of the font can be read and is a font. -/
def Loads (read : Str → Option Str) (parse : Str → Parsed) (d : Descriptor) : Prop := ∃ bs, read d.filePath = some bs ∧ parse bs = .font

/-- The families every PDF reader has. -/
def Standard (family : Str) : Prop :=
  SameName family b!"courier" ∨ SameName family b!"helvetica" ∨ SameName family b!"arial" ∨ SameName family b!"times" ∨
    SameName family b!"symbol" ∨ SameName family b!"zapfdingbats"

end Verif.Spec
