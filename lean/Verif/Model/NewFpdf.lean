import Verif.Model.Fpdf
import Verif.Model.Fonts
import Verif.Model.Doc
/-
Model of the construction of the engine, /repo/engine/fpdf.go:14-115: page size and fonts.

The parts of the library gofpdf that are used here are modelled from its documentation and source: the page sizes it knows, how it names
fonts, and which fonts it finds.  Simplified: names of families are lower-cased for ASCII only.
-/
namespace Verif.Model
open Verif.Go

/-- engine/fpdf.go:14-22 -/
def fpdfOrientation (o : Str) : Str := if o = b!"portrait" then b!"P" else if o = b!"landscape" then b!"L" else []

/-- engine/fpdf.go:24-39 -/
def fpdfFormat (f : Str) : Str :=
  if f = b!"a3" then b!"A3" else if f = b!"a4" then b!"A4" else if f = b!"a5" then b!"A5" else if f = b!"letter" then b!"Letter"
  else if f = b!"legal" then b!"Legal" else b!"A4"

/-- engine/fpdf.go:41-56 -/
def fpdfFontStyle (f : Font) : Str :=
  (if f.style = b!"italic" then b!"I" else []) ++ (if f.weight = b!"bold" then b!"B" else []) ++
    (if f.decoration = b!"underline" then b!"U" else [])

/-! ### The library -/

/-- `strings.ToLower`, ASCII only. -/
def lowerAscii (s : Str) : Str := s.map fun c => if 65 ≤ c ∧ c ≤ 90 then c + 32 else c

/-- Library: the page sizes, in points. -/
def libPageSize (size : Str) : Option (ℚ × ℚ) :=
  let size := lowerAscii size
  if size = b!"a3" then some (84189 / 100, 119055 / 100)
  else if size = b!"a4" then some (59528 / 100, 84189 / 100)
  else if size = b!"a5" then some (42094 / 100, 59528 / 100)
  else if size = b!"letter" then some (612, 792)
  else if size = b!"legal" then some (612, 1008)
  else none

/-- Library: what of its state matters here.  Fonts are kept by their keys. -/
structure Lib where
  width : ℚ
  height : ℚ
  margins : Margins
  fonts : List Str

/-- Library: New, with the unit mm; a point is 127/360 mm. -/
def libNew (orientation size : Str) : Option Lib :=
  match libPageSize size with
  | none => none
  | some (w, h) =>
    let w := w * (127 / 360)
    let h := h * (127 / 360)
    let o := lowerAscii orientation
    if o = [] ∨ o = b!"p" ∨ o = b!"portrait" then some { width := w, height := h, margins := ⟨0, 0, 0, 0⟩, fonts := [] }
    else if o = b!"l" ∨ o = b!"landscape" then some { width := h, height := w, margins := ⟨0, 0, 0, 0⟩, fonts := [] }
    else none

/-- Library: the name of a family, with spaces escaped and in lower case. -/
def libFamily (family : Str) : Str := lowerAscii (replaceAll [32] b!"#20" family)

/-- Library: the key of a font. -/
def libKey (family style : Str) : Str := libFamily family ++ (if style = b!"IB" then b!"BI" else style)

/-- Library: what it makes of the bytes of a font file: a font, nothing (it prints a message and carries on), or an error. -/
inductive Parsed where
  | font
  | ignored
  | refused
deriving DecidableEq

/-- Library: AddUTF8FontFromBytes; a font that is known already is not read again.  `none` is an error. -/
def libAddFont (parse : Str → Parsed) (family style bytes : Str) (l : Lib) : Option Lib :=
  if libKey family style ∈ l.fonts then some l
  else
    match parse bytes with
    | .font => some { l with fonts := l.fonts ++ [libKey family style] }
    | .ignored => some l
    | .refused => none

/-- Library: SetMargins, SetAutoPageBreak; a negative margin on the right stands for that on the left. -/
def libMargins (m : Margins) : Margins := if m.right < 0 then { m with right := m.left } else m

/-- Library: the core fonts; arial is another name of helvetica. -/
def libCore : List Str := [b!"courier", b!"helvetica", b!"times", b!"symbol", b!"zapfdingbats"]

/-- Library: whether SetFont finds a font.  (An empty family stands for the current one and is not considered here.) -/
def libFinds (l : Lib) (family style : Str) : Bool :=
  let style := replaceAll b!"U" [] style
  libKey family style ∈ l.fonts ∨ (if libFamily family = b!"arial" then b!"helvetica" else libFamily family) ∈ libCore

/-! ### The engine -/

/-- engine/fpdf.go:98-108 -/
def faceOf (style : Str) : Str :=
  if style = b!"bold" then b!"B" else if style = b!"italic" then b!"I" else if style = b!"bold+italic" then b!"BI" else []

/-- engine/fpdf.go:93-114, the function given to Each.  `read` is ioutil.ReadFile. -/
def addFont (read : Str → Option Str) (parse : Str → Parsed) (fd : Descriptor) (l : Lib) : Lib × Option Unit :=
  match read fd.filePath with
  | none => (l, some ())
  | some bs =>
    match libAddFont parse fd.name (faceOf fd.style) bs l with
    | none => (l, some ())
    | some l' => (l', none)

/-- engine/fpdf.go:64-85 (with initFonts, 87-115), NewFPDF.  `none` is an error.  The mono font (lines 88-92) is not used anywhere. -/
def newFpdf (read : Str → Option Str) (parse : Str → Parsed) (fonts : FontRegistry) (page : DocPage) : Option Lib :=
  match libNew (fpdfOrientation page.orientation) (fpdfFormat page.format) with
  | none => none
  | some l =>
    match fonts.each (addFont read parse) l with
    | (_, some _) => none
    | (l, none) => some { l with margins := libMargins page.margins }

/-- The paper of an engine that was made, see `Fpdf.engine`; engine/fpdf.go:163-165, ChangeFont. -/
def Lib.paper (l : Lib) (metric : Font → Str → ℚ) : Paper :=
  { width := l.width, height := l.height, margins := l.margins, known := fun f => libFinds l f.family (fpdfFontStyle f), metric := metric }

end Verif.Model
