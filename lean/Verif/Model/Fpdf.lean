import Verif.Model.Engine
/-
Model of /repo/engine/fpdf.go: the engine on top of the library gofpdf.

The library is not part of the repository.  What it does is modelled from its documentation, and simplified: a text is written in one
piece (no automatic line breaks within a text), no operation but SetFont fails, and after a failure operations go on.  This engine serves as the
example that meets the assumptions about engines that the theorems make, and for statements about new pages.
-/
namespace Verif.Model
open Verif.Go

/-- What is fixed: page size and margins (engine/fpdf.go:64-85), the registered fonts and their metrics. -/
structure Paper where
  width : ℚ
  height : ℚ
  margins : Margins
  known : Font → Bool
  metric : Font → Str → ℚ

/-- What is on the pages, and where pages and lines were fed. -/
inductive Mark
  | text (page : Nat) (x y : ℚ) (font : Font) (color : RGB) (text : Str)
  | image (page : Nat) (src : Str) (x y width height : ℚ)
  | draw (page : Nat) (cmd : DrawCmd)
  | page
  | feed (page : Nat)
deriving DecidableEq

/-- The state of the library. -/
structure Fpdf where
  page : Nat
  x : ℚ
  y : ℚ
  font : Font
  color : RGB
  inHeaderFooter : Bool
  failed : Bool
  pageCountAlias : Str
  out : List Mark
deriving DecidableEq

namespace Fpdf

/-- A new document. -/
def new (p : Paper) : Fpdf :=
  { page := 0, x := p.margins.left, y := p.margins.top, font := zeroStyles.font, color := ⟨0, 0, 0⟩, inHeaderFooter := false, failed := false,
    pageCountAlias := [], out := [] }

/-- engine/fpdf.go:145-147, SetX; in the library a negative value counts from the right edge. -/
def setX (p : Paper) (x : ℚ) (e : Fpdf) : Fpdf := { e with x := if x ≥ 0 then x else p.width + x }

/-- engine/fpdf.go:149-152, SetY; in the library a negative value counts from the bottom edge. -/
def setY (p : Paper) (y : ℚ) (e : Fpdf) : Fpdf := setX p e.x { e with y := if y ≥ 0 then y else p.height + y }

/-- engine/fpdf.go:163-165, ChangeFont. -/
def changeFont (p : Paper) (f : Font) (e : Fpdf) : Fpdf := { e with font := f, failed := e.failed || !p.known f }

/-- engine/fpdf.go:195-198, FontHeight: the point size in millimeters. -/
def fontHeight (e : Fpdf) : ℚ := e.font.pointSize * (127 / 360)

/-- engine/fpdf.go:158-161, LineFeed. -/
def lineFeed (p : Paper) (lines : ℚ) (e : Fpdf) : Fpdf := 
  { e with x := p.margins.left, y := e.y + fontHeight e * lines, out := e.out ++ [.feed e.page] }

/-- The second part of AddPage: the new page, its header, and the font and color of before. -/
def turn (p : Paper) (f : Font) (c : RGB) (e : Fpdf) : Prog Fpdf Unit :=
  .header { e with page := e.page + 1, x := p.margins.left, y := p.margins.top, font := f, color := c, inHeaderFooter := true,
                   out := e.out ++ [.page] }
    fun e' => .done { e' with font := f, color := c, inHeaderFooter := false } ()

/-- engine/fpdf.go:141-143, AddPage: the footer of the last page, if there is one, then the new page. -/
def addPage (p : Paper) (e : Fpdf) : Prog Fpdf Unit :=
  if e.page > 0 then .footer { e with inHeaderFooter := true } fun e' => turn p e.font e.color { e' with inHeaderFooter := false }
  else turn p e.font e.color e

/-- `Prog` sequencing: `k` after `pr`. -/
def andThen {E α β : Type} : Prog E α → (E → α → Prog E β) → Prog E β
  | .done e a, k => k e a
  | .header e f, k => .header e fun e' => andThen (f e') k
  | .footer e f, k => .footer e fun e' => andThen (f e') k

/-- A text at the current position. -/
def put (p : Paper) (t : Str) (e : Fpdf) : Fpdf :=
  { e with out := e.out ++ [.text e.page e.x e.y e.font e.color t], x := e.x + p.metric e.font t }

/-- engine/fpdf.go:208-211, WriteText: on a new page if it would reach below the bottom margin (never in header and footer). -/
def writeText (p : Paper) (t : Str) (e : Fpdf) : Prog Fpdf Unit :=
  if e.y + fontHeight e > p.height - p.margins.bottom ∧ !e.inHeaderFooter then
    andThen (addPage p e) fun e' _ => .done (put p t { e' with x := e.x }) ()
  else .done (put p t e) ()

/-- engine/fpdf.go:121-123, WritePDF: the footer of the last page, then the output (here: of nothing). -/
def writePDF (e : Fpdf) : Prog Fpdf PdfResult :=
  .footer { e with inHeaderFooter := true } fun e' =>
    let e' := { e' with inHeaderFooter := false }
    .done e' { written := [], failed := e'.failed }

/-- engine/fpdf.go:213-240, drawing; in the library MoveTo and LineTo also move the position for texts. -/
def draw (c : DrawCmd) (e : Fpdf) : Fpdf :=
  let e := { e with out := e.out ++ [.draw e.page c] }
  match c with
  | .moveTo x y => { e with x := x, y := y }
  | .lineTo x y => { e with x := x, y := y }
  | _ => e

/-- engine/fpdf.go:117-240, the methods of FPDF (printableArea: lines 167-171). -/
def engine (p : Paper) : Engine Fpdf where
  failed e := e.failed
  writePDF := writePDF
  setPageCountAlias a e := { e with pageCountAlias := a }
  currentPage e := e.page
  addPage := addPage p
  setX := setX p
  setY := setY p
  getXY e := (e.x, e.y)
  lineFeed := lineFeed p
  changeFont := changeFont p
  printableArea _ := ⟨p.margins.left, p.margins.top, p.width - p.margins.right - 2, p.height - p.margins.bottom⟩
  pageHeight _ := p.height
  putImage src x y w h e := { e with out := e.out ++ [.image e.page src x y w h] }
  setTextColor c e := { e with color := c }
  fontHeight := fontHeight
  textWidth t e := p.metric e.font t
  writeText := writeText p
  margins _ := p.margins
  draw := draw

end Fpdf
end Verif.Model
