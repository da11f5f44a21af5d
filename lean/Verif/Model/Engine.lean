import Verif.Model.Draw
import Verif.Model.Image
import Verif.Model.Doc
/-
Model of /repo/engine/engine.go: the interface of the PDF engine, for an arbitrary type `E` of engine states.
-/
namespace Verif.Model
open Verif.Go

/-- An engine operation that can call the functions registered with OnHeader and OnFooter: it is done, or it calls one of them in
engine state `e` and goes on with the state that function leaves behind. -/
inductive Prog (E α : Type)
  | done (e : E) (a : α)
  | header (e : E) (k : E → Prog E α)
  | footer (e : E) (k : E → Prog E α)

/-- What WritePDF does: the bytes written and whether it returns an error. -/
structure PdfResult where
  written : Str
  failed : Bool
deriving DecidableEq

/-- engine/engine.go:9-41, Engine.  Queries do not change the engine state.  MonoFont and PageWidth are never used (PageWidth is
called in process.go:103, but its value is not read). -/
structure Engine (E : Type) where
  /-- line 10: whether Error() is not nil -/
  failed : E → Bool
  /-- line 11 -/
  writePDF : E → Prog E PdfResult
  /-- line 12 -/
  setPageCountAlias : Str → E → E
  /-- line 13 -/
  currentPage : E → Int
  /-- line 16 -/
  addPage : E → Prog E Unit
  /-- line 17 -/
  setX : ℚ → E → E
  /-- line 18 -/
  setY : ℚ → E → E
  /-- line 19 -/
  getXY : E → ℚ × ℚ
  /-- line 20 -/
  lineFeed : ℚ → E → E
  /-- line 21 -/
  changeFont : Font → E → E
  /-- line 22 -/
  printableArea : E → Area
  /-- line 24 -/
  pageHeight : E → ℚ
  /-- line 25 -/
  putImage : Str → ℚ → ℚ → ℚ → ℚ → E → E
  /-- line 26 -/
  setTextColor : RGB → E → E
  /-- line 27 -/
  fontHeight : E → ℚ
  /-- line 29 -/
  textWidth : Str → E → ℚ
  /-- line 30 -/
  writeText : Str → E → Prog E Unit
  /-- line 31 -/
  margins : E → Margins
  /-- lines 34-40 -/
  draw : DrawCmd → E → E

/-- process.go:15-22, the part of Processor that changes: engine, currStyles, preventPageBreak. -/
structure PState (E : Type) where
  eng : E
  curr : Styles
  prevent : Bool

/-- process.go:15-22, the part of Processor that is fixed: the document (classes, header, footer, body), the hyphenator (any
function), and what the file system says: the full name of a file in the working directory (resolveFile, process.go:35-41) and
the size of an image (DescribeImage, image.go:33-48; `none` is an error). -/
structure Ctx where
  classes : Classes
  header : List Instr
  footer : List Instr
  body : List Instr
  hyphenate : Str → List Str
  resolve : Str → Str
  describe : Str → Option ImageDesc

/-- Decimal digits of a natural number, as `%d` prints them. -/
def natDigits (n : Nat) : Str := if n < 10 then [UInt8.ofNat (48 + n)] else natDigits (n / 10) ++ [UInt8.ofNat (48 + n % 10)]
termination_by n

/-- `fmt.Sprintf("%d", n)`. -/
def itoa (n : Int) : Str := if n < 0 then 45 :: natDigits n.natAbs else natDigits n.natAbs

end Verif.Model
