import Verif.Model.Paths
import Verif.Model.NewFpdf
import Verif.Model.Load
import Verif.Model.Process
/-
Model of /repo/cmd/xpdf/main.go: the program.

Files are known by their absolute paths (no links), the working directory is known, and what the libraries make of the contents of files is
given by functions.  The messages the program prints are not modelled.
-/
namespace Verif.Model
open Verif.Go

/-- What the program finds: arguments, working directory, the contents of files and which files can be written. -/
structure World where
  args : List Str
  wd : Str
  files : Str → Option Str
  writable : Str → Bool

/-- Reading a file. -/
def World.read (w : World) (name : Str) : Option Str := w.files (absPath w.wd name)

/-- A world with other contents of a file. -/
def World.write (w : World) (name bs : Str) : World :=
  { w with files := fun p => if p = absPath w.wd name then some bs else w.files p }

/-- os.Create: an empty file. -/
def World.create (w : World) (name : Str) : Option World := if w.writable (absPath w.wd name) then some (w.write name []) else none

/-- How the program ends: with an exit code, or in a panic or stack overflow. -/
inductive Exit
  | code (n : Nat)
  | crash
deriving DecidableEq

/-- The libraries: the XML tokens of a file, the numbers and map orders of loading, TOML, what the PDF library makes of font files and which
engine it gives, the sizes of images, and the hyphenator; `depth` bounds the nesting of headers and footers, see `callsAt`. -/
structure Libraries (E : Type) where
  tokens : Str → List Tok
  floats : Floats
  ord : Nat → MapOrder
  sheetOrd : Nat → MapOrder
  toml : Str → Option FontDefs
  parse : Str → Parsed
  engine : Lib → Engine E
  start : Lib → E
  image : Str → Option ImageDesc
  hyphenate : Str → List Str
  depth : Nat

variable {E : Type} (lib : Libraries E)

/-- xdoc/doc.go:26-33, LoadFromFile. -/
def loadFile (w : World) (name : Str) : Option Document :=
  (w.read name).bind fun bs => load lib.floats lib.ord lib.sheetOrd (lib.tokens bs)

/-- process.go:24-33, NewProcessor: what is fixed. -/
def processorOf (w : World) (doc : Document) : Ctx :=
  { classes := doc.styleClasses, header := doc.header, footer := doc.footer, body := doc.body, hyphenate := lib.hyphenate,
    resolve := resolveFile w.wd, describe := fun src => (w.read src).bind lib.image }

/-- cmd/xpdf/main.go:53: the file with the definitions of fonts. -/
def fontDefFile : Str := b!"fonts/fontdef.toml"

/-- cmd/xpdf/main.go:59-74: the engine and the processor, writing to the file `out` that has been created. -/
def runProcessor (w : World) (out : Str) (doc : Document) (fonts : FontRegistry) : Exit × World :=
  match newFpdf w.read lib.parse fonts doc.page with
  | none => (.code 3, w)
  | some l =>
    match process (lib.engine l) (processorOf lib w doc) lib.depth (newProcessor (lib.start l)) with
    | none => (.crash, w)
    | some (r, _) => (if r.failed then .code 4 else .code 0, w.write out r.written)

/-- cmd/xpdf/main.go:16-74, main. -/
def xpdfMain (w : World) : Exit × World :=
  match loadFile lib w (inputName w.args) with
  | none => (.code 2, w)
  | some doc =>
    match w.create (outputName w.args) with
    | none => (.code 2, w)
    | some w1 =>
      match (w1.read fontDefFile).bind lib.toml with
      | none => (.code 2, w1)
      | some defs => runProcessor lib w1 (outputName w.args) doc (loadRegistryFile w1.wd fontDefFile defs)

end Verif.Model
