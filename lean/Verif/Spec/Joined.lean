import Verif.Model.Fpdf
import Verif.Model.Process
/-
Documents put together at a page break: what C108 talks about.
-/
namespace Verif.Spec
open Verif.Go Verif.Model

/-- The text is that of the instruction, or of an instruction in it.  (Parts of grids are left out: they are never drawn.) -/
inductive HasText (t : Str) : Instr → Prop
  | textBlock : HasText t (.textBlock t)
  | paragraph {st} : HasText t (.paragraph st t)
  | text {st iss i} : i ∈ iss → HasText t i → HasText t (.text st iss)
  | box {st iss i} : i ∈ iss → HasText t i → HasText t (.box st iss)
  | cell {st rh rows rst cells cst cspan rspan iss i} : .mk rst cells ∈ rows → .mk cst cspan rspan iss ∈ cells → i ∈ iss → HasText t i →
      HasText t (.table st rh rows)

/-- No text of the instructions asks for the number of the page. -/
def NoPageNumber (iss : List Instr) : Prop := ∀ i ∈ iss, ∀ t, HasText t i → ¬ b!"{cp}" <:+: t

/-- The same thing `k` pages further back in a document. -/
def later (k : Nat) : Mark → Mark
  | .text p x y f c t => .text (p + k) x y f c t
  | .image p src x y w h => .image (p + k) src x y w h
  | .draw p cmd => .draw (p + k) cmd
  | .page => .page
  | .feed p => .feed (p + k)

/-- The same engine, but the pages are numbered from `k + 1` on. -/
def numberedFrom (k : Nat) (p : Paper) : Engine Fpdf := { Fpdf.engine p with currentPage := fun e => e.page + k }

/-- A document with this body comes out on `pages` pages as `out`. -/
def ComesOut (eng : Engine Fpdf) (p : Paper) (ctx : Ctx) (n : Nat) (body : List Instr) (pages : Nat) (out : List Mark) : Prop :=
  ∃ r s, process eng { ctx with body := body } n (newProcessor (Fpdf.new p)) = some (r, s) ∧ r.failed = false ∧ s.eng.page = pages ∧ s.eng.out = out

/-- The parts of a document, each one on a new page. -/
def chapters : List Instr → List (List Instr) → List Instr
  | A, [] => A
  | A, B :: Bs => A ++ .pageBreak :: chapters B Bs

/-- Documents boundTogether together: how many pages, and what is on them. -/
def boundTogether : List (Nat × List Mark) → Nat × List Mark
  | [] => (0, [])
  | (pages, out) :: rs => (pages + (boundTogether rs).1, out ++ (boundTogether rs).2.map (later pages))

end Verif.Spec
