import Verif.Spec.TextLines
import Verif.Model.Fpdf
/-
What is put on the pages: words, images and new pages, in order (C73).
-/
namespace Verif.Spec
open Verif.Go Verif.Model

/-- What the processor asks the engine to put into the document. -/
inductive Put
  | text (t : Str)
  | image (src : Str)
  | page
deriving DecidableEq

/-- Calls of the engine that put nothing into the document but lines and colored areas. -/
inductive Silent {E : Type} (eng : Engine E) : PState E → PState E → Prop
  | setX (x s) : Silent eng s { s with eng := eng.setX x s.eng }
  | setY (y s) : Silent eng s { s with eng := eng.setY y s.eng }
  | lineFeed (n s) : Silent eng s { s with eng := eng.lineFeed n s.eng }
  | font (f s) : Silent eng s { s with eng := eng.changeFont f s.eng }
  | fontKept (f s) : Silent eng s { s with eng := eng.changeFont f s.eng, curr := { s.curr with font := f } }
  | color (c s) : Silent eng s { s with eng := eng.setTextColor c s.eng }
  | draw (d s) : Silent eng s { s with eng := eng.draw d s.eng }

/-- From the first to the last state by calls of the engine that put, in order, the given things into the document. -/
inductive Did {E : Type} (eng : Engine E) (c : Calls E) : PState E → List Put → PState E → Prop
  | nil (s) : Did eng c s [] s
  | silent {s s1 s2 ps} : Silent eng s s1 → Did eng c s1 ps s2 → Did eng c s ps s2
  | text {s s1 s2 t ps} : c.writeText t s = some ((), s1) → Did eng c s1 ps s2 → Did eng c s (.text t :: ps) s2
  | image {s s2 ps} (src x y w h) : Did eng c { s with eng := eng.putImage src x y w h s.eng } ps s2 → Did eng c s (.image src :: ps) s2
  | page {s s1 s2 ps} : c.addPage s = some ((), s1) → Did eng c s1 ps s2 → Did eng c s (.page :: ps) s2

/-- The words of the texts among the instructions, on page `page`. -/
def sourceWords (page : Int) : List Instr → List Str
  | [] => []
  | .textBlock text :: iss => wordsOf page text ++ sourceWords page iss
  | .paragraph _ text :: iss => wordsOf page text ++ sourceWords page iss
  | _ :: iss => sourceWords page iss

/-- The texts are the words, each in one piece or broken with a hyphen between two of its parts, with or without a space before. -/
inductive Written (hyph : Str → List Str) : List Str → List Str → Prop
  | nil : Written hyph [] []
  | whole {w ws t ts} : (t = w ∨ t = 32 :: w) → Written hyph ws ts → Written hyph (w :: ws) (t :: ts)
  | broken {w ws t u ts} (i : Nat) : 1 ≤ i → i < (hyph w).length →
      (t = ((hyph w).take i).flatten ++ [45] ∨ t = 32 :: (((hyph w).take i).flatten ++ [45])) → u = ((hyph w).drop i).flatten →
      Written hyph ws ts → Written hyph (w :: ws) (t :: u :: ts)
  | blank {ws t ts} : (t = [] ∨ t = [32]) → Written hyph ws ts → Written hyph ws (t :: ts)

/-- One after the other. -/
inductive InTurn {α : Type} (R : α → List Put → Prop) : List α → List Put → Prop
  | nil : InTurn R [] []
  | cons {a as ps qs} : R a ps → InTurn R as qs → InTurn R (a :: as) (ps ++ qs)

/-- What has to be known of the surroundings: the hyphenator, and what is put for an image (nothing if it cannot be read). -/
structure Means where
  hyph : Str → List Str
  image : Str → List Put

variable (m : Means)

/-- The words of a text. -/
def TextPuts (iss : List Instr) (ps : List Put) : Prop :=
  ∃ page ts, Written m.hyph (sourceWords page iss) ts ∧ ps = ts.map .text

/-- A box: a new page, perhaps, and its text. -/
def BoxPuts (iss : List Instr) (ps : List Put) : Prop :=
  TextPuts m iss ps ∨ ∃ qs, TextPuts m iss qs ∧ ps = .page :: qs

/-- Boxes and images of a cell. -/
def ItemPuts : Instr → List Put → Prop
  | .box _ iss, ps => BoxPuts m iss ps
  | .image _ src, ps => ps = m.image src
  | _, ps => ps = []

/-- A cell: its text, then its boxes and images. -/
def CellPuts (iss : List Instr) (ps : List Put) : Prop :=
  ∃ ts qs, TextPuts m iss ts ∧ InTurn (ItemPuts m) iss qs ∧ ps = ts ++ qs

/-- The cells of a row, given by their contents. -/
def RowPuts : List (List Instr) → List Put → Prop := InTurn (CellPuts m)

/-- The rows from number `i` on; before a row there can be a new page, and then (but not before the first row) the head rows. -/
inductive RowsPut (head : List (List (List Instr))) : Nat → List (List (List Instr)) → List Put → Prop
  | nil {i} : RowsPut head i [] []
  | same {i row rows ps qs} : RowPuts m row ps → RowsPut head (i + 1) rows qs → RowsPut head i (row :: rows) (ps ++ qs)
  | page {i row rows hs ps qs} : InTurn (RowPuts m) (if i = 0 then [] else head) hs → RowPuts m row ps → RowsPut head (i + 1) rows qs →
      RowsPut head i (row :: rows) (.page :: (hs ++ ps ++ qs))

/-- A table: a new page, perhaps, then all rows; `extra` rows without contents are added where cells reach below the last row. -/
def TablePuts (repeated : Int) (rows : List (List (List Instr))) (ps : List Put) : Prop :=
  ∃ extra qs, RowsPut m ((rows ++ List.replicate extra []).take repeated.toNat) 0 (rows ++ List.replicate extra []) qs ∧
    (ps = qs ∨ ps = .page :: qs)

/-- What an instruction of the body, header or footer puts into the document. -/
def InstrPuts : Instr → List Put → Prop
  | .text _ iss, ps => TextPuts m iss ps
  | .box _ iss, ps => BoxPuts m iss ps
  | .image _ src, ps => ps = m.image src
  | .table _ repeated rows, ps => TablePuts m repeated (rows.map fun r => r.cells.map (·.iss)) ps
  | .pageBreak, ps => ps = [.page]
  | _, ps => ps = []

/-- What a document part puts, instruction by instruction. -/
def PartPuts : List Instr → List Put → Prop := InTurn (InstrPuts m)

/-- What is assumed: changing the font does not change the page number; the hyphenator adds nothing to words and does not break the
empty word. -/
structure Sound {E : Type} (eng : Engine E) (ctx : Ctx) : Prop where
  page : ∀ f e, eng.currentPage (eng.changeFont f e) = eng.currentPage e
  within : ∀ w, (ctx.hyphenate w).flatten <:+: w
  empty : (ctx.hyphenate []).length ≤ 1

/-- The surroundings of a processor. -/
def meansOf (ctx : Ctx) : Means where
  hyph := ctx.hyphenate
  image src := if (ctx.describe (ctx.resolve src)).isSome then [.image (ctx.resolve src)] else []

/-! ### The pages of the engine of the repository -/

/-- Texts, images and pages of a document, in order. -/
def putsOn (e : Fpdf) : List Put := e.out.filterMap fun
  | .text _ _ _ _ _ t => some (.text t)
  | .image _ src _ _ _ _ => some (.image src)
  | .page => some .page
  | _ => none

/-- From what is asked for to what is in the document: before a new page comes the footer of the last one, behind it its header; a text
can bring a new page with it. -/
inductive Filled (header footer : List Instr) : List Put → List Put → Prop
  | nil : Filled header footer [] []
  | text {t ps ds} : Filled header footer ps ds → Filled header footer (.text t :: ps) (.text t :: ds)
  | image {src ps ds} : Filled header footer ps ds → Filled header footer (.image src :: ps) (.image src :: ds)
  | page {fq fs hq hs ps ds} : PartPuts m footer fq → Filled header footer fq fs → PartPuts m header hq → Filled header footer hq hs →
      Filled header footer ps ds → Filled header footer (.page :: ps) (fs ++ .page :: (hs ++ ds))
  | turned {fq fs hq hs t ps ds} : PartPuts m footer fq → Filled header footer fq fs → PartPuts m header hq → Filled header footer hq hs →
      Filled header footer ps ds → Filled header footer (.text t :: ps) (fs ++ .page :: (hs ++ .text t :: ds))

/-- What a part of the document (body, header or footer) brings into it. -/
def Brings (header footer iss : List Instr) (ds : List Put) : Prop :=
  ∃ ps, PartPuts m iss ps ∧ Filled m header footer ps ds

end Verif.Spec
