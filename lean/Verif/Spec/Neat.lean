import Verif.Spec.Inside
import Verif.Spec.Laid
import Verif.Spec.Stacked
/-
What C93 talks about: tables whose cells hold text only, as they are on the pages.
-/
namespace Verif.Spec
open Verif.Go Verif.Model

/-- The page a mark is on. -/
def Mark.on : Mark → Option Nat
  | .text page _ _ _ _ _ => some page
  | .image page _ _ _ _ _ => some page
  | .draw page _ => some page
  | .page => none
  | .feed page => some page

/-- The marks of a cell that was given the area `a`: all are on page `k`, first its background, then its texts, which are within the padding.
They come one below or behind the other, unless lines are closer than the font is high. -/
def CellPut (p : Paper) (t : Tab) (k id : Nat) (a : Area) (ms : List Mark) : Prop :=
  ∃ pre post, ms = pre ++ cellMark t k id a :: post ∧ (∀ m ∈ ms, Mark.on m = some k) ∧
    (∀ pg x y f c w, .text pg x y f c w ∉ pre) ∧
    (∀ pg x y f c w, .text pg x y f c w ∈ post →
      TextIn p.metric lineHeight (a.x0 + (t.cell id).styles.box.padding.left) (a.y0 + (t.cell id).styles.box.padding.top)
        (a.x1 - (t.cell id).styles.box.padding.right) (a.y1 - (t.cell id).styles.box.padding.bottom) ⟨x, y, f, c, w⟩) ∧
    (1 ≤ (t.cell id).styles.dim.lineSpacing → 0 ≤ (t.cell id).styles.font.pointSize → post.Pairwise (ComesAfter p))

/-- The steps of a table, as marks from page `k` on: new pages, with nothing but marks of header and footer (`H`), and cells. -/
inductive Neat (p : Paper) (H : Mark → Prop) (t : Tab) : Nat → List TEvent → List Mark → Prop
  | done {k : Nat} : Neat p H t k [] []
  | page {k : Nat} {top : ℚ} {es : List TEvent} {ms ms' : List Mark} : turns ms = 1 → (∀ m ∈ ms, m = .page ∨ H m) → Neat p H t (k + 1) es ms' → Neat p H t k (.page top :: es) (ms ++ ms')
  | cell {k id : Nat} {a : Area} {es : List TEvent} {ms ms' : List Mark} : CellPut p t k id a ms → Neat p H t k es ms' →
      Neat p H t k (.cell id a :: es) (ms ++ ms')

/-- A cell with nothing but text, in fonts of one height, without page numbers, and, if it is block text, at the top; there is room for each word, and no height is set. -/
structure TextCell (p : Paper) (cs : Classes) (sty : Styles) (iss : List Instr) (width : ℚ) : Prop where
  noBox : ∀ st is, .box st is ∉ iss
  noImage : ∀ st src, .image st src ∉ iss
  noPageBlock : ∀ w, .textBlock w ∈ iss → ¬ b!"{cp}" <:+: w
  noPagePara : ∀ st w, .paragraph st w ∈ iss → ¬ b!"{cp}" <:+: w
  words : Plain p.metric lineHeight cs 1 sty iss (width - sty.box.padding.left - sty.box.padding.right)
  room : sty.box.padding.left + sty.box.padding.right ≤ width
  align : sty.align.h = b!"left" ∨ sty.align.h = b!"center" ∨ sty.align.h = b!"right" ∨ sty.align.h = b!"block"
  block : sty.align.h = b!"block" → sty.align.v ≠ b!"middle" ∧ sty.align.v ≠ b!"bottom"
  auto : sty.dim.height ≤ 0
  padding : 0 ≤ sty.box.padding.left ∧ 0 ≤ sty.box.padding.top ∧ 0 ≤ sty.box.padding.bottom
  spacing : 0 ≤ sty.dim.lineSpacing * lineHeight sty.font

/-- A table of such cells; each row fits on a page, below the header rows. -/
structure TextTable (p : Paper) (cs : Classes) (t : Tab) (rh : Int) : Prop where
  cells : ∀ i, ∀ id ∈ idsOf t i, isAuthored t id = true → TextCell p cs (t.cell id).styles (t.cell id).iss (t.dim id).1
  widths : ∀ i, ∀ id ∈ idsOf t i, 0 ≤ (t.cell id).width
  rows : ∀ i, ∀ id ∈ idsOf t i, p.margins.top + heightsBefore t (min rh.toNat t.rows.length) + (t.dim id).2 ≤ p.height - p.margins.bottom

end Verif.Spec
