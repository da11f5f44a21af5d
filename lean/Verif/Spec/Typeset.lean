import Verif.Spec.Filling
import Verif.Spec.Fill
import Verif.Spec.Laying
/-
What C116 talks about: setting a document by hand, word by word.
-/
namespace Verif.Spec
open Verif.Go Verif.Model

/-- Someone who sets a document: the page and the place where they are, the font of the current styles, the font they hold (they measure and set words in others, too),
and what they have set so far. -/
structure Typist where
  page : Nat
  x : ℚ
  y : ℚ
  font : Font
  held : Font
  out : List Mark
deriving DecidableEq

/-- The place that SetX goes to: negative ones count from the right edge of the paper. -/
def acrossAt (p : Paper) (x : ℚ) : ℚ := if 0 ≤ x then x else p.width + x

/-- The lines of a text that starts on page `page`, if it is no block text (C121). -/
def plainLines (p : Paper) (ctx : Ctx) (page : Nat) (width : ℚ) (sty : Styles) (iss : List Instr) : List TextLine :=
  linesSet p.metric width (tokens ctx.classes page sty iss)

/-- The lines of a text that starts on page `page`: block text is hyphenated (C121). -/
def setLines (p : Paper) (ctx : Ctx) (page : Nat) (width : ℚ) (sty : Styles) (iss : List Instr) : List TextLine :=
  if sty.align.h = b!"block" then blockLinesSet ctx.hyphenate p.metric width (blockTokens ctx.classes page sty iss)
  else plainLines p ctx page width sty iss

/-- Whether a line is stretched to the width. -/
def Stretched (sty : Styles) (l : TextLine) : Prop := sty.align.h = b!"block" ∧ 2 ≤ l.items.length ∧ l.paragraph = false

instance (sty : Styles) (l : TextLine) : Decidable (Stretched sty l) := inferInstanceAs (Decidable (_ ∧ _ ∧ _))

/-- The words of a line with their fonts: stretched lines have no spaces. -/
def wordsSet (sty : Styles) (l : TextLine) : List (Font × Str) := l.items.map fun i => (i.sty.font, if Stretched sty l then trimSpace i.text else i.text)

/-- The gap after each word of a stretched line. -/
def gapSet (sty : Styles) (width : ℚ) (l : TextLine) : Option ℚ :=
  if Stretched sty l then some ((width - 1 / 10 - l.pureTextWidth) / (l.items.length - 1 : ℚ)) else none

/-- Where a line starts, in a text whose left edge is at `x0`; `none` if the alignment is none of the four, and the line starts where the typist is. -/
def startSet (sty : Styles) (x0 width : ℚ) (l : TextLine) : Option ℚ :=
  if sty.align.h = b!"left" ∨ sty.align.h = b!"center" ∨ sty.align.h = b!"right" ∨ sty.align.h = b!"block" then some (x0 + indent sty.align.h (width - l.width)) else none

/-- The height of `n` lines: the last one has no line spacing below it. -/
def tallSet (n : Nat) (height spacing : ℚ) : ℚ := (n - 1) * (height * spacing) + height

/-- Where the text of a cell starts, with alignment `v`: it is `height` high, and the cell has room from `y0` to `y1` for it. -/
def textSetAt (v : Str) (y0 y1 height : ℚ) : ℚ := y0 + (if v = b!"middle" then 1 / 2 else if v = b!"bottom" then 1 else 0) * (y1 - y0 - height)

/-- Where a box in such a cell starts: not where the alignment says (C69), but half of its height, or all of it, below the top. -/
def boxSetAt (v : Str) (y0 height : ℚ) : ℚ := y0 + (if v = b!"middle" then 1 / 2 else if v = b!"bottom" then 1 else 0) * height

namespace Typist
variable (p : Paper) (ctx : Ctx) (turn : Option (Typist → Typist))

/-- To the next page if something is the case; never in header and footer, where `turn` is missing. -/
def turnIf (c : Prop) [Decidable c] (t : Typist) : Typist := (turn.map fun f => if c then f t else t).getD t

/-- One word, on this page or, if it does not end above the bottom margin, at the top of the next one, equally far from the left. -/
def word (color : RGB) (gap : Option ℚ) (t : Typist) (w : Font × Str) : Typist :=
  let t' := { t with font := w.1, held := w.1 }
  let t' := { t'.turnIf turn (p.height - p.margins.bottom < t.y + lineHeight w.1) with x := t.x }
  let x := t'.x + p.metric w.1 w.2
  { t' with x := (gap.map fun g => acrossAt p (x + g)).getD x, out := t'.out ++ [.text t'.page t'.x t'.y w.1 color w.2] }

/-- To the next line, below the last word. -/
def feed (lines : ℚ) (t : Typist) : Typist := { t with x := p.margins.left, y := t.y + lineHeight t.held * lines, out := t.out ++ [.feed t.page] }

/-- A line. -/
def line (sty : Styles) (x0 width : ℚ) (t : Typist) (l : TextLine) : Typist :=
  ((wordsSet sty l).foldl (word p turn sty.color.text (gapSet sty width l)) { t with x := ((startSet sty x0 width l).map (acrossAt p)).getD t.x }).feed p sty.dim.lineSpacing

/-- Looking through a text leaves the font of its last word. -/
def look (sty : Styles) (ws : List (Option Word)) (t : Typist) : Typist := { t with font := fontLeft t.font ws, held := fontLeft sty.font ws }

/-- A text in style `sty`, from here on: line by line, after looking through it. -/
def text (width : ℚ) (sty : Styles) (iss : List Instr) (t : Typist) : Typist :=
  (setLines p ctx t.page width sty iss).foldl (line p turn sty t.x width) (t.look sty (wordsOn ctx t.page sty iss))

/-- The height of a text, and the typist who has looked through it. -/
def measure : Measure Typist := fun sty iss width t =>
  let t := t.look sty (wordsOn ctx t.page sty iss)
  (tallSet (setLines p ctx t.page width sty iss).length (lineHeight t.held) sty.dim.lineSpacing, t)

/-- The height of the contents of a box: as given, or that of its text, or that of a line if it is empty. -/
def contents (sty : Styles) (iss : List Instr) (width : ℚ) (t : Typist) : ℚ × Typist :=
  if 0 < sty.dim.height then (sty.dim.height, t)
  else if iss = [] then (lineHeight t.held, t)
  else measure p ctx sty iss width t

/-- Back to the font of the current styles. -/
def reset (t : Typist) : Typist := { t with held := t.font }

/-- To another height. -/
def goY (y : ℚ) (t : Typist) : Typist := { t with x := acrossAt p t.x, y := heightAt p y }

/-- The frame of a box, from its upper left corner back to it. -/
def frame (x0 y0 x1 y1 : ℚ) (sty : Styles) (t : Typist) : Typist := { t with x := x0, y := y0, out := t.out ++ (drawBox x0 y0 x1 y1 sty).map (.draw t.page) }

/-- The styles of an element. -/
def styles (st : Styled) (t : Typist) : Styles := st.mutatedStyles ctx.classes { defaultStyle with font := t.font }

/-- The width of the contents of a box in the area `pa`. -/
def inside (pa : Area) (sty : Styles) : ℚ := wideSet (pa.x1 - pa.x0) sty.dim.width - sty.box.padding.left - sty.box.padding.right

/-- A box in the area `pa`: on this page or, if its contents do not end above the bottom margin, on the next one. -/
def box (pa : Area) (st : Styled) (iss : List Instr) (t : Typist) : Typist :=
  let sty := t.styles ctx st
  let width := inside pa sty
  let (height, t) := t.contents p ctx sty iss width
  let t := t.turnIf turn (p.height - p.margins.bottom ≤ t.y + height)
  let x0 := t.x + sty.dim.offsetX
  let y0 := t.y + sty.dim.offsetY
  let x1 := x0 + width + sty.box.padding.left + sty.box.padding.right
  let y1 := y0 + height + sty.box.padding.top + sty.box.padding.bottom
  let t := t.frame x0 y0 x1 y1 sty
  let t := { t with x := acrossAt p (x0 + sty.box.padding.left), y := heightAt p (y0 + sty.box.padding.top) }
  ((if iss = [] then t else t.text p ctx turn width sty iss).goY p y1).reset

/-- An image in the area `pa`: nothing if it is not there. -/
def image (pa : Area) (st : Styled) (source : Str) (t : Typist) : Typist :=
  match ctx.describe (ctx.resolve source) with
  | none => t
  | some d =>
    let pl := placeImage d (t.styles ctx st) t.x t.y pa
    { t with out := t.out ++ [.image t.page (ctx.resolve source) pl.x pl.y pl.width pl.height] }

/-! ### Tables -/

/-- Boxes and images in a cell with alignment `v`. -/
def items (v : Str) (inner : Area) : List Instr → Typist → Typist
  | [], t => t
  | .box st iss :: is, t =>
    let (height, t') := t.contents p ctx (t.styles ctx st) iss (inside inner (t.styles ctx st))
    items v inner is ((t'.reset.goY p (boxSetAt v inner.y0 height)).box p ctx turn inner st iss)
  | .image st source :: is, t => items v inner is ((t.goY p inner.y0).image ctx inner st source)
  | _ :: is, t => items v inner is t

/-- A cell: its frame, its text (measured as if it were no block text), its boxes and images. -/
def cell (pa : Area) (sty : Styles) (iss : List Instr) (t : Typist) : Typist :=
  let inner : Area := ⟨pa.x0 + sty.box.padding.left, pa.y0 + sty.box.padding.top, pa.x1 - sty.box.padding.right, pa.y1 - sty.box.padding.bottom⟩
  let t := t.frame pa.x0 pa.y0 pa.x1 pa.y1 sty
  if iss = [] then { t with x := acrossAt p inner.x0 }
  else
    let t := t.look sty (tokens ctx.classes t.page sty iss)
    let height := tallSet (plainLines p ctx t.page (inner.x1 - inner.x0) sty iss).length (lineHeight t.held) sty.dim.lineSpacing
    let t := { t with x := acrossAt p inner.x0, y := heightAt p (textSetAt sty.align.v inner.y0 inner.y1 height) }
    items p ctx turn sty.align.v inner iss { t.text p ctx turn (pa.x1 - pa.x0 - sty.box.padding.left - sty.box.padding.right) sty iss with x := acrossAt p inner.x0 }

/-- The cells of a row from `x` on, as far as their spans reach. -/
def cells (y : ℚ) : ℚ → List (ℚ × Option SetCell) → Typist → Typist
  | _, [], t => t
  | x, (w, none) :: cs, t => cells y (x + w) cs t
  | x, (w, some c) :: cs, t => cells y (x + w) cs (t.cell p ctx turn ⟨x, y, x + c.width, y + c.height⟩ c.sty c.iss)

/-- A row at height `y`, and the height below it. -/
def row (x0 : ℚ) (at_ : ℚ × Typist) (r : SetRow) : ℚ × Typist :=
  (at_.1 + r.height, { cells p ctx turn at_.1 x0 r.cells at_.2 with x := acrossAt p x0 })

/-- Where row `i` starts, after the next page was started: below the header rows if they are repeated. -/
def again (all : List SetRow) (rh : Int) (x0 : ℚ) (i : Nat) (t : Typist) : ℚ × Typist :=
  if 0 < i ∧ 0 < rh then (all.take rh.toNat).foldl (row p ctx turn x0) (t.y, t) else (t.y, t)

/-- The rows from row `i` on.  One whose cells reach too far down goes to the next page. -/
def rows (all : List SetRow) (rh : Int) (x0 : ℚ) : Nat → List SetRow → ℚ × Typist → ℚ × Typist
  | _, [], at_ => at_
  | i, r :: rs, at_ =>
    let at_ := (turn.map fun f => if p.height - p.margins.bottom < at_.1 + r.reach then again p ctx turn all rh x0 i (f at_.2) else at_).getD at_
    rows all rh x0 (i + 1) rs (row p ctx turn x0 at_ r)

/-- A table: laid out as in C122 and C123, then set row by row, from the next page on if there is no room for the header rows and one more.  A table without columns is not set. -/
def table (st : Styled) (rh : Int) (trows : List TableRow) (t : Typist) : Typist :=
  let sty := t.styles ctx st
  let (all, t) := layTable (measure p ctx) ctx.classes (wideSet ((printable p).x1 - (printable p).x0) sty.dim.width) sty trows t
  if longest (tablePlaces trows) = 0 then t.reset
  else
    let t' := t.turnIf turn (p.height - p.margins.bottom < t.y + ((all.take (rh + 1).toNat).map (·.reach)).sum)
    let r := rows p ctx turn all rh t.x 0 all (t'.y, t')
    (r.2.goY p r.1).reset

/-! ### Documents -/

/-- An instruction. -/
def step (t : Typist) : Instr → Typist
  | .font st => { t with font := (t.styles ctx st).font, held := (t.styles ctx st).font }
  | .lineFeed lines => t.feed p lines
  | .setX x => { t with x := acrossAt p x }
  | .setY y => t.goY p y
  | .pageBreak => t.turnIf turn True
  | .text st iss => if iss = [] then t else (t.text p ctx turn (wideSet ((printable p).x1 - (printable p).x0) (t.styles ctx st).dim.width) (t.styles ctx st) iss).reset
  | .box st iss => t.box p ctx turn (printable p) st iss
  | .image st source => t.image ctx (printable p) st source
  | .table st rh trows => t.table p ctx turn st rh trows
  | _ => t

/-- The footer, below everything else on the page. -/
def foot (t : Typist) : Typist := ctx.footer.foldl (step p ctx none) t

/-- A new page with its header.  Behind the header the typist holds the font of before again. -/
def head (t : Typist) : Typist :=
  let t' := ctx.header.foldl (step p ctx none) { t with page := t.page + 1, x := p.margins.left, y := p.margins.top, out := t.out ++ [.page] }
  { t' with x := p.margins.left, y := p.margins.top, held := t.held }

/-- To the next page: the footer of this one and the header of the next one. -/
def next (t : Typist) : Typist := head p ctx { t.foot p ctx with held := t.held }

end Typist

/-- A document up to the end of its body: page after page, from the header of the first one on. -/
def typeset (p : Paper) (ctx : Ctx) (body : List Instr) : Typist :=
  body.foldl (Typist.step p ctx (some (Typist.next p ctx))) (Typist.head p ctx ⟨0, p.margins.left, p.margins.top, defaultStyle.font, defaultStyle.font, []⟩)

/-- The texts from left to right, with font and color, without the heights. -/
def columns (out : List Mark) : List (ℚ × Font × RGB × Str) :=
  out.filterMap fun | .text _ x _ f c t => some (x, f, c, t) | _ => none

/-- Two papers that differ in height, upper and lower margin only (and in the fonts that are known). -/
structure SameColumns (p p' : Paper) : Prop where
  width : p.width = p'.width
  left : p.margins.left = p'.margins.left
  right : p.margins.right = p'.margins.right
  metric : p.metric = p'.metric

/-- A body without boxes and tables in which texts are the same on all pages (they have no page numbers). -/
def PageFree (ctx : Ctx) (body : List Instr) : Prop :=
  ∀ i ∈ body, match i with
    | .box _ _ | .table _ _ _ => False
    | .text _ iss => ∀ page page' sty, wordsOn ctx page sty iss = wordsOn ctx page' sty iss
    | _ => True

end Verif.Spec
