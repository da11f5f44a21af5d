import Verif.Spec.Origin
import Verif.Spec.TextLines
import Verif.Spec.Laying
import Verif.Model.Write
/-
What C96 and C97 talk about: texts that end before the right edge.
-/
namespace Verif.Spec
open Verif.Go Verif.Model

/-- The widths of the characters of a text add up. -/
structure Adds (p : Paper) (g : Glyphs) : Prop where
  flatten : ∀ f t, (g.cut f t).flatten = t
  metric : ∀ f t, p.metric f t = ((g.cut f t).map (p.metric f)).sum
  nonneg : ∀ f t, 0 ≤ p.metric f t

/-- The text at `x` leaves the library its margins of a cell, is not empty, not a single space in a UTF-8 font, and has no line breaks. -/
def FitsLine (p : Paper) (g : Glyphs) (x : ℚ) (f : Font) (t : Str) : Prop :=
  t ≠ [] ∧ ¬ (g.utf8 f = true ∧ t = [32]) ∧ 10 ∉ t ∧ 13 ∉ t ∧ x + p.metric f t + 2 * Fpdf.cellMargin ≤ p.width - p.margins.right

/-- A mark that is no text, or a text that fits. -/
def MarkFitsLine (p : Paper) (g : Glyphs) : Mark → Prop
  | .text _ x _ f _ t => FitsLine p g x f t
  | _ => True

/-- The text, if it is one, starts behind the left margin and ends before the right edge of the printable area, less `δ`. -/
def InWidth (p : Paper) (δ : ℚ) : Mark → Prop
  | .text _ x _ f _ t => p.margins.left ≤ x ∧ x + p.metric f t ≤ p.width - p.margins.right - 2 - δ
  | _ => True

/-- What widths are like: a space is at least a tenth of a millimeter wide, and at least `δ`, and surrounding spaces make no text narrower. -/
structure Spaces (p : Paper) (δ : ℚ) : Prop where
  nonneg : ∀ f t, 0 ≤ p.metric f t
  space : ∀ f w, p.metric f w + δ ≤ p.metric f (32 :: w)
  wide : ∀ f w, p.metric f (trimSpace w) + 1 / 10 ≤ p.metric f (32 :: w)
  trims : ∀ f w, p.metric f (trimSpace w) ≤ p.metric f w

/-- Fonts that the styles in the document lead to, from the default font; those of tables also with the selectors of first and last rows and cells. -/
structure FontSet (ctx : Ctx) (F : Font → Prop) : Prop where
  default : F defaultStyle.font
  step : ∀ i ∈ ctx.header ++ ctx.footer ++ ctx.body, ∀ st, StyleIn st i → ∀ sty, F sty.font → F (st.mutatedStyles ctx.classes sty).font
  selected : ∀ st rh rows, .table st rh rows ∈ ctx.header ++ ctx.footer ++ ctx.body → ∀ st', StyleIn st' (.table st rh rows) →
    ∀ sel sty, F sty.font → F (st'.mutatedStylesWithSelector sel ctx.classes sty).font

/-- On the pages up to `N`, every word is narrower than `W`, and so are the parts that the hyphenator makes of it, if the text is block text. -/
def RoomFor (p : Paper) (ctx : Ctx) (N : Nat) (δ W : ℚ) (sty : Styles) (iss : List Instr) : Prop :=
  ∀ page : Nat, page ≤ N → if sty.align.h = b!"block" then δ = 0 ∧ ∀ w, some w ∈ blockTokens ctx.classes page sty iss → spaced p.metric w < W ∧
      ∀ k, 1 ≤ k → k < (ctx.hyphenate w.2).length → p.metric w.1.font (restOf ctx.hyphenate k w).2 ≤ W
    else ∀ w, some w ∈ tokens ctx.classes page sty iss → spaced p.metric w < W

/-- The area the processor prints in. -/
def areaOf (p : Paper) : Area := ⟨p.margins.left, p.margins.top, p.width - p.margins.right - 2, p.height - p.margins.bottom⟩

/-- The words of a text have room between the margins. -/
def TextRoom (p : Paper) (ctx : Ctx) (N : Nat) (δ : ℚ) (F : Font → Prop) (st : Styled) (iss : List Instr) : Prop :=
  ∀ f, F f → let sty := st.mutatedStyles ctx.classes { defaultStyle with font := f }
    RoomFor p ctx N δ (wideSet ((areaOf p).x1 - (areaOf p).x0) sty.dim.width) sty iss

/-- The width inside a box with `room` for it. -/
def boxInside (room : ℚ) (sty : Styles) : ℚ := wideSet room sty.dim.width - sty.box.padding.left - sty.box.padding.right

/-- A box in an area from `x0` to `x1`: its words have room in it, its inside is between the margins, and writing ends at the left margin: the box has words,
or starts where its inside starts. -/
def BoxRoom (p : Paper) (ctx : Ctx) (N : Nat) (δ : ℚ) (F : Font → Prop) (x0 x1 : ℚ) (st : Styled) (iss : List Instr) : Prop :=
  ∀ f, F f → let sty := st.mutatedStyles ctx.classes { defaultStyle with font := f }
    0 ≤ sty.dim.offsetX + sty.box.padding.left ∧
    x0 + sty.dim.offsetX + sty.box.padding.left + boxInside (x1 - x0) sty ≤ p.width - p.margins.right - 2 ∧
    (sty.dim.offsetX + sty.box.padding.left = 0 ∨
      ∀ page : Nat, page ≤ N → (if sty.align.h = b!"block" then blockTokens ctx.classes page sty iss else tokens ctx.classes page sty iss) ≠ []) ∧
    RoomFor p ctx N δ (boxInside (x1 - x0) sty) sty iss

/-- A cell from `x0` to `x1`: what is inside its padding is between the margins, and its words and boxes have room there. -/
structure CellRoom (p : Paper) (ctx : Ctx) (N : Nat) (δ : ℚ) (F : Font → Prop) (x0 x1 : ℚ) (sty : Styles) (iss : List Instr) : Prop where
  left : p.margins.left ≤ x0 + sty.box.padding.left
  right : x1 - sty.box.padding.right ≤ p.width - p.margins.right - 2
  words : RoomFor p ctx N δ (x1 - x0 - sty.box.padding.left - sty.box.padding.right) sty iss
  boxes : ∀ st is, .box st is ∈ iss → BoxRoom p ctx N δ F (x0 + sty.box.padding.left) (x1 - sty.box.padding.right) st is

/-- The cells of a table at the left margin have room, with whatever font the table comes.  The widths do not depend on the heights, so the heights of all texts may be taken for 0 here. -/
def TableRoom (p : Paper) (ctx : Ctx) (N : Nat) (δ : ℚ) (F : Font → Prop) (st : Styled) (rows : List TableRow) : Prop :=
  ∀ f, F f → let sty := st.mutatedStyles ctx.classes { defaultStyle with font := f }
    ∀ r ∈ (layTable (fun _ _ _ u => (0, u)) ctx.classes (wideSet ((areaOf p).x1 - (areaOf p).x0) sty.dim.width) sty rows ()).1,
      ∀ j w c, r.cells[j]? = some (w, some c) →
        let x0 := p.margins.left + ((r.cells.take j).map (·.1)).sum
        CellRoom p ctx N δ F x0 (x0 + c.width) c.sty c.iss

/-- Texts, boxes and tables have room, and wherever one of them comes the position is at the left margin: at the beginning if
`known`, after a line feed, a page break, a text, a box or a table, or after being set there. -/
def Lined (p : Paper) (ctx : Ctx) (N : Nat) (δ : ℚ) (F : Font → Prop) : Bool → List Instr → Prop
  | _, [] => True
  | known, .text st iss :: is => known = true ∧ TextRoom p ctx N δ F st iss ∧ Lined p ctx N δ F true is
  | known, .box st iss :: is => known = true ∧ BoxRoom p ctx N δ F p.margins.left (p.width - p.margins.right - 2) st iss ∧ Lined p ctx N δ F true is
  | known, .table st _ rows :: is => known = true ∧ TableRoom p ctx N δ F st rows ∧ Lined p ctx N δ F true is
  | _, .setX x :: is => x = p.margins.left ∧ Lined p ctx N δ F true is
  | _, .lineFeed _ :: is => Lined p ctx N δ F true is
  | _, .pageBreak :: is => Lined p ctx N δ F true is
  | known, _ :: is => Lined p ctx N δ F known is

end Verif.Spec
