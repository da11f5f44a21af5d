import Verif.Spec.Bottom
import Verif.Spec.Margins
/-
What C98 talks about: texts that come one below the other, or one behind the other.
-/
namespace Verif.Spec
open Verif.Go Verif.Model

/-- If both are texts: the second is on a later page, or below the first, or on the same line behind it. -/
def ComesAfter (p : Paper) : Mark → Mark → Prop
  | .text n x y f _ t, .text n' x' y' _ _ _ => n < n' ∨ n = n' ∧ (y + lineHeight f ≤ y' ∨ y = y' ∧ x + p.metric f t ≤ x')
  | _, _ => True

/-- If both are texts: their rectangles have no inner point in common. -/
def Apart (p : Paper) : Mark → Mark → Prop
  | .text n x y f _ t, .text n' x' y' f' _ t' => n ≠ n' ∨ y + lineHeight f ≤ y' ∨ y' + lineHeight f' ≤ y ∨ x + p.metric f t ≤ x' ∨ x' + p.metric f' t' ≤ x
  | _, _ => True

/-- Fonts that the styles in the document lead to, from the default font; none of negative size. -/
structure FontSizes (ctx : Ctx) (F : Font → Prop) : Prop where
  default : F defaultStyle.font
  plain : ∀ i ∈ ctx.header ++ ctx.footer ++ ctx.body, ∀ st, StyleIn st i → ∀ sty, F sty.font → F (st.mutatedStyles ctx.classes sty).font
  selected : ∀ i ∈ ctx.header ++ ctx.footer ++ ctx.body, ∀ st, StyleIn st i → ∀ sel sty, F sty.font → F (st.mutatedStylesWithSelector sel ctx.classes sty).font
  size : ∀ f, F f → 0 ≤ f.pointSize

/-- The words of a text, as they come on a page. -/
def wordsOn (ctx : Ctx) (page : Int) (sty : Styles) (iss : List Instr) : List (Option Word) :=
  if sty.align.h = b!"block" then blockTokens ctx.classes page sty iss else tokens ctx.classes page sty iss

/-- The lines are not closer than the font is high, and all words have the same size. -/
def Airy (ctx : Ctx) (sty : Styles) (iss : List Instr) : Prop :=
  1 ≤ sty.dim.lineSpacing ∧ ∀ st t, .paragraph st t ∈ iss → (st.mutatedStyles ctx.classes sty).font.pointSize = sty.font.pointSize

/-- A text, with whatever font it comes. -/
def TextStacks (ctx : Ctx) (F : Font → Prop) (st : Styled) (iss : List Instr) : Prop :=
  ∀ f, F f → Airy ctx (st.mutatedStyles ctx.classes { defaultStyle with font := f }) iss

/-- A box, with whatever font it comes: it does not reach above the position, and it is empty, or as high as its words, which are there, and the same on all
pages. -/
def BoxStacks (ctx : Ctx) (F : Font → Prop) (st : Styled) (iss : List Instr) : Prop :=
  ∀ f, F f → let sty := st.mutatedStyles ctx.classes { defaultStyle with font := f }
    Airy ctx sty iss ∧ 0 ≤ sty.dim.offsetY + sty.box.padding.top ∧ 0 ≤ sty.box.padding.bottom ∧
    (iss = [] ∨ sty.dim.height ≤ 0 ∧ ∀ page page', wordsOn ctx page sty iss = wordsOn ctx page' sty iss ∧ wordsOn ctx page sty iss ≠ [])

/-- Instructions that only move down: no tables, and SetY only if `fresh`: nothing of the body is on the page yet. -/
def Stacked (p : Paper) (ctx : Ctx) (F : Font → Prop) : Bool → List Instr → Prop
  | _, [] => True
  | _, .text st iss :: is => TextStacks ctx F st iss ∧ Stacked p ctx F false is
  | _, .box st iss :: is => BoxStacks ctx F st iss ∧ Stacked p ctx F false is
  | _, .table _ _ _ :: _ => False
  | fresh, .setY y :: is => fresh = true ∧ p.margins.top ≤ y ∧ Stacked p ctx F true is
  | fresh, .lineFeed n :: is => 0 ≤ n ∧ Stacked p ctx F fresh is
  | _, .pageBreak :: is => Stacked p ctx F true is
  | fresh, _ :: is => Stacked p ctx F fresh is

end Verif.Spec
