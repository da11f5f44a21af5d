import Verif.Model.Process
import Verif.Spec.Process
/-
Images and boxes in table cells, and images on the page (C67-C69).
-/
namespace Verif.Spec
open Verif.Go Verif.Model

/-- The size an image of `d` pixels has where there is room enough: width and height as the style sets them; if it sets one of them, the other
one follows from the ratio of the pixels; if it sets none, there are 96 pixels to the inch. -/
structure NaturalSize (d : ImageDesc) (sty : Styles) (w h : ℚ) : Prop where
  width : 0 < sty.dim.width → w = sty.dim.width
  height : 0 < sty.dim.height → h = sty.dim.height
  ratio : ¬ (0 < sty.dim.width ∧ 0 < sty.dim.height) → w * d.heightPx = h * d.widthPx
  plain : ¬ 0 < sty.dim.width → ¬ 0 < sty.dim.height → w = d.widthPx * 254 / 960 ∧ h = d.heightPx * 254 / 960

/-- What size an image of `d` pixels gets in an area of width `W` and height `H`: it fits, it has the proportions of its natural size, it is
never larger, and it is smaller only as far as needed to fit. -/
structure ImageSize (d : ImageDesc) (sty : Styles) (W H w h : ℚ) : Prop where
  pos : 0 < w ∧ 0 < h
  fits : w ≤ W - sty.dim.offsetX ∧ h ≤ H - sty.dim.offsetY
  natural : ∃ w0 h0, NaturalSize d sty w0 h0 ∧ w * h0 = h * w0 ∧ w ≤ w0 ∧ h ≤ h0 ∧
    (w = w0 ∧ h = h0 ∨ w = W - sty.dim.offsetX ∨ h = H - sty.dim.offsetY)

/-- Moving down keeps the horizontal position, and putting an image does not move. -/
structure Stays {E : Type} (eng : Engine E) : Prop where
  setY : ∀ y e, 0 ≤ y → 0 ≤ (eng.getXY e).1 → eng.getXY (eng.setY y e) = ((eng.getXY e).1, y)
  image : ∀ src x y w h e, eng.getXY (eng.putImage src x y w h e) = eng.getXY e

/-- A line feed goes to the left margin, and moving up or down keeps the horizontal position. -/
structure FeedsLeft {E : Type} (eng : Engine E) (left : ℚ) : Prop where
  lineFeed : ∀ n e, (eng.getXY (eng.lineFeed n e)).1 = left
  setY : ∀ y e, 0 ≤ (eng.getXY e).1 → (eng.getXY (eng.setY y e)).1 = (eng.getXY e).1

/-- The images among the instructions, one after the other, all at the corner `(x, y)` of an area of width `W` and height `H`. -/
inductive ImagesAt {E : Type} (eng : Engine E) (ctx : Ctx) (curr : Styles) (x y W H : ℚ) : List Instr → E → E → Prop
  | nil {e} : ImagesAt eng ctx curr x y W H [] e e
  | other {i is e e'} : (∀ st src, i ≠ .image st src) → ImagesAt eng ctx curr x y W H is e e' → ImagesAt eng ctx curr x y W H (i :: is) e e'
  | unreadable {st src is e e'} : ctx.describe (ctx.resolve src) = none → ImagesAt eng ctx curr x y W H is (eng.setY y e) e' →
      ImagesAt eng ctx curr x y W H (.image st src :: is) e e'
  | image {st src is e e' d w h} : ctx.describe (ctx.resolve src) = some d → ImageSize d (st.mutatedStyles ctx.classes curr) W H w h →
      ImagesAt eng ctx curr x y W H is (eng.putImage (ctx.resolve src) (x + (st.mutatedStyles ctx.classes curr).dim.offsetX)
        (y + (st.mutatedStyles ctx.classes curr).dim.offsetY) w h (eng.setY y e)) e' →
      ImagesAt eng ctx curr x y W H (.image st src :: is) e e'

end Verif.Spec
