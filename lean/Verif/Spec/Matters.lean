import Verif.Spec.Alike
import Verif.Spec.Style
import Verif.Model.Fpdf
/-
Which style properties have an effect on which element.
-/
namespace Verif.Spec
open Verif.Go Verif.Model

/-- The properties of the font. -/
def Prp.ofFont (p : Prp) : Bool := p ∈ [Prp.fontFamily, .fontPointSize, .fontStyle, .fontWeight, .fontDecoration]

/-- Which properties have an effect on which element: of a font instruction and of a paragraph only the font; of a text also its color,
width, line spacing and horizontal alignment; of a box all but its margin, column width and vertical alignment; of an image its size and
offset; of a table all but margin and offset; of its rows and cells all but these and the width; of a grid none. -/
def matters : StyledKind → Prp → Bool
  | .font, p => p.ofFont
  | .paragraph, p => p.ofFont
  | .text, p => p.ofFont || p ∈ [Prp.textColor, .width, .lineSpacing, .hAlign]
  | .box, p => p ∉ [Prp.margin, .columnWidth, .vAlign]
  | .image, p => p ∈ [Prp.width, .height, .offsetX, .offsetY]
  | .table, p => p ∉ [Prp.margin, .offsetX, .offsetY]
  | .row, p => p ∉ [Prp.margin, .offsetX, .offsetY, .width]
  | .cell, p => p ∉ [Prp.margin, .offsetX, .offsetY, .width]
  | .grid, _ => false
  | .gridRow, _ => false
  | .gridPart, _ => false

/-- Two styles have the same values of the properties an element has by `m`. -/
def SameBy (m : StyledKind → Prp → Bool) (e : StyledKind) (s s' : Styles) : Prop := ∀ p, m e p = true → p.get s = p.get s'

/-- Two styles of elements, each with the classes of its document, do the same to these properties. -/
def AgreeBy (m : StyledKind → Prp → Bool) (cs cs' : Classes) (e : StyledKind) (st st' : Styled) : Prop :=
  ∀ s s', SameBy m e s s' → SameBy m e (st.mutatedStyles cs s) (st'.mutatedStyles cs' s') ∧
    ∀ sel, SameBy m e (st.mutatedStylesWithSelector sel cs s) (st'.mutatedStylesWithSelector sel cs' s')

/-- Two documents differ at most in styles, and these agree, element by element, in what the element has by `m`. -/
structure SameInBy (m : StyledKind → Prp → Bool) (d d' : Document) : Prop where
  header : AlikeAll (AgreeBy m d.styleClasses d'.styleClasses) Eq d.header d'.header
  footer : AlikeAll (AgreeBy m d.styleClasses d'.styleClasses) Eq d.footer d'.footer
  body : AlikeAll (AgreeBy m d.styleClasses d'.styleClasses) Eq d.body d'.body

/-- Two styles have the same values of the properties that matter for an element. -/
abbrev SameFor := SameBy matters

/-- Two styles of elements, each with the classes of its document, do the same to the properties that matter. -/
abbrev Agree := AgreeBy matters

/-- Two documents differ at most in styles, and these agree, element by element, in what matters. -/
abbrev SameInEffect := SameInBy matters

/-! ### Placement -/

/-- The properties that say how something looks and not where it is: colors, borders and line widths. -/
def Prp.ofPaint (p : Prp) : Bool := p ∈ [Prp.color, .textColor, .backgroundColor, .lineWidth, .border]

/-- Which properties have an effect on where things are. -/
def places (e : StyledKind) (p : Prp) : Bool := matters e p && !p.ofPaint

/-- Something on the pages, but for its color and border. -/
inductive Place
  | page
  | text (page : Nat) (x y : ℚ) (font : Font) (text : Str)
  | image (page : Nat) (src : Str) (x y width height : ℚ)
  | box (page : Nat) (x y width height : ℚ)
  | feed (page : Nat)
deriving DecidableEq

/-- What a mark adds. A box is filled within its border line, half of which is inside it; the line width is set before and counts until the
border is drawn. -/
def placeStep : ℚ × List Place → Mark → ℚ × List Place
  | (lw, ps), .page => (lw, ps ++ [.page])
  | (lw, ps), .text n x y f _ t => (lw, ps ++ [.text n x y f t])
  | (lw, ps), .image n src x y w h => (lw, ps ++ [.image n src x y w h])
  | (lw, ps), .feed n => (lw, ps ++ [.feed n])
  | (_, ps), .draw _ (.setLineWidth w) => (w, ps)
  | (lw, ps), .draw n (.fillRect x y w h) => (lw, ps ++ [.box n (x - lw / 2) (y - lw / 2) (w + lw) (h + lw)])
  | (_, ps), .draw _ .drawPath => (0, ps)
  | (lw, ps), .draw _ _ => (lw, ps)

/-- Where everything is. -/
def placed (ms : List Mark) : List Place := (ms.foldl placeStep (0, [])).2

end Verif.Spec
