import Verif.Spec.Writing
/-
Texts within boxes and cells (C78, C79).
-/
namespace Verif.Spec
open Verif.Go Verif.Model

/-- The text is within the rectangle. -/
def TextIn (mt : Font → Str → ℚ) (fh : Font → ℚ) (x0 y0 x1 y1 : ℚ) (t : TextAt) : Prop :=
  x0 ≤ t.x ∧ t.x + mt t.font t.text ≤ x1 ∧ y0 ≤ t.y ∧ t.y + fh t.font ≤ y1

/-- The second text is below the first one, or on the same line behind it. -/
def TextAfter (mt : Font → Str → ℚ) (fh : Font → ℚ) (t u : TextAt) : Prop := t.y + fh t.font ≤ u.y ∨ t.y = u.y ∧ t.x + mt t.font t.text ≤ u.x

/-- How texts are measured: fonts have heights, nothing is narrower than nothing, a space is wider than a tenth, and the rest of a
broken word is not wider than the word. -/
structure Metrics {E : Type} (eng : Engine E) (hyph : Str → List Str) (mt : Font → Str → ℚ) (fh : Font → ℚ) : Prop where
  measures : Measures eng mt
  colored : ∀ col e, eng.currentPage (eng.setTextColor col e) = eng.currentPage e
  height : ∀ f e, eng.fontHeight (eng.changeFont f e) = fh f
  nonneg : ∀ f t, 0 ≤ mt f t
  space : ∀ f w, mt f (trimSpace w) + 1 / 10 ≤ mt f (32 :: w)
  trimmed : ∀ f w, mt f (trimSpace w) ≤ mt f w
  lead : ∀ f w, mt f w ≤ mt f (32 :: w)
  rest : ∀ f w k, mt f ((hyph w).drop k).flatten ≤ mt f w

/-- All fonts of the text have the same height, and every word of it, with a space before it, fits into the width. -/
structure Plain (mt : Font → Str → ℚ) (fh : Font → ℚ) (cs : Classes) (page : Int) (sty : Styles) (iss : List Instr) (width : ℚ) : Prop where
  font : ∀ st t, .paragraph st t ∈ iss → fh (st.mutatedStyles cs sty).font = fh sty.font
  fits : ∀ w ∈ (blockTokens cs page sty iss).filterMap id, spaced mt w ≤ width

/-- The words of a text; block text has empty ones, too. -/
def textWords (cs : Classes) (page : Int) (sty : Styles) (iss : List Instr) : List Word :=
  (if sty.align.h = b!"block" then blockTokens cs page sty iss else tokens cs page sty iss).filterMap id

/-- No word of the text is higher than the last one, and every word of it, with a space before it, fits into the width. -/
structure Low (mt : Font → Str → ℚ) (fh : Font → ℚ) (cs : Classes) (page : Int) (sty : Styles) (iss : List Instr) (width : ℚ) : Prop where
  font : ∀ w ∈ textWords cs page sty iss, 0 ≤ fh w.1.font ∧ fh w.1.font ≤ fh (lastFont sty (textWords cs page sty iss))
  fits : ∀ w ∈ (blockTokens cs page sty iss).filterMap id, spaced mt w ≤ width

/-- Drawing does not touch texts or page; moving down keeps font, color and texts. -/
structure Frames {E : Type} (eng : Engine E) (look : E → Look) (placed : E → List TextAt) : Prop where
  draw : ∀ d e, placed (eng.draw d e) = placed e ∧ eng.currentPage (eng.draw d e) = eng.currentPage e
  setY : ∀ y e, 0 ≤ y → ∃ x, look (eng.setY y e) = { look e with x := x, y := y }
  kept : ∀ y e, placed (eng.setY y e) = placed e ∧ eng.currentPage (eng.setY y e) = eng.currentPage e
  setX : ∀ x e, eng.currentPage (eng.setX x e) = eng.currentPage e

end Verif.Spec
