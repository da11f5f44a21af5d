import Verif.Spec.TextLines
/-
Where the words of a text are on the page (C64-C66).
-/
namespace Verif.Spec
open Verif.Go Verif.Model

/-- A text on the page. -/
structure TextAt where
  x : ℚ
  y : ℚ
  font : Font
  color : RGB
  text : Str
deriving DecidableEq

/-- Position, font and color for the next text. -/
structure Look where
  x : ℚ
  y : ℚ
  font : Font
  color : RGB

/-- The engine writes a text at the current position, in the current font and color, as long as it fits above `bottom` and left of
`right`.  `look` tells position, font and color, `placed` what has been written. -/
structure Writes {E : Type} (eng : Engine E) (c : Calls E) (mt : Font → Str → ℚ) (fh : Font → ℚ) (right bottom : ℚ)
    (look : E → Look) (placed : E → List TextAt) : Prop where
  xy : ∀ e, eng.getXY e = ((look e).x, (look e).y)
  font : ∀ f e, look (eng.changeFont f e) = { look e with font := f } ∧ placed (eng.changeFont f e) = placed e
  color : ∀ col e, look (eng.setTextColor col e) = { look e with color := col } ∧ placed (eng.setTextColor col e) = placed e
  setX : ∀ x e, 0 ≤ x → look (eng.setX x e) = { look e with x := x } ∧ placed (eng.setX x e) = placed e
  feed : ∀ n e, (∃ x, look (eng.lineFeed n e) = { look e with x := x, y := (look e).y + n * fh (look e).font }) ∧
    placed (eng.lineFeed n e) = placed e
  write : ∀ t s, 0 ≤ (look s.eng).x → (look s.eng).x + mt (look s.eng).font t ≤ right → (look s.eng).y + fh (look s.eng).font ≤ bottom →
    ∃ s', c.writeText t s = some ((), s') ∧ look s'.eng = { look s.eng with x := (look s.eng).x + mt (look s.eng).font t } ∧
      placed s'.eng = placed s.eng ++ [⟨(look s.eng).x, (look s.eng).y, (look s.eng).font, (look s.eng).color, t⟩]

/-- A line: texts with their fonts and the places where they start, from left to right. -/
abbrev SetLine := List (ℚ × Font × Str)

/-- Texts one after the other from `x` on, with a gap between them. -/
def runFrom (mt : Font → Str → ℚ) (gap : ℚ) : ℚ → List (Font × Str) → SetLine
  | _, [] => []
  | x, (f, t) :: ts => (x, f, t) :: runFrom mt gap (x + mt f t + gap) ts

/-- Lines below each other.  The distance to the next line is that of the font at the end of the line (`font` is the font before). -/
def stack (fh : Font → ℚ) (spacing : ℚ) (color : RGB) : ℚ → Font → List SetLine → List TextAt
  | _, _, [] => []
  | y, font, l :: ls =>
    let font := (l.getLast?.map (·.2.1)).getD font
    l.map (fun i => ⟨i.1, y, i.2.1, color, i.2.2⟩) ++ stack fh spacing color (y + spacing * fh font) font ls

/-- Height and font after the lines. -/
def below (fh : Font → ℚ) (spacing : ℚ) : ℚ → Font → List SetLine → ℚ × Font
  | y, font, [] => (y, font)
  | y, font, l :: ls =>
    let font := (l.getLast?.map (·.2.1)).getD font
    below fh spacing (y + spacing * fh font) font ls

/-- All texts are within the limits. -/
def TextsFit (mt : Font → Str → ℚ) (fh : Font → ℚ) (right bottom : ℚ) (ps : List TextAt) : Prop :=
  ∀ p ∈ ps, 0 ≤ p.x ∧ p.x + mt p.font p.text ≤ right ∧ p.y + fh p.font ≤ bottom

/-- The texts of a line of words: spaces between the words. -/
def lineTexts (ws : List Word) : List (Font × Str) := (setWords ws).map fun i => (i.sty.font, i.text)

/-- A line of block text: stretched to a tenth less than the width, unless it has one text only or is to be left as it is. -/
def blockLine (mt : Font → Str → ℚ) (x0 width : ℚ) (items : List TextItem) (asIs : Bool) : SetLine :=
  if items.length ≤ 1 ∨ asIs = true then runFrom mt 0 x0 (items.map fun i => (i.sty.font, i.text))
  else runFrom mt ((width - 1 / 10 - pureWidth mt items) / (items.length - 1 : ℚ)) x0 (items.map fun i => (i.sty.font, trimSpace i.text))

/-- Where the last text of a line ends. -/
def endOf (mt : Font → Str → ℚ) (l : SetLine) : Option ℚ := l.getLast?.map fun i => i.1 + mt i.2.1 i.2.2

/-- The font of the last word of the text. -/
def lastFont (sty : Styles) (ws : List Word) : Font := (ws.getLast?.map (·.1.font)).getD sty.font

/-- How far from the left edge a line starts if `space` is left. -/
def indent (h : Str) (space : ℚ) : ℚ := if h = b!"right" then space else if h = b!"center" then space / 2 else 0

end Verif.Spec
