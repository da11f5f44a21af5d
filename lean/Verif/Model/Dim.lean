import Verif.Model.Style
/-
Model of /repo/dim.go and /repo/default.go.
-/
namespace Verif.Model
open Verif.Go

/-- dim.go:9-11, PrintableArea. -/
structure Area where
  x0 : ℚ
  y0 : ℚ
  x1 : ℚ
  y1 : ℚ
deriving DecidableEq

/-- dim.go:17-19 -/
def Area.width (a : Area) : ℚ := a.x1 - a.x0

/-- dim.go:21-23 -/
def Area.height (a : Area) : ℚ := a.y1 - a.y0

/-- dim.go:25-32 -/
def Area.withPadding (a : Area) (pd : Quad ℚ) : Area :=
  { x0 := a.x0 + pd.left, y0 := a.y0 + pd.top, x1 := a.x1 - pd.right, y1 := a.y1 - pd.bottom }

/-- dim.go:34-40, PrintableArea.EffectiveWidth. -/
def Area.effectiveWidth (a : Area) (width : ℚ) : ℚ :=
  let ew := a.width
  if width < 0 ∨ width > ew then ew else width

/-- dim.go:42-46, Page (its width and height are never read). -/
structure Page where
  printableArea : Area
deriving DecidableEq

/-- dim.go:48-54, Page.EffectiveWidth. -/
def Page.effectiveWidth (p : Page) (width : ℚ) : ℚ :=
  let ew := p.printableArea.x1 - p.printableArea.x0
  if width < 0 ∨ width > ew then ew else width

/-- style/color.go:31 -/
def black : RGB := ⟨0, 0, 0⟩
def white : RGB := ⟨255, 255, 255⟩

/-- default.go:5-42, DefaultStyle. -/
def defaultStyle : Styles where
  font := { family := b!"Arial", pointSize := 12, style := b!"normal", weight := b!"normal", decoration := b!"normal" }
  box := { border := ⟨0, 0, 0, 0⟩, padding := ⟨0, 0, 0, 0⟩, margin := ⟨0, 0, 0, 0⟩ }
  dim := { width := -1, height := -1, lineSpacing := 3 / 2, offsetX := 0, offsetY := 0 }
  columnWidth := -1
  align := { h := b!"left", v := b!"top" }
  color := { foreground := black, text := black, background := white }
  lineWidth := 1

/-- The zero value `style.Styles{}`. -/
def zeroStyles : Styles where
  font := { family := [], pointSize := 0, style := [], weight := [], decoration := [] }
  box := { border := ⟨0, 0, 0, 0⟩, padding := ⟨0, 0, 0, 0⟩, margin := ⟨0, 0, 0, 0⟩ }
  dim := { width := 0, height := 0, lineSpacing := 0, offsetX := 0, offsetY := 0 }
  columnWidth := 0
  align := { h := [], v := [] }
  color := { foreground := ⟨0, 0, 0⟩, text := ⟨0, 0, 0⟩, background := ⟨0, 0, 0⟩ }
  lineWidth := 0

end Verif.Model
