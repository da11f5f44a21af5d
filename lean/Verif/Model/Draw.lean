import Verif.Model.Dim
/-
Model of /repo/draw.go: the drawing commands sent to the engine.
-/
namespace Verif.Model
open Verif.Go

/-- The drawing part of the Engine interface (engine/engine.go:33-40), as commands. -/
inductive DrawCmd
  | setLineWidth (w : ℚ)
  | setDrawColor (c : RGB)
  | setFillColor (c : RGB)
  | fillRect (x y width height : ℚ)
  | moveTo (x y : ℚ)
  | lineTo (x y : ℚ)
  | drawPath
deriving DecidableEq

/-- draw.go:17-36, one edge: drawn if its border value is positive, otherwise only moved along. -/
def edge (border : Int) (x y : ℚ) : DrawCmd := if border > 0 then .lineTo x y else .moveTo x y

/-- draw.go:5-39, drawBox: the commands in the order they are sent. -/
def drawBox (x0 y0 x1 y1 : ℚ) (sty : Styles) : List DrawCmd :=
  let halfLine := sty.lineWidth / 2
  let width := x1 - x0
  let height := y1 - y0
  [ .setLineWidth sty.lineWidth,
    .setDrawColor sty.color.foreground,
    .setFillColor sty.color.background,
    .fillRect (x0 + halfLine) (y0 + halfLine) (width - 2 * halfLine) (height - 2 * halfLine),
    .moveTo (x0 - halfLine) y0,
    edge sty.box.border.top (x0 + width) y0,
    edge sty.box.border.right (x0 + width) y1,
    edge sty.box.border.bottom x0 y1,
    edge sty.box.border.left x0 y0,
    .drawPath ]

end Verif.Model
