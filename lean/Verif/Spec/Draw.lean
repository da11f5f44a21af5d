import Mathlib.Data.Rat.Defs
import Verif.Model.Draw
/-
Specification of box drawing: what a pen does when it executes drawing commands.  Only the command type is taken
from the model.
-/
namespace Verif.Spec
open Verif.Model

/-- A straight segment between two points. -/
structure Seg where
  fromX : ℚ
  fromY : ℚ
  toX : ℚ
  toY : ℚ
deriving DecidableEq

/-- What appears on the page. -/
inductive Ink
  | fill (color : RGB) (x y width height : ℚ)
  | stroke (color : RGB) (lineWidth : ℚ) (s : Seg)
deriving DecidableEq

/-- The state of the pen: position, current width and colors, and the segments of the path not yet drawn. -/
structure Pen where
  x : ℚ
  y : ℚ
  lineWidth : ℚ
  drawColor : RGB
  fillColor : RGB
  path : List Seg

/-- Executing one command: new state and the ink it leaves. -/
def Pen.exec (p : Pen) : DrawCmd → Pen × List Ink
  | .setLineWidth w => ({ p with lineWidth := w }, [])
  | .setDrawColor c => ({ p with drawColor := c }, [])
  | .setFillColor c => ({ p with fillColor := c }, [])
  | .fillRect x y w h => (p, [.fill p.fillColor x y w h])
  | .moveTo x y => ({ p with x := x, y := y }, [])
  | .lineTo x y => ({ p with x := x, y := y, path := p.path ++ [⟨p.x, p.y, x, y⟩] }, [])
  | .drawPath => ({ p with path := [] }, p.path.map (.stroke p.drawColor p.lineWidth))

/-- Executing commands in order: the ink they leave. -/
def Pen.ink (p : Pen) : List DrawCmd → List Ink
  | [] => []
  | c :: cs => (p.exec c).2 ++ (p.exec c).1.ink cs

/-- The pen after executing commands in order. -/
def Pen.run (p : Pen) : List DrawCmd → Pen
  | [] => p
  | c :: cs => (p.exec c).1.run cs

end Verif.Spec
