import Verif.Model.Dim
/-
Model of the arithmetic of /repo/image.go.
-/
namespace Verif.Model
open Verif.Go

/-- image.go:17-21, ImageDescriptor (the format is not used). -/
structure ImageDesc where
  widthPx : Int
  heightPx : Int
deriving DecidableEq

/-- image.go:15, Dpi96. -/
def dpi96 : ℚ := 96

/-- image.go:23-26 (25.4 is exact here). -/
def ImageDesc.widthMm (d : ImageDesc) (dpi : ℚ) : ℚ := d.widthPx / (dpi / (254 / 10))

/-- image.go:28-31 -/
def ImageDesc.heightMm (d : ImageDesc) (dpi : ℚ) : ℚ := d.heightPx / (dpi / (254 / 10))

/-- image.go:68-80: the size asked for by style and image. -/
def imageWanted (d : ImageDesc) (sty : Styles) : ℚ × ℚ :=
  let idWidth := d.widthMm dpi96
  let idHeight := d.heightMm dpi96
  if sty.dim.width > 0 ∧ sty.dim.height > 0 then (sty.dim.width, sty.dim.height)
  else if sty.dim.width ≤ 0 ∧ sty.dim.height > 0 then (idWidth / idHeight * sty.dim.height, sty.dim.height)
  else if sty.dim.width > 0 ∧ sty.dim.height ≤ 0 then (sty.dim.width, idHeight / idWidth * sty.dim.width)
  else (idWidth, idHeight)

/-- image.go:84-91: scaling to the printable area. -/
def imageFit (paWidth paHeight width height : ℚ) : ℚ × ℚ :=
  let height' := if width > paWidth then height * paWidth / width else height
  let width' := if width > paWidth then paWidth else width
  let width'' := if height' > paHeight then width' * paHeight / height' else width'
  let height'' := if height' > paHeight then paHeight else height'
  (width'', height'')

/-- What renderImage asks the engine to put: position and size. -/
structure Placed where
  x : ℚ
  y : ℚ
  width : ℚ
  height : ℚ
deriving DecidableEq

/-- image.go:58-93, renderImage after the styles are known: `x`, `y` is the write position. -/
def placeImage (d : ImageDesc) (sty : Styles) (x y : ℚ) (pa : Area) : Placed :=
  let wanted := imageWanted d sty
  let s := imageFit (pa.width - sty.dim.offsetX) (pa.height - sty.dim.offsetY) wanted.1 wanted.2
  { x := x + sty.dim.offsetX, y := y + sty.dim.offsetY, width := s.1, height := s.2 }

end Verif.Model
