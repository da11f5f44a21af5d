import Verif.Spec.Load
import Verif.Spec.Content
/-
The images of an XML file, and where in it an image can be seen (C95).
-/
namespace Verif.Spec
open Verif.Go Verif.Model

mutual
/-- The sources of the images of a tree, at any depth (outside of other images). -/
def Node.pictures : Node → List Str
  | .elem n _ kids => if n = b!"image" then [directText kids] else picturesAll kids
  | _ => []
/-- The sources of the images of a list of trees. -/
def picturesAll : List Node → List Str
  | [] => []
  | nd :: ns => nd.pictures ++ picturesAll ns
end

variable (fl : Floats) (ord : Nat → MapOrder)

/-- What can stand in a cell: images with valid styles, unknown elements around them, and anything without images. -/
inductive PicItem : Node → Prop
  | image {as kids} : (newStyled fl ord as).isSome → PicItem (.elem b!"image" as kids)
  | unknown {name as kids} : name ∉ instructionNames → (∀ nd ∈ kids, PicItem nd) → PicItem (.elem name as kids)
  | without {nd : Node} : nd.pictures = [] → PicItem nd

/-- What can stand in a row: cells, and anything without images. -/
inductive PicCell : Node → Prop
  | cell {as kids} : (∀ nd ∈ kids, PicItem fl ord nd) → PicCell (.elem b!"td" as kids)
  | without {nd : Node} : nd.pictures = [] → PicCell nd

/-- What can stand in a table: rows, and anything without images. -/
inductive PicRow : Node → Prop
  | row {as kids} : (∀ nd ∈ kids, PicCell fl ord nd) → PicRow (.elem b!"tr" as kids)
  | without {nd : Node} : nd.pictures = [] → PicRow nd

/-- What can stand in a body: images, tables, and anything without images. -/
inductive PicPlace : Node → Prop
  | image {as kids} : PicPlace (.elem b!"image" as kids)
  | table {as kids} : (∀ nd ∈ kids, PicRow fl ord nd) → PicPlace (.elem b!"table" as kids)
  | without {nd : Node} : nd.pictures = [] → PicPlace nd

/-- The files of the images that can be read, in order. -/
def readable (resolve : Str → Str) (images : Str → Option ImageDesc) (srcs : List Str) : List Str :=
  (srcs.map resolve).filter fun f => (images f).isSome

end Verif.Spec
