import Verif.Model.Style
import Verif.Go.Utf8
/-
Model of /repo/xdoc/diff.go.
-/
namespace Verif.Model
open Verif.Go

/-- The values json.Unmarshal puts into an interface{}, as far as they occur: string, float64, map[string]interface{}. -/
inductive Json
  | str (s : Str)
  | num (q : ℚ)
  | obj (m : List (Str × Json))

/-- A value that is no map. -/
inductive JLeaf
  | str (s : Str)
  | num (q : ℚ)
  /-- a map: never equal to a string or a number -/
  | map
deriving DecidableEq

/-- xdoc/diff.go:10-14, Diff. -/
structure Diff where
  path : Str
  org : JLeaf
  mod : JLeaf
deriving DecidableEq

def Json.leaf : Json → JLeaf
  | .str s => .str s
  | .num q => .num q
  | .obj _ => .map

/-- What encoding and decoding with encoding/json makes of strings and ints: strings keep their runes (invalid bytes become
U+FFFD); an int becomes the float64 nearest to it. -/
structure JsonInts where
  toFloat : Int → ℚ

def jsonStr (s : Str) : Json := .str (encodeRunes (decodeRunes s))

def jsonInt (ji : JsonInts) (n : Int) : Json := .num (ji.toFloat n)

def jsonRGB (ji : JsonInts) (c : RGB) : Json :=
  .obj [(b!"R", jsonInt ji c.r), (b!"G", jsonInt ji c.g), (b!"B", jsonInt ji c.b)]

def jsonQuad {α : Type} (f : α → Json) (q : Quad α) : Json :=
  .obj [(b!"Left", f q.left), (b!"Top", f q.top), (b!"Right", f q.right), (b!"Bottom", f q.bottom)]

/-- xdoc/diff.go:22-27, toMapStringInterface: the fields of the embedded structs of Styles are promoted; HAlign and VAlign are
embedded non-struct types, which count as fields named like their types. -/
def stylesJson (ji : JsonInts) (s : Styles) : List (Str × Json) :=
  [(b!"Family", jsonStr s.font.family), (b!"PointSize", .num s.font.pointSize), (b!"Style", jsonStr s.font.style),
   (b!"Weight", jsonStr s.font.weight), (b!"Decoration", jsonStr s.font.decoration),
   (b!"Border", jsonQuad (jsonInt ji) s.box.border), (b!"Padding", jsonQuad .num s.box.padding),
   (b!"Margin", jsonQuad .num s.box.margin),
   (b!"Width", .num s.dim.width), (b!"Height", .num s.dim.height), (b!"LineSpacing", .num s.dim.lineSpacing),
   (b!"OffsetX", .num s.dim.offsetX), (b!"OffsetY", .num s.dim.offsetY),
   (b!"ColumnWidth", .num s.columnWidth),
   (b!"HAlign", jsonStr s.align.h), (b!"VAlign", jsonStr s.align.v),
   (b!"Foreground", jsonRGB ji s.color.foreground), (b!"Text", jsonRGB ji s.color.text),
   (b!"Background", jsonRGB ji s.color.background),
   (b!"LineWidth", .num s.lineWidth)]

/-- An iteration order for each map, named by its path. -/
structure DiffOrder where
  order : Str → List (Str × Option (List Diff)) → List (Str × Option (List Diff))
  perm : ∀ p l, (order p l).Perm l

/-- The results of the iterations, joined in order; an error in any of them is an error. -/
def joinDiffs : List (Str × Option (List Diff)) → Option (List Diff)
  | [] => some []
  | (_, none) :: _ => none
  | (_, some ds) :: rs => (joinDiffs rs).map (ds ++ ·)

mutual
/-- xdoc/diff.go:29-58, interfaceDiff.  The iterations of the loop do not influence each other, so the model computes the
result of each key and then joins them in the order of the map iteration (the first error ends the loop; all errors are
`none` here). -/
def interfaceDiff (o : DiffOrder) (path : Str) : Json → Json → Option (List Diff)
  | .obj m, mod => joinDiffs (o.order path (entryDiffs o path m mod))
  | .str s, mod => some (if JLeaf.str s ≠ mod.leaf then [⟨path, .str s, mod.leaf⟩] else [])
  | .num q, mod => some (if JLeaf.num q ≠ mod.leaf then [⟨path, .num q, mod.leaf⟩] else [])

/-- xdoc/diff.go:33-47, one result per key. -/
def entryDiffs (o : DiffOrder) (path : Str) : List (Str × Json) → Json → List (Str × Option (List Diff))
  | [], _ => []
  | (k, v) :: m, mod =>
    (k, match mod with
      | .obj mm => match mapGet k mm with
        | none => none
        | some v' => interfaceDiff o (path ++ b!":" ++ k) v v'
      | _ => none) :: entryDiffs o path m mod
end

/-- xdoc/diff.go:16-20, stylesDiff. -/
def stylesDiff (ji : JsonInts) (o : DiffOrder) (org mod : Styles) : Option (List Diff) :=
  interfaceDiff o b!"styles" (.obj (stylesJson ji org)) (.obj (stylesJson ji mod))

end Verif.Model
