import Verif.Model.Diff
/-
Specification of the leaf properties of a style: their paths and values.
-/
namespace Verif.Spec
open Verif.Go Verif.Model

/-- The four sides of a box property. -/
def qd {α : Type} (name : Str) (q : Styles → Quad α) (v : α → JLeaf) : List (Str × (Styles → JLeaf)) :=
  [(name ++ b!":Left", fun s => v (q s).left), (name ++ b!":Top", fun s => v (q s).top),
   (name ++ b!":Right", fun s => v (q s).right), (name ++ b!":Bottom", fun s => v (q s).bottom)]

/-- The three parts of a color. -/
def col (name : Str) (c : Styles → RGB) : List (Str × (Styles → JLeaf)) :=
  [(name ++ b!":R", fun s => .num (c s).r), (name ++ b!":G", fun s => .num (c s).g), (name ++ b!":B", fun s => .num (c s).b)]

/-- All leaf properties: path and value. -/
def styleLeaves : List (Str × (Styles → JLeaf)) :=
  [(b!"styles:Family", fun s => .str s.font.family), (b!"styles:PointSize", fun s => .num s.font.pointSize),
   (b!"styles:Style", fun s => .str s.font.style), (b!"styles:Weight", fun s => .str s.font.weight),
   (b!"styles:Decoration", fun s => .str s.font.decoration)] ++
  qd b!"styles:Border" (fun s => s.box.border) (fun n => .num n) ++ qd b!"styles:Padding" (fun s => s.box.padding) .num ++
  qd b!"styles:Margin" (fun s => s.box.margin) .num ++
  [(b!"styles:Width", fun s => .num s.dim.width), (b!"styles:Height", fun s => .num s.dim.height),
   (b!"styles:LineSpacing", fun s => .num s.dim.lineSpacing), (b!"styles:OffsetX", fun s => .num s.dim.offsetX),
   (b!"styles:OffsetY", fun s => .num s.dim.offsetY), (b!"styles:ColumnWidth", fun s => .num s.columnWidth),
   (b!"styles:HAlign", fun s => .str s.align.h), (b!"styles:VAlign", fun s => .str s.align.v)] ++
  col b!"styles:Foreground" (fun s => s.color.foreground) ++ col b!"styles:Text" (fun s => s.color.text) ++
  col b!"styles:Background" (fun s => s.color.background) ++
  [(b!"styles:LineWidth", fun s => .num s.lineWidth)]

/-- The leaves whose values differ, with both values. -/
def differing (a b : Styles) : List Diff :=
  (styleLeaves.filter fun l => decide (l.2 a ≠ l.2 b)).map fun l => ⟨l.1, l.2 a, l.2 b⟩

/-- All strings of the style are valid UTF-8. -/
def Utf8Style (s : Styles) : Prop :=
  validUtf8 s.font.family = true ∧ validUtf8 s.font.style = true ∧ validUtf8 s.font.weight = true ∧
  validUtf8 s.font.decoration = true ∧ validUtf8 s.align.h = true ∧ validUtf8 s.align.v = true

/-- All ints of the style satisfy `P`. -/
def IntsStyle (P : Int → Prop) (s : Styles) : Prop :=
  (P s.box.border.left ∧ P s.box.border.top ∧ P s.box.border.right ∧ P s.box.border.bottom) ∧
  (P s.color.foreground.r ∧ P s.color.foreground.g ∧ P s.color.foreground.b) ∧
  (P s.color.text.r ∧ P s.color.text.g ∧ P s.color.text.b) ∧
  (P s.color.background.r ∧ P s.color.background.g ∧ P s.color.background.b)

/-- The text of a string in JSON: bytes that are no UTF-8 count as U+FFFD. -/
def legible (s : Str) : Str := encodeRunes (decodeRunes s)

/-- A style with the texts of its strings. -/
def legibleStyle (s : Styles) : Styles :=
  { s with font := ⟨legible s.font.family, s.font.pointSize, legible s.font.style, legible s.font.weight, legible s.font.decoration⟩,
           align := ⟨legible s.align.h, legible s.align.v⟩ }

end Verif.Spec
