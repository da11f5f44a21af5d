import Verif.Spec.Content
import Verif.Spec.TableStyles
import Verif.Spec.Draw
/-
In which font and color each word is written, on which page, and which boxes are drawn (C88).
-/
namespace Verif.Spec
open Verif.Go Verif.Model

/-- How far processing has come: the current font and the number of the page. -/
structure At where
  font : Font
  page : Nat
deriving DecidableEq

/-- The current styles: the default ones with the current font. -/
def At.styles (a : At) : Styles := { defaultStyle with font := a.font }

/-- What the processor asks the engine for.  `before` and `after` tell the current font and the page before and after a call in which there
can be a new page, with footer and header. -/
inductive Ask
  | text (font : Font) (color : RGB) (t : Str) (before after : At)
  | image (page : Nat) (src : Str)
  | box (page : Nat) (sty : Styles) (r : Area)
  | page (before after : At)
deriving DecidableEq

/-- The words of a text; block text without words has one empty word. -/
def wordsIn (block : Bool) (page : Nat) (t : Str) : List Str :=
  if wordsOf page t = [] then (if block then [[]] else []) else wordsOf page t

/-- The words of the instructions with their fonts: that of the whole, or that of the paragraph. -/
def styledWords (block : Bool) (cs : Classes) (sty : Styles) (page : Nat) : List Instr → List (Font × Str)
  | [] => []
  | .textBlock t :: iss => (wordsIn block page t).map (fun w => (sty.font, w)) ++ styledWords block cs sty page iss
  | .paragraph st t :: iss => (wordsIn block page t).map (fun w => ((st.mutatedStyles cs sty).font, w)) ++ styledWords block cs sty page iss
  | _ :: iss => styledWords block cs sty page iss

/-- The font of the last word becomes the current one. -/
def At.through (a : At) (ws : List (Font × Str)) : At := { a with font := (ws.getLast?.map (·.1)).getD a.font }

/-- Is it block text? -/
def isBlock (sty : Styles) : Bool := sty.align.h = b!"block"

/-- Each word in one piece or broken with a hyphen between two of its parts, with or without a space before, in its font. -/
inductive WrittenIn (hyph : Str → List Str) : List (Font × Str) → List (Font × Str) → Prop
  | nil : WrittenIn hyph [] []
  | whole {f w ws t ts} : (t = w ∨ t = 32 :: w) → WrittenIn hyph ws ts → WrittenIn hyph ((f, w) :: ws) ((f, t) :: ts)
  | broken {f w ws t u ts} (i : Nat) : 1 ≤ i → i < (hyph w).length →
      (t = ((hyph w).take i).flatten ++ [45] ∨ t = 32 :: (((hyph w).take i).flatten ++ [45])) → u = ((hyph w).drop i).flatten →
      WrittenIn hyph ws ts → WrittenIn hyph ((f, w) :: ws) ((f, t) :: (f, u) :: ts)

/-- The texts are written one after the other, each in its font, which becomes the current one first. -/
inductive WritesIn (color : RGB) : At → List (Font × Str) → List Ask → At → Prop
  | nil {a} : WritesIn color a [] [] a
  | cons {a f t ts b ps c} : WritesIn color b ts ps c → WritesIn color a ((f, t) :: ts) (.text f color t ⟨f, a.page⟩ b :: ps) c

/-- One after the other. -/
inductive Turns {α : Type} (R : α → At → List Ask → At → Prop) : List α → At → List Ask → At → Prop
  | nil {a} : Turns R [] a [] a
  | cons {x xs a ps b qs c} : R x a ps b → Turns R xs b qs c → Turns R (x :: xs) a (ps ++ qs) c

/-- What has to be known of the surroundings: the style classes, the hyphenator, what is put for an image on a page, and the area between the margins. -/
structure Surroundings where
  classes : Classes
  hyph : Str → List Str
  image : Nat → Str → List Ask
  area : Area

variable (m : Surroundings)

/-- Measuring a text with the styles `sty`. -/
def measured (block : Bool) (sty : Styles) (iss : List Instr) (a : At) : At := a.through (styledWords block m.classes sty a.page iss)

/-- Writing a text with the styles `sty`: it is measured first. -/
def TextAsks (sty : Styles) (iss : List Instr) (a : At) (ps : List Ask) (b : At) : Prop :=
  ∃ ts, WrittenIn m.hyph (styledWords (isBlock sty) m.classes sty a.page iss) ts ∧ WritesIn sty.color.text (measured m (isBlock sty) sty iss a) ts ps b

/-- Measuring a box or a cell with the styles `sty`: not if the height is given. -/
def boxMeasured (sty : Styles) (iss : List Instr) (a : At) : At := if sty.dim.height > 0 then a else measured m (isBlock sty) sty iss a

/-- A given width, if there is room for it; otherwise the whole area. -/
def wide (w : ℚ) (area : Area) : ℚ := if 0 ≤ w ∧ w ≤ area.x1 - area.x0 then w else area.x1 - area.x0

/-- The rectangle of a box in an area: it has the given width and height (both without the padding for the height). -/
def RectOf (sty : Styles) (area r : Area) : Prop :=
  r.x1 - r.x0 = wide sty.dim.width area ∧ (0 < sty.dim.height → r.y1 - r.y0 = sty.dim.height + sty.box.padding.top + sty.box.padding.bottom)

/-- A box in an area: its styles are those of now; it is measured; there may be a new page; it is drawn, once, and then its text is written over it. -/
def BoxAsks (area : Area) (st : Styled) (iss : List Instr) (a : At) (ps : List Ask) (b : At) : Prop :=
  let sty := st.mutatedStyles m.classes a.styles
  let a1 := boxMeasured m sty iss a
  let drawn := fun a' ps => ∃ r ts, RectOf sty area r ∧ TextAsks m sty iss a' ts b ∧ ps = .box a'.page sty r :: ts
  drawn a1 ps ∨ ∃ a2 qs, drawn a2 qs ∧ ps = .page a1 a2 :: qs

/-- Boxes and images of a cell; a box is measured once more. -/
def ItemAsks (area : Area) : Instr → At → List Ask → At → Prop
  | .box st iss, a, ps, b => BoxAsks m area st iss (boxMeasured m (st.mutatedStyles m.classes a.styles) iss a) ps b
  | .image _ src, a, ps, b => ps = m.image a.page src ∧ b = a
  | _, a, ps, b => ps = [] ∧ b = a

/-- What is left of a rectangle within the padding. -/
def within (pd : Quad ℚ) (r : Area) : Area := ⟨r.x0 + pd.left, r.y0 + pd.top, r.x1 - pd.right, r.y1 - pd.bottom⟩

/-- A cell, given by its styles and contents: it is drawn, once; its text is measured as if it were not block text, and written; then its boxes
and images. -/
def CellAsks (cell : Styles × List Instr) (a : At) (ps : List Ask) (b : At) : Prop :=
  ∃ r a1 ts qs, TextAsks m cell.1 cell.2 (measured m false cell.1 cell.2 a) ts a1 ∧ Turns (ItemAsks m (within cell.1.box.padding r)) cell.2 a1 qs b ∧
    ps = .box a.page cell.1 r :: (ts ++ qs)

/-- The cells of a row. -/
def RowAsks : List (Styles × List Instr) → At → List Ask → At → Prop := Turns (CellAsks m)

/-- The rows from number `i` on; before a row there can be a new page, and then (but not before the first row) the head rows. -/
inductive RowsAsk (head : List (List (Styles × List Instr))) : Nat → List (List (Styles × List Instr)) → At → List Ask → At → Prop
  | nil {i a} : RowsAsk head i [] a [] a
  | same {i row rows a ps b qs c} : RowAsks m row a ps b → RowsAsk head (i + 1) rows b qs c → RowsAsk head i (row :: rows) a (ps ++ qs) c
  | page {i row rows a a1 hs a2 ps b qs c} : Turns (RowAsks m) (if i = 0 then [] else head) a1 hs a2 → RowAsks m row a2 ps b →
      RowsAsk head (i + 1) rows b qs c → RowsAsk head i (row :: rows) a (.page a a1 :: (hs ++ ps ++ qs)) c

/-- The styles of an element at a place that may have a name. -/
def stylesAt (cs : Classes) (place : Option Str) (st : Styled) (sty : Styles) : Styles :=
  match place with
  | some sel => st.mutatedStylesWithSelector sel cs sty
  | none => st.mutatedStyles cs sty

/-- The cells of a table with their styles. -/
def styledCells (cs : Classes) (sty : Styles) (rows : List TableRow) : List (List (Styles × List Instr)) :=
  rows.mapIdx fun i r => r.cells.mapIdx fun j c =>
    (stylesAt cs (placeName b!"first-cell" b!"last-cell" j r.cells.length) c.st
      (stylesAt cs (placeName b!"first-row" b!"last-row" i rows.length) r.st sty), c.iss)

/-- A table: the styles of its cells are those of now; all cells are measured; there may be a new page; then all rows. `extra` rows without
contents are added where cells reach below the last row. -/
def TableAsks (st : Styled) (repeated : Int) (rows : List TableRow) (a : At) (ps : List Ask) (b : At) : Prop :=
  let cells := styledCells m.classes (st.mutatedStyles m.classes a.styles) rows
  let a1 := cells.flatten.foldl (fun a cell => boxMeasured m cell.1 cell.2 a) a
  ∃ extra, let all := cells ++ List.replicate extra []
    RowsAsk m (all.take repeated.toNat) 0 all a1 ps b ∨ ∃ a2 qs, RowsAsk m (all.take repeated.toNat) 0 all a2 qs b ∧ ps = .page a1 a2 :: qs

/-- What an instruction of the body, header or footer asks for. -/
def InstrAsks : Instr → At → List Ask → At → Prop
  | .font st, a, ps, b => ps = [] ∧ b = { a with font := (st.mutatedStyles m.classes a.styles).font }
  | .text st iss, a, ps, b => TextAsks m (st.mutatedStyles m.classes a.styles) iss a ps b
  | .box st iss, a, ps, b => BoxAsks m m.area st iss a ps b
  | .image _ src, a, ps, b => ps = m.image a.page src ∧ b = a
  | .table st repeated rows, a, ps, b => TableAsks m st repeated rows a ps b
  | .pageBreak, a, ps, b => ps = [.page a b]
  | _, a, ps, b => ps = [] ∧ b = a

/-- What a document part asks for, instruction by instruction. -/
def PartAsks : List Instr → At → List Ask → At → Prop := Turns (InstrAsks m)

/-- What is to be seen in the document. -/
inductive Shown
  | text (page : Nat) (font : Font) (color : RGB) (t : Str)
  | image (page : Nat) (src : Str)
  | draw (page : Nat) (cmd : DrawCmd)
  | page
deriving DecidableEq

/-- A filled rectangle, half a line smaller on all sides, in the background color; then lines in the foreground color, on the sides with a border. -/
def boxInk (sty : Styles) (r : Area) : List Ink :=
  let h := sty.lineWidth / 2
  let line := fun (border : Int) x y x' y' => if border > 0 then [Ink.stroke sty.color.foreground sty.lineWidth ⟨x, y, x', y'⟩] else []
  .fill sty.color.background (r.x0 + h) (r.y0 + h) (r.x1 - r.x0 - sty.lineWidth) (r.y1 - r.y0 - sty.lineWidth) ::
    (line sty.box.border.top (r.x0 - h) r.y0 r.x1 r.y0 ++ line sty.box.border.right r.x1 r.y0 r.x1 r.y1 ++
      line sty.box.border.bottom r.x1 r.y1 r.x0 r.y1 ++ line sty.box.border.left r.x0 r.y1 r.x0 r.y0)

/-- The drawing commands leave exactly that on the paper, whatever was drawn before. -/
def DrawsBox (sty : Styles) (r : Area) (cmds : List DrawCmd) : Prop :=
  ∀ pen : Pen, pen.path = [] → pen.ink cmds = boxInk sty r ∧ (pen.run cmds).path = []

/-- From what is asked for to what is to be seen, when all of it is on page `k`. -/
inductive OnePage (k : Nat) : List Ask → List Shown → Prop
  | nil : OnePage k [] []
  | text {f col t a ps ds} : a.page = k → OnePage k ps ds → OnePage k (.text f col t a a :: ps) (.text k f col t :: ds)
  | image {src ps ds} : OnePage k ps ds → OnePage k (.image k src :: ps) (.image k src :: ds)
  | box {sty r cmds ps ds} : DrawsBox sty r cmds → OnePage k ps ds → OnePage k (.box k sty r :: ps) (cmds.map (.draw k) ++ ds)

/-- What a header or footer shows: there is no new page in it. -/
def HeadOrFoot (iss : List Instr) (a : At) (ds : List Shown) (b : At) : Prop := ∃ ps, PartAsks m iss a ps b ∧ OnePage a.page ps ds ∧ b.page = a.page

/-- A new page: the footer of the page before, and the header of the new one. -/
inductive NewPage (header footer : List Instr) : At → List Shown → At → Prop
  | mk {a fs a1 hs b} : HeadOrFoot m footer a fs a1 → HeadOrFoot m header { a1 with page := a.page + 1 } hs b → NewPage header footer a (fs ++ .page :: hs) b

/-- From what is asked for to what is to be seen, from page `k` to page `l`: a text is on the current page, or on a new one. -/
inductive Showing (header footer : List Instr) : Nat → List Ask → List Shown → Nat → Prop
  | nil {k} : Showing header footer k [] [] k
  | text {k f col t a ps ds l} : a.page = k → Showing header footer k ps ds l → Showing header footer k (.text f col t a a :: ps) (.text k f col t :: ds) l
  | turned {k f col t a ns b ps ds l} : a.page = k → NewPage m header footer a ns b → Showing header footer (k + 1) ps ds l →
      Showing header footer k (.text f col t a b :: ps) (ns ++ .text (k + 1) f col t :: ds) l
  | image {k src ps ds l} : Showing header footer k ps ds l → Showing header footer k (.image k src :: ps) (.image k src :: ds) l
  | box {k sty r cmds ps ds l} : DrawsBox sty r cmds → Showing header footer k ps ds l →
      Showing header footer k (.box k sty r :: ps) (cmds.map (.draw k) ++ ds) l
  | page {k a ns b ps ds l} : a.page = k → NewPage m header footer a ns b → Showing header footer (k + 1) ps ds l →
      Showing header footer k (.page a b :: ps) (ns ++ ds) l

/-- What the body of the document shows. -/
def Shows (header footer iss : List Instr) (a : At) (ds : List Shown) (b : At) : Prop :=
  ∃ ps, PartAsks m iss a ps b ∧ Showing m header footer a.page ps ds b.page

/-- What is to be seen on the pages of the engine of the repository, in order. -/
def shownOn (e : Fpdf) : List Shown := e.out.filterMap fun
  | .text page _ _ f c t => some (.text page f c t)
  | .image page src _ _ _ _ => some (.image page src)
  | .draw page cmd => some (.draw page cmd)
  | .page => some .page
  | _ => none

/-- The surroundings of a processor: what it was given, and the paper; the area ends 2 mm left of the right margin. -/
def settingOf (p : Paper) (ctx : Ctx) : Surroundings where
  classes := ctx.classes
  hyph := ctx.hyphenate
  image page src := if (ctx.describe (ctx.resolve src)).isSome then [.image page (ctx.resolve src)] else []
  area := ⟨p.margins.left, p.margins.top, p.width - p.margins.right - 2, p.height - p.margins.bottom⟩

end Verif.Spec
