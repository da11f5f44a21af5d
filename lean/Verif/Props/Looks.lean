import Verif.Proofs.Looks
import Verif.Props.TextLines
/-
Property C88: in which font and color each word is written, on which page, and which boxes are drawn (/repo/process.go, /repo/table.go, /repo/text_lines.go).
-/
namespace Verif.Props
open Verif.Go Verif.Model Verif.Proofs Verif.Spec

variable {p : Paper} {ctx : Ctx} {n : Nat}

/-- C88: processing a part of the document - body, header or footer - with the current font and on the page given by `a`. -/
theorem C88_part (hw : ∀ w, (ctx.hyphenate w).flatten <:+: w) {iss : List Instr} {s s' : PState Fpdf} {a : At} (hp : 0 < s.eng.page)
    (hc : s.curr = a.styles) (hpg : s.eng.page = a.page) (h : processInstrs (Fpdf.engine p) ctx (callsAt (Fpdf.engine p) ctx n) iss s = some ((), s')) :
    ∃ ds b, Shows (settingOf p ctx) ctx.header ctx.footer iss a ds b ∧ shownOn s'.eng = shownOn s.eng ++ ds ∧ s'.curr = b.styles ∧ s'.eng.page = b.page := by
  obtain ⟨ps, b, h1, h2, h3, -⟩ := processInstrs_asks (draws hw n).decent hw iss _ _ _ _ ⟨hc, hpg⟩ trivial h
  obtain ⟨ds, h4, h5, -⟩ := (draws hw n).shows _ _ _ hp h2
  rw [hpg, h3.2] at h4
  exact ⟨ds, b, ⟨ps, h1, h4⟩, h5.2, h3.1, h3.2⟩

/-- C88: the whole document.  It starts with the default font on page 1 with the header; the current font goes from the header to the body, and
from there to the last footer. -/
theorem C88_document (hw : ∀ w, (ctx.hyphenate w).flatten <:+: w) {r : PdfResult} {s' : PState Fpdf}
    (h : process (Fpdf.engine p) ctx n (newProcessor (Fpdf.new p)) = some (r, s')) :
    ∃ hd a ds b ft, HeadOrFoot (settingOf p ctx) ctx.header ⟨defaultStyle.font, 1⟩ hd a ∧
      Shows (settingOf p ctx) ctx.header ctx.footer ctx.body a ds b ∧
      ((∃ d, HeadOrFoot (settingOf p ctx) ctx.footer b ft d) ∨ r.failed = true ∧ ft = []) ∧
      shownOn s'.eng = .page :: (hd ++ ds ++ ft) ∧ s'.eng.page = b.page :=
  process_shows hw h

/-- How to read `NewPage`: without header and footer the current font stays. -/
theorem C88_bare {m : Surroundings} {a b : At} {ns : List Shown} (h : NewPage m [] [] a ns b) : ns = [.page] ∧ b = { a with page := a.page + 1 } := by
  cases h with
  | mk h1 h2 =>
    obtain ⟨fq, h1, h3, -⟩ := h1
    obtain ⟨hq, h2, h4, -⟩ := h2
    cases h1
    cases h2
    cases h3
    cases h4
    exact ⟨rfl, rfl⟩

/-- How to read `WrittenIn`: without hyphenation there is one text for each word, in the font of the word. -/
theorem C88_unbroken {hyph : Str → List Str} (hh : ∀ w, (hyph w).length ≤ 1) {ws ts : List (Font × Str)} (hw : ∀ w ∈ ws, w.2.head? ≠ some 32)
    (h : WrittenIn hyph ws ts) : (ts.map fun t => (t.1, if t.2.head? = some 32 then t.2.tail else t.2)) = ws := by
  induction h with
  | nil => rfl
  | @whole f w ws t ts ht _ ih =>
    have h1 := hw (f, w) (by simp)
    have : (if t.head? = some 32 then t.tail else t) = w := by
      rcases ht with rfl | rfl
      · rw [if_neg h1]
      · simp
    rw [List.map_cons]
    simp only
    rw [this, ih fun w hw' => hw w (by simp [hw'])]
  | broken i h1 h2 _ _ _ _ => exact absurd (Nat.lt_of_lt_of_le h2 (hh _)) (by omega)

/-- How to read `DrawsBox`: a box without borders is only its background. -/
theorem C88_borderless {sty : Styles} {r : Area} {cmds : List DrawCmd} (h : DrawsBox sty r cmds) (hb : sty.box.border = ⟨0, 0, 0, 0⟩)
    (hl : sty.lineWidth = 0) {pen : Pen} (hp : pen.path = []) :
    pen.ink cmds = [.fill sty.color.background r.x0 r.y0 (r.x1 - r.x0) (r.y1 - r.y0)] := by
  rw [(h pen hp).1]
  simp [boxInk, hb, hl]

/-! ### Example

A header in its own font, a font instruction that only sets the size, one that only sets the weight, a text with a color and a paragraph in another
size, a page break, a table with styled cells, and a box of a given height. -/

private def plain : Styled := ⟨[], []⟩
private def size (q : ℚ) : Styled := ⟨[[([0, 1], .flt q)]], []⟩
private def bold : Styled := ⟨[[([0, 3], .str b!"bold")]], []⟩
private def red : Styled := ⟨[[([5, 1], .rgb ⟨255, 0, 0⟩)]], []⟩

private def high (q : ℚ) : Styled := ⟨[[([2, 1], .flt q)]], []⟩

private def exDoc : Ctx :=
  { classes := [], header := [.text (size 8) [.textBlock b!"head"]], footer := [],
    body := [.text plain [.textBlock b!"small"], .font (size 10), .font bold, .text red [.textBlock b!"a", .paragraph (size 20) b!"b"],
      .text plain [.textBlock b!"big"], .pageBreak,
      .table plain 0 [⟨size 6, [⟨plain, 1, 1, [.textBlock b!"x"]⟩, ⟨red, 1, 1, [.textBlock b!"y"]⟩]⟩], .box (high 30) [.textBlock b!"end"]],
    hyphenate := exHyph, resolve := id, describe := fun _ => none }

example : ∀ w, (exDoc.hyphenate w).flatten <:+: w := by
  intro w
  show (exHyph w).flatten <:+: w
  unfold exHyph
  split
  · rename_i h; rw [h]; decide
  · simp

/-- Page, size and weight of the font, whether the color is red, and the text. -/
private structure Short where
  page : Nat
  size : ℚ
  weight : Str
  red : Bool
  text : Str
deriving DecidableEq

private def short : Shown → Option Short
  | .text pg f c t => some ⟨pg, f.pointSize, f.weight, c = ⟨255, 0, 0⟩, t⟩
  | _ => none

/-- What is to be seen: the size of the header remains for the body, and that of the last paragraph for what follows; the cells of the
table take over the weight. -/
example : (process (Fpdf.engine exPaper) exDoc 2 (newProcessor (Fpdf.new exPaper))).map (fun r => (shownOn r.2.eng).filterMap short) =
    some [⟨1, 8, b!"normal", false, b!"head"⟩, ⟨1, 8, b!"normal", false, b!"small"⟩, ⟨1, 10, b!"bold", true, b!"a"⟩, ⟨1, 20, b!"bold", true, b!" b"⟩,
      ⟨1, 20, b!"bold", false, b!"big"⟩, ⟨2, 8, b!"bold", false, b!"head"⟩, ⟨2, 6, b!"bold", false, b!"x"⟩, ⟨2, 6, b!"bold", true, b!"y"⟩,
      ⟨2, 6, b!"bold", false, b!"end"⟩] := by
  decide +kernel

/-- Page and size of the filled rectangles. -/
private structure Filled where
  page : Nat
  width : ℚ
  height : ℚ
deriving DecidableEq

private def filled : Shown → Option Filled
  | .draw pg (.fillRect _ _ w h) => some ⟨pg, w, h⟩
  | _ => none

/-- The two cells and the box, all a line width (1 mm) smaller than the rectangle. -/
example : (process (Fpdf.engine exPaper) exDoc 2 (newProcessor (Fpdf.new exPaper))).map (fun r => (shownOn r.2.eng).filterMap filled) =
    some [⟨2, 38, 67 / 60⟩, ⟨2, 38, 67 / 60⟩, ⟨2, 77, 29⟩] := by
  decide +kernel

end Verif.Props
