import Verif.Model.Fpdf
/-
The engine with more of the library: how gofpdf writes a text that does not fit on the line.

Model/Fpdf.lean writes each text in one piece.  Here is what the method Write of the library does (the library is not in the repository; this follows its published source): it goes through the characters of
the text and breaks the line at the last space, or before the character, that would cross the right margin.  (Simplified: widths are in
millimeters instead of thousandths of the font size.)
-/
namespace Verif.Model
open Verif.Go

/-- What the library knows of a font besides its widths: how it cuts a text into characters, and whether the font was loaded from a file (UTF-8). -/
structure Glyphs where
  cut : Font → Str → List Str
  utf8 : Font → Bool

namespace Fpdf

/-- Library: the margin inside of cells; 28.35 points in millimeters, over 10. -/
def cellMargin : ℚ := 8001 / 8000

/-- Library: the width left for text at position `x`. -/
def room (p : Paper) (x : ℚ) : ℚ := p.width - p.margins.right - x - 2 * cellMargin

/-- Library: a text at the current position; then one goes down a line, or by `w` to the right. -/
def place (h w : ℚ) (down : Bool) (t : Str) (e : Fpdf) : Fpdf :=
  { e with out := e.out ++ [.text e.page e.x e.y e.font e.color t], x := if down then e.x else e.x + w, y := if down then e.y + h else e.y }

/-- Library: CellFormat without borders, on a new page if it would reach below the bottom margin (never in header and footer). -/
def cell (p : Paper) (h w : ℚ) (down : Bool) (t : Str) (e : Fpdf) : Prog Fpdf Unit :=
  if e.y + h > p.height - p.margins.bottom ∧ !e.inHeaderFooter then
    andThen (addPage p e) fun e' _ => .done (place h w down t { e' with x := e.x }) ()
  else .done (place h w down t e) ()

/-- The characters before and after the last space. -/
def lastSpace : List Str → Option (List Str × List Str)
  | [] => none
  | c :: cs =>
    match lastSpace cs with
    | some (a, b) => some (c :: a, b)
    | none => if c = [32] then some ([], cs) else none

theorem lastSpace_length : ∀ {cs a b : List Str}, lastSpace cs = some (a, b) → b.length < cs.length
  | [], a, b, h => by simp [lastSpace] at h
  | c :: cs, a, b, h => by
    rw [lastSpace] at h
    cases hl : lastSpace cs with
    | some x =>
      have := lastSpace_length (a := x.1) (b := x.2) hl
      simp only [hl, Option.some.injEq, Prod.mk.injEq] at h
      rw [← h.2, List.length_cons]
      omega
    | none =>
      simp only [hl] at h
      split at h
      · simp only [Option.some.injEq, Prod.mk.injEq] at h
        rw [← h.2, List.length_cons]
        omega
      · exact absurd h (by simp)

/-- Library: the loop of Write.  `line` are the characters of the line so far, `rest` those to come, `l` is the width of the line, `wmax` the width
it may have; `first` is true on the first line. -/
def writeLoop (p : Paper) (cw : Str → ℚ) (h : ℚ) (line rest : List Str) (l wmax : ℚ) (first : Bool) (e : Fpdf) : Prog Fpdf Unit :=
  match rest with
  | [] => if line = [] then .done e () else cell p h l false line.flatten e
  | c :: rest' =>
    if c = [10] then
      andThen (cell p h wmax true line.flatten e) fun e' _ =>
        if first then writeLoop p cw h [] rest' 0 (room p p.margins.left) false { e' with x := p.margins.left }
        else writeLoop p cw h [] rest' 0 wmax false e'
    else if l + cw c > wmax then
      match hs : lastSpace (line ++ [c]) with
      | some (before, after) =>
        andThen (cell p h wmax true before.flatten e) fun e' _ =>
          if first then writeLoop p cw h [] (after ++ rest') 0 (room p p.margins.left) false { e' with x := p.margins.left }
          else writeLoop p cw h [] (after ++ rest') 0 wmax false e'
      | none =>
        if e.x > p.margins.left then
          writeLoop p cw h (line ++ [c]) rest' (l + cw c) (room p p.margins.left) false { e with x := p.margins.left, y := e.y + h }
        else if line = [] then
          andThen (cell p h wmax true c e) fun e' _ =>
            if first then writeLoop p cw h [] rest' 0 (room p p.margins.left) false { e' with x := p.margins.left }
            else writeLoop p cw h [] rest' 0 wmax false e'
        else
          andThen (cell p h wmax true line.flatten e) fun e' _ =>
            if first then writeLoop p cw h [] (c :: rest') 0 (room p p.margins.left) false { e' with x := p.margins.left }
            else writeLoop p cw h [] (c :: rest') 0 wmax false e'
    else writeLoop p cw h (line ++ [c]) rest' (l + cw c) wmax first e
termination_by (line.length + rest.length, rest.length)
decreasing_by
  all_goals try (have := lastSpace_length hs; simp at this)
  all_goals try (have hl : line.length ≠ 0 := by simp_all)
  all_goals simp [Prod.lex_def]
  all_goals omega

/-- Library: Write.  Carriage returns are dropped; a single space in a UTF-8 font only moves the position. -/
def libWrite (p : Paper) (g : Glyphs) (h : ℚ) (t : Str) (e : Fpdf) : Prog Fpdf Unit :=
  let s := t.filter (· != 13)
  if g.utf8 e.font = true ∧ s = [32] then .done { e with x := e.x + p.metric e.font s } ()
  else writeLoop p (p.metric e.font) h [] (g.cut e.font s) 0 (room p e.x) true e

/-- The engine whose texts are written by `libWrite` (engine/fpdf.go:208-211, WriteText). -/
def fullEngine (p : Paper) (g : Glyphs) : Engine Fpdf := { engine p with writeText := fun t e => libWrite p g (fontHeight e) t e }

end Fpdf
end Verif.Model
