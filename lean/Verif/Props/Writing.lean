import Verif.Proofs.Writing
import Verif.Props.TextLines
/-
Properties C64-C66: where the words of a text are on the page (/repo/text.go writeText, /repo/text-hyph.go writeTextHyphenated).
-/
namespace Verif.Props
open Verif.Go Verif.Model Verif.Proofs Verif.Spec

variable {E : Type} {eng : Engine E} {c : Calls E} {mt : Font → Str → ℚ} {fh : Font → ℚ} {right bottom : ℚ} {look : E → Look}
  {placed : E → List TextAt} {ctx : Ctx} {iss : List Instr} {width : ℚ} {sty : Styles} {s : PState E}

/-- C64: the words of a text are written line by line from the current position on, in the order of the text, each in its own font, all
in the color of the text.  Within a line they follow each other without a gap (all but the first have a space before them), and the
line is indented by the space left over. -/
theorem C64_placed (hm : Measures eng mt) (hcol : ∀ col e, eng.currentPage (eng.setTextColor col e) = eng.currentPage e)
    (hw : Writes eng c mt fh right bottom look placed)
    (hh : sty.align.h = b!"left" ∨ sty.align.h = b!"center" ∨ sty.align.h = b!"right") (hx : 0 ≤ (look s.eng).x) (hwd : 0 ≤ width) :
    let words := (tokens ctx.classes (eng.currentPage s.eng) sty iss).filterMap id
    ∃ ls : List (List Word), (textLines eng ctx.classes iss width sty s).1.map (·.items) = ls.map setWords ∧ ls.flatten = words ∧
      ∀ lines : List SetLine,
        lines = ls.map (fun l => runFrom mt 0 ((look s.eng).x + indent sty.align.h (width - spacedSum mt l)) (lineTexts l)) →
        TextsFit mt fh right bottom (stack fh sty.dim.lineSpacing sty.color.text (look s.eng).y (lastFont sty words) lines) →
        ∃ s' x, Model.writeText eng ctx c iss width sty s = some ((), s') ∧
          placed s'.eng = placed s.eng ++ stack fh sty.dim.lineSpacing sty.color.text (look s.eng).y (lastFont sty words) lines ∧
          look s'.eng = ⟨x, (below fh sty.dim.lineSpacing (look s.eng).y (lastFont sty words) lines).1,
            (below fh sty.dim.lineSpacing (look s.eng).y (lastFont sty words) lines).2, sty.color.text⟩ := by
  intro words
  refine ⟨wrapped mt width (tokens ctx.classes (eng.currentPage s.eng) sty iss), ?_, wrapped_words _, ?_⟩
  · rw [textLines_eq hm, List.map_map]; rfl
  · rintro lines rfl hf
    obtain ⟨s1, hs1⟩ : ∃ s1 : PState E, s1 = { s with eng := eng.setTextColor sty.color.text (eng.changeFont sty.font s.eng) } := ⟨_, rfl⟩
    have hl1 : look s1.eng = { look s.eng with font := sty.font, color := sty.color.text } := by
      rw [hs1]; simp only [(hw.color _ _).1, (hw.font _ _).1]
    have hp1 : placed s1.eng = placed s.eng := by rw [hs1]; simp only [(hw.color _ _).2, (hw.font _ _).2]
    have hpg : eng.currentPage s1.eng = eng.currentPage s.eng := by rw [hs1]; simp only [hcol, hm.page]
    have hl2 : look (textLines eng ctx.classes iss width sty s1).2.eng =
        { look s.eng with font := lastFont sty words, color := sty.color.text } := by
      unfold textLines
      rw [(linesLoop_look hm hw iss _ s1).1, hl1, hpg]
      rfl
    have hp2 : placed (textLines eng ctx.classes iss width sty s1).2.eng = placed s.eng := by
      unfold textLines
      rw [(linesLoop_look hm hw iss _ s1).2, hp1]
    obtain ⟨s', r1, r2, x, r3⟩ := writeLines_placed hw hh hx hwd (wrapped mt width (tokens ctx.classes (eng.currentPage s.eng) sty iss))
      (textLines eng ctx.classes iss width sty s1).2 _ rfl (by rw [hl2]; exact hf)
    rw [hl2, hp2] at r2
    rw [hl2] at r3
    refine ⟨s', x, ?_, r2, r3⟩
    unfold Model.writeText
    simp only [bind_eq, upd, Option.bind_some, Model.total, ask, ← hs1]
    rw [hw.xy, hl2, textLines_eq hm, hpg]
    exact r1

/-- The space before the first word of a line, which is counted but not written. -/
def leadOf (mt : Font → Str → ℚ) : List Word → ℚ
  | [] => 0
  | w :: _ => mt w.1.font (32 :: w.2) - mt w.1.font w.2

theorem lineTexts_sum (l : List Word) : ((lineTexts l).map fun i => mt i.1 i.2).sum = spacedSum mt l - leadOf mt l := by
  cases l with
  | nil => simp [lineTexts, setWords, spacedSum, leadOf]
  | cons w ws =>
    simp only [lineTexts, setWords, spacedSum, leadOf, List.map_cons, List.map_map, List.sum_cons, spaced]
    have : ((ws.map ((fun i : Font × Str => mt i.1 i.2) ∘ (fun i : TextItem => (i.sty.font, i.text)) ∘ fun v : Word => ⟨v.1, 32 :: v.2⟩)).sum) =
        (ws.map fun v => mt v.1.font (32 :: v.2)).sum := rfl
    rw [this]
    have h2 : (ws.map (spaced mt)).sum = (ws.map fun v => mt v.1.font (32 :: v.2)).sum := rfl
    rw [h2]
    ring

/-- C65, as far as it holds: lines of left aligned text start at the left edge; lines of right aligned text end at the right edge but for
the width of a space; lines of centered text have the same distance from both edges but for the width of a space. -/
theorem C65_edges_partial (hm : Measures eng mt) (hcol : ∀ col e, eng.currentPage (eng.setTextColor col e) = eng.currentPage e)
    (hw : Writes eng c mt fh right bottom look placed)
    (hh : sty.align.h = b!"left" ∨ sty.align.h = b!"center" ∨ sty.align.h = b!"right") (hx : 0 ≤ (look s.eng).x) (hwd : 0 ≤ width) :
    ∃ (ls : List (List Word)) (lines : List SetLine) (font : Font), (textLines eng ctx.classes iss width sty s).1.map (·.items) = ls.map setWords ∧
      (TextsFit mt fh right bottom (stack fh sty.dim.lineSpacing sty.color.text (look s.eng).y font lines) →
        ∃ s', Model.writeText eng ctx c iss width sty s = some ((), s') ∧
          placed s'.eng = placed s.eng ++ stack fh sty.dim.lineSpacing sty.color.text (look s.eng).y font lines) ∧
      List.Forall₂ (fun (l : List Word) (line : SetLine) => line.map (·.2) = lineTexts l ∧ (l ≠ [] → ∃ a b, line.head?.map (·.1) = some a ∧ endOf mt line = some b ∧
        (sty.align.h = b!"left" → a = (look s.eng).x) ∧
        (sty.align.h = b!"right" → b = (look s.eng).x + width - leadOf mt l) ∧
        (sty.align.h = b!"center" → a - (look s.eng).x = ((look s.eng).x + width - b) - leadOf mt l))) ls lines := by
  obtain ⟨ls, h1, _, h3⟩ := C64_placed (ctx := ctx) (iss := iss) (s := s) hm hcol hw hh hx hwd
  refine ⟨ls, ls.map (fun l => runFrom mt 0 ((look s.eng).x + indent sty.align.h (width - spacedSum mt l)) (lineTexts l)),
    lastFont sty ((tokens ctx.classes (eng.currentPage s.eng) sty iss).filterMap id), h1, ?_, ?_⟩
  · intro hf
    obtain ⟨s', _, r1, r2, _⟩ := h3 _ rfl hf
    exact ⟨s', r1, r2⟩
  · rw [List.forall₂_map_right_iff]
    refine List.forall₂_same.mpr ?_
    intro l _
    have texts : ∀ (ts : List (Font × Str)) (x : ℚ), (runFrom mt 0 x ts).map (·.2) = ts := by
      intro ts
      induction ts with
      | nil => intro x; rfl
      | cons t ts ih => intro x; simp [runFrom, ih]
    refine ⟨texts _ _, fun hl => ?_⟩
    have hne : lineTexts l ≠ [] := by
      cases l with
      | nil => exact absurd rfl hl
      | cons w ws => simp [lineTexts, setWords]
    refine ⟨(look s.eng).x + indent sty.align.h (width - spacedSum mt l), _, ?_, endOf_run _ _ hne, ?_, ?_, ?_⟩
    · cases hlt : lineTexts l with
      | nil => exact absurd hlt hne
      | cons t ts => simp [runFrom]
    · intro h; rw [h]; simp [indent]
    · intro h; rw [h, lineTexts_sum]; simp [indent]; ring
    · intro h; rw [h, lineTexts_sum]; simp [indent]; ring

/-- C65 is false of the code: if every space has a positive width, no line of right aligned text ends at the right edge, and no line of
centered text has the same distance from both edges. -/
theorem C65_never (hm : Measures eng mt) (hcol : ∀ col e, eng.currentPage (eng.setTextColor col e) = eng.currentPage e)
    (hw : Writes eng c mt fh right bottom look placed) (hpos : ∀ f w, mt f w < mt f (32 :: w))
    (hh : sty.align.h = b!"center" ∨ sty.align.h = b!"right") (hx : 0 ≤ (look s.eng).x) (hwd : 0 ≤ width) :
    ∃ (ls : List (List Word)) (lines : List SetLine) (font : Font), (textLines eng ctx.classes iss width sty s).1.map (·.items) = ls.map setWords ∧
      (TextsFit mt fh right bottom (stack fh sty.dim.lineSpacing sty.color.text (look s.eng).y font lines) →
        ∃ s', Model.writeText eng ctx c iss width sty s = some ((), s') ∧
          placed s'.eng = placed s.eng ++ stack fh sty.dim.lineSpacing sty.color.text (look s.eng).y font lines) ∧
      List.Forall₂ (fun (l : List Word) (line : SetLine) => l ≠ [] → ∃ a b, line.head?.map (·.1) = some a ∧ endOf mt line = some b ∧
        (sty.align.h = b!"right" → b ≠ (look s.eng).x + width) ∧
        (sty.align.h = b!"center" → a - (look s.eng).x ≠ (look s.eng).x + width - b)) ls lines := by
  obtain ⟨ls, lines, font, h1, h2, h3⟩ := C65_edges_partial (ctx := ctx) (iss := iss) (s := s) hm hcol hw (Or.inr hh) hx hwd
  refine ⟨ls, lines, font, h1, h2, h3.imp ?_⟩
  rintro l line ⟨_, h⟩ hl
  obtain ⟨a, b, e1, e2, _, e4, e5⟩ := h hl
  have hlead : 0 < leadOf mt l := by
    cases l with
    | nil => exact absurd rfl hl
    | cons w ws => have := hpos w.1.font w.2; simp only [leadOf]; linarith
  exact ⟨a, b, e1, e2, fun h he => by have := e4 h; linarith, fun h he => by have := e5 h; linarith⟩

/-- C66: block text is written line by line from the current position on; a line that is not kept from being stretched has equal gaps
between its words and ends a tenth before the right edge, the others have spaces between their words. -/
theorem C66_placed (hm : Measures eng mt) (hcol : ∀ col e, eng.currentPage (eng.setTextColor col e) = eng.currentPage e)
    (hw : Writes eng c mt fh right bottom look placed) (hnn : ∀ f t, 0 ≤ mt f t)
    (hsp : ∀ f w, mt f (trimSpace w) + 1 / 10 ≤ mt f (32 :: w)) (htr : ∀ f w, mt f (trimSpace w) ≤ mt f w) (hx : 0 ≤ (look s.eng).x) :
    let font := lastFont sty ((blockTokens ctx.classes (eng.currentPage s.eng) sty iss).filterMap id)
    let lines := (textLinesHyphenated eng ctx.hyphenate ctx.classes iss width sty s).1.map
      fun l => blockLine mt (look s.eng).x width l.items l.paragraph
    TextsFit mt fh right bottom (stack fh sty.dim.lineSpacing sty.color.text (look s.eng).y font lines) →
    ∃ s' x, writeTextHyphenated eng ctx c iss width sty s = some ((), s') ∧
      placed s'.eng = placed s.eng ++ stack fh sty.dim.lineSpacing sty.color.text (look s.eng).y font lines ∧
      look s'.eng = ⟨x, (below fh sty.dim.lineSpacing (look s.eng).y font lines).1, (below fh sty.dim.lineSpacing (look s.eng).y font lines).2,
        sty.color.text⟩ := by
  intro font lines hf
  obtain ⟨s1, hs1⟩ : ∃ s1 : PState E, s1 = { s with eng := eng.setTextColor sty.color.text (eng.changeFont sty.font s.eng) } := ⟨_, rfl⟩
  have hl1 : look s1.eng = { look s.eng with font := sty.font, color := sty.color.text } := by
    rw [hs1]; simp only [(hw.color _ _).1, (hw.font _ _).1]
  have hp1 : placed s1.eng = placed s.eng := by rw [hs1]; simp only [(hw.color _ _).2, (hw.font _ _).2]
  have hpg : eng.currentPage s1.eng = eng.currentPage s.eng := by rw [hs1]; simp only [hcol, hm.page]
  have hl2 : look (textLinesHyphenated eng ctx.hyphenate ctx.classes iss width sty s1).2.eng =
      { look s.eng with font := font, color := sty.color.text } := by
    unfold textLinesHyphenated
    rw [(linesLoopHyph_look hm hw iss _ s1).1, hl1, hpg]
    rfl
  have hp2 : placed (textLinesHyphenated eng ctx.hyphenate ctx.classes iss width sty s1).2.eng = placed s.eng := by
    unfold textLinesHyphenated
    rw [(linesLoopHyph_look hm hw iss _ s1).2, hp1]
  have hsame : (textLinesHyphenated eng ctx.hyphenate ctx.classes iss width sty s1).1 =
      (textLinesHyphenated eng ctx.hyphenate ctx.classes iss width sty s).1 := by
    rw [textLinesHyph_eq hm, textLinesHyph_eq hm, hpg]
  have hroom : ∀ l ∈ (textLinesHyphenated eng ctx.hyphenate ctx.classes iss width sty s).1,
      l.pureTextWidth = pureWidth mt l.items ∧ (2 ≤ l.items.length → l.pureTextWidth ≤ width - 1 / 10) := by
    intro l hl
    rw [textLinesHyph_eq hm] at hl
    obtain ⟨ps, hps, rfl⟩ := List.mem_map.mp hl
    have hmem : ps.1 ∈ (wrappedHyph ctx.hyphenate mt width (blockTokens ctx.classes (eng.currentPage s.eng) sty iss)).map (·.1) :=
      List.mem_map_of_mem hps
    have hwhole := wrappedHyph_whole (hyph := ctx.hyphenate) (mt := mt) (width := width) _
      (blockTokens_nosp (cs := ctx.classes) (page := eng.currentPage s.eng) (sty := sty) iss) ps.1 hmem
    refine ⟨pure_eq ps.1 hwhole, fun h2 => ?_⟩
    have h2' : 2 ≤ ps.1.length := by rw [← setPieces_length]; exact h2
    have hroom := room hsp htr (wrappedHyph_ends _ ps.1 hmem) hwhole h2'
    have hwid := (wrappedHyph_width _ ps.1 hmem h2').1
    simp only [lineOfH]
    linarith
  obtain ⟨s', r1, r2, x, r3⟩ := writeHyphLines_placed hw hnn (sty := sty) hx (textLinesHyphenated eng ctx.hyphenate ctx.classes iss width sty s).1
    (textLinesHyphenated eng ctx.hyphenate ctx.classes iss width sty s1).2 hroom (by rw [hl2]; exact hf)
  rw [hl2, hp2] at r2
  rw [hl2] at r3
  refine ⟨s', x, ?_, r2, r3⟩
  unfold writeTextHyphenated
  simp only [bind_eq, upd, Option.bind_some, Model.total, ask, ← hs1]
  rw [hw.xy, hl2, hsame]
  exact r1

/-! ### The engine of the program meets the assumptions -/

/-- Position, font and color. -/
def lookOf (e : Fpdf) : Look := ⟨e.x, e.y, e.font, e.color⟩

/-- The texts written. -/
def textsOf (e : Fpdf) : List TextAt := e.out.filterMap fun
  | .text _ x y f c t => some ⟨x, y, f, c, t⟩
  | _ => none

theorem writes_fpdf (p : Paper) (ctx : Ctx) (n : Nat) (right : ℚ) : Writes (Fpdf.engine p) (callsAt (Fpdf.engine p) ctx (n + 1)) p.metric
    (fun f => f.pointSize * (127 / 360)) right (p.height - p.margins.bottom) lookOf textsOf where
  xy e := rfl
  font f e := ⟨rfl, rfl⟩
  color f e := ⟨rfl, rfl⟩
  setX x e hx := ⟨by simp [Fpdf.engine, Fpdf.setX, lookOf, hx], rfl⟩
  feed n e := ⟨⟨p.margins.left, by simp [Fpdf.engine, Fpdf.lineFeed, lookOf, Fpdf.fontHeight, mul_comm]⟩,
    by simp [Fpdf.engine, Fpdf.lineFeed, textsOf]⟩
  write t s _ _ hb := by
    have hn : ¬ (s.eng.y + Fpdf.fontHeight s.eng > p.height - p.margins.bottom ∧ (!s.eng.inHeaderFooter) = true) := by
      rintro ⟨h1, _⟩
      have h2 : s.eng.y + Fpdf.fontHeight s.eng ≤ p.height - p.margins.bottom := hb
      linarith
    refine ⟨{ s with eng := Fpdf.put p t s.eng }, ?_, rfl, by simp [Fpdf.put, textsOf, lookOf]⟩
    show runProg _ _ (Fpdf.writeText p t s.eng) s = _
    unfold Fpdf.writeText
    rw [if_neg hn]
    rfl

/-! ### Examples: on the paper of 100 by 100, with letters 2 wide, at (10, 10), for a width of 40 -/

private def exCtx : Ctx :=
  { classes := [], header := [], footer := [], body := [], hyphenate := exHyph, resolve := id, describe := fun _ => none }

private def exStart : PState Fpdf := newProcessor { Fpdf.new exPaper with page := 7 }

private def exSty (h : Str) : Styles := { defaultStyle with align := { defaultStyle.align with h := h } }

private def exPara : List Instr := [.textBlock b!"page {cp} of syllables", .lineBreak, .paragraph ⟨[[([0, 1], .flt 36)]], []⟩ b!"a bb"]

private def exWritten (h : Str) : Option (List (ℚ × ℚ × ℚ × Str)) :=
  (Model.writeText (Fpdf.engine exPaper) exCtx (callsAt (Fpdf.engine exPaper) exCtx 1) exPara 40 (exSty h) exStart).map
    fun r => (textsOf r.2.eng).map fun t => (t.x, t.y, t.font.pointSize, t.text)

/-- Left aligned. -/
example : exWritten b!"left" = some [(10, 10, 12, b!"page"), (18, 10, 12, b!" 7"), (22, 10, 12, b!" of"), (10, 327 / 20, 12, b!"syllables"),
    (10, 227 / 10, 36, b!"a"), (12, 227 / 10, 36, b!" bb")] := by decide +kernel

/-- C65: the right edge is at 50, but the lines end at 48. -/
theorem C65_right : exWritten b!"right" = some [(30, 10, 12, b!"page"), (38, 10, 12, b!" 7"), (42, 10, 12, b!" of"),
    (30, 327 / 20, 12, b!"syllables"), (40, 227 / 10, 36, b!"a"), (42, 227 / 10, 36, b!" bb")] := by decide +kernel

/-- C65: centered, the first line is 10 from the left edge, but 12 from the right edge. -/
theorem C65_center : exWritten b!"center" = some [(20, 10, 12, b!"page"), (28, 10, 12, b!" 7"), (32, 10, 12, b!" of"),
    (20, 327 / 20, 12, b!"syllables"), (25, 227 / 10, 36, b!"a"), (27, 227 / 10, 36, b!" bb")] := by decide +kernel

/-- Block text: the first line has gaps of 6.95 and ends at 49.9. -/
example : ((writeTextHyphenated (Fpdf.engine exPaper) exCtx (callsAt (Fpdf.engine exPaper) exCtx 1) [.textBlock b!"page {cp} of syllables and"]
      40 (exSty b!"block") exStart).map fun r => (textsOf r.2.eng).map fun t => (t.x, t.y, t.text)) =
    some [(10, 10, b!"page"), (18 + 1295 / 100, 10, b!"7"), (20 + 2590 / 100, 10, b!"of"), (10, 327 / 20, b!"syllables"),
      (28, 327 / 20, b!" and")] := by decide +kernel

/-- All these texts fit on the page, as C64 and C66 require. -/
example : TextsFit exPaper.metric (fun f => f.pointSize * (127 / 360)) 90 (exPaper.height - exPaper.margins.bottom)
    [⟨40, 227 / 10, { defaultStyle.font with pointSize := 36 }, ⟨0, 0, 0⟩, b!"a"⟩, ⟨42, 227 / 10, { defaultStyle.font with pointSize := 36 }, ⟨0, 0, 0⟩, b!" bb"⟩] := by
  unfold TextsFit
  decide +kernel

end Verif.Props
