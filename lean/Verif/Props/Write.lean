import Verif.Proofs.Write
import Verif.Props.Pages
/-
C96: texts that fit are not broken by the library.
-/
namespace Verif.Props
open Verif.Go Verif.Model Verif.Spec Verif.Proofs

/-- C96: a text that fits, together with the margins the library keeps in cells, is written in one piece by the library, without a line break of its own:
the page, the position, and the page break before it are those of the simple engine. -/
theorem C96_piece {p : Paper} {g : Glyphs} (ha : Adds p g) {e : Fpdf} {t : Str} (h : FitsLine p g e.x e.font t) :
    (Fpdf.fullEngine p g).writeText t e = (Fpdf.engine p).writeText t e := libWrite_fits ha h

/-- C96: if the document is processed with the simple engine and all its texts fit, then with the library's line breaking the pages and the results are
the same. -/
theorem C96_same {p : Paper} {g : Glyphs} (ha : Adds p g) (ctx : Ctx) (n : Nat) {s s' : PState Fpdf} {r : PdfResult}
    (hr : process (Fpdf.engine p) ctx n s = some (r, s')) (hfit : ∀ m ∈ s'.eng.out, MarkFitsLine p g m) :
    process (Fpdf.fullEngine p g) ctx n s = some (r, s') :=
  (process_full ha n s r s' hr hfit).1

/-- One byte is one character; no font was loaded from a file. -/
def exGlyphs : Glyphs := { cut := fun _ t => t.map ([·]), utf8 := fun _ => false }

theorem exGlyphs_adds : Adds exPaper exGlyphs where
  flatten f t := by
    show (t.map ([·])).flatten = t
    induction t with
    | nil => rfl
    | cons a t ih => simp [ih]
  metric f t := by
    show (2 * (t.length : ℚ)) = ((t.map ([·])).map (fun u : Str => (2 * (u.length : ℚ)))).sum
    induction t with
    | nil => simp
    | cons a t ih =>
      rw [List.map_cons, List.map_cons, List.sum_cons, ← ih]
      push_cast [List.length_cons, List.length_nil]
      ring
  nonneg f t := by
    show (0 : ℚ) ≤ 2 * (t.length : ℚ)
    positivity

private def plain : Styled := ⟨[], []⟩

private def exDoc (header footer body : List Instr) : Ctx :=
  { classes := [], header := header, footer := footer, body := body, hyphenate := exHyph, resolve := id, describe := fun _ => none }

private def texts (r : PdfResult × PState Fpdf) : List (ℚ × ℚ × Str) := r.2.eng.out.filterMap fun
  | .text _ x y _ _ t => some (x, y, t)
  | _ => none

private def simple (p : Paper) (ctx : Ctx) : Option (PdfResult × PState Fpdf) := process (Fpdf.engine p) ctx 2 (newProcessor (Fpdf.new p))
private def full (p : Paper) (ctx : Ctx) : Option (PdfResult × PState Fpdf) := process (Fpdf.fullEngine p exGlyphs) ctx 2 (newProcessor (Fpdf.new p))

private def fits (p : Paper) (r : PdfResult × PState Fpdf) : Bool := r.2.eng.out.all fun
  | .text _ x _ f _ t => t ≠ [] && 10 ∉ t && 13 ∉ t && x + p.metric f t + 2 * Fpdf.cellMargin ≤ p.width - p.margins.right
  | _ => true

/-- A line of two words, a page break, and a header. -/
private def exFits : Ctx := exDoc [.text plain [.textBlock b!"page {cp}"]] [] [.text plain [.textBlock b!"a bc"], .pageBreak, .text plain [.textBlock b!"d"]]

/-- The texts of this document fit. -/
example : ((simple exPaper exFits).map (fits exPaper), (simple exPaper exFits).map fun r => (texts r).length) = (some true, some 7) := by decide +kernel

/-- The hypothesis of `C96_same` as computed here. -/
private theorem fits_iff {p : Paper} {r : PdfResult × PState Fpdf} (h : fits p r = true) : ∀ m ∈ r.2.eng.out, MarkFitsLine p exGlyphs m := by
  intro m hm
  have := List.all_eq_true.mp h m hm
  cases m with
  | text page x y f c t =>
    simp only [ne_eq, Bool.and_eq_true, decide_eq_true_eq] at this
    exact ⟨this.1.1.1, fun hu => absurd hu.1 (by simp [exGlyphs]), this.1.1.2, this.1.2, this.2⟩
  | _ => trivial

/-- So the library leaves them as they are. -/
example : ∃ r, simple exPaper exFits = some r ∧ full exPaper exFits = some r := by
  have h : (simple exPaper exFits).map (fits exPaper) = some true := by decide +kernel
  obtain ⟨r, hr, hf⟩ := Option.map_eq_some_iff.mp h
  exact ⟨r, hr, C96_same exGlyphs_adds exFits 2 hr (fits_iff hf)⟩

/-- The text is at the right edge. -/
private def exWide : Ctx := exDoc [] [] [.setX 80, .text plain [.textBlock b!"abcdef"]]

/-- Without room the library moves a text to the next line, where the processor knows nothing of it. -/
example : (simple exPaper exWide).map texts = some [(80, 10, b!"abcdef")] := by decide +kernel
example : (full exPaper exWide).map texts = some [(10, 427 / 30, b!"abcdef")] := by
  unfold full
  rw [Bounded.full_eq]
  decide +kernel

/-- A tenth of a micrometer wider than the other one. -/
private def exSheet : Paper := { exPaper with width := 1000001 / 10000 }

/-- Block text whose last line starts with the rest of a word, and is as wide as the page. -/
private def exBlock : Ctx := { exDoc [] [] [.text ⟨[[([4, 0], .str b!"block")]], []⟩
  [.textBlock b!"abcdefghijabcdefghijabcdefghij xxxyyyyyyyy klmnopqrstklmnopqrstklmnopqr s"]] with
  hyphenate := fun w => if w = b!"xxxyyyyyyyy" then [b!"xxx", b!"yyyyyyyy"] else [w] }

/-- C96: the hypothesis is needed, and the line breaking of the processor does not guarantee it: it leaves 2 mm for the margins of the library, which are
2.00025 mm.  Here the library breaks the last line of a block text itself, and the next line of the document will be written over the rest. -/
theorem C96_broken : (simple exSheet exBlock).map texts = some [(10, 10, b!"abcdefghijabcdefghijabcdefghij"), (799001 / 10000, 10, b!"xxx-"),
      (10, 327 / 20, b!"yyyyyyyy"), (26, 327 / 20, b!" klmnopqrstklmnopqrstklmnopqr"), (84, 327 / 20, b!" s")] ∧
    (full exSheet exBlock).map texts = some [(10, 10, b!"abcdefghijabcdefghijabcdefghij"), (799001 / 10000, 10, b!"xxx-"),
      (10, 327 / 20, b!"yyyyyyyy"), (26, 327 / 20, b!" klmnopqrstklmnopqrstklmnopqr"), (84, 327 / 20, []), (10, 247 / 12, b!"s")] := by
  constructor
  · decide +kernel
  · unfold full
    rw [Bounded.full_eq]
    decide +kernel

end Verif.Props
