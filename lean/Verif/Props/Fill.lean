import Verif.Proofs.Fill
import Verif.Props.TextLines
/-
C121: the lines of a text, exactly.
-/
namespace Verif.Props
open Verif.Go Verif.Model Verif.Spec Verif.Proofs

variable {E : Type} {eng : Engine E} {mt : Font → Str → ℚ} {hyph : Str → List Str} {cs : Classes} {iss : List Instr} {width : ℚ} {sty : Styles} {s : PState E}

/-- C121: the lines of left, center and right aligned text, with all that the code notes about them. -/
theorem C121_plain (hm : Measures eng mt) : (textLines eng cs iss width sty s).1 = linesSet mt width (tokens cs (eng.currentPage s.eng) sty iss) := by
  rw [textLines_eq hm, wrapped_fill]

/-- C121: the lines of block text, with all that the code notes about them. -/
theorem C121_block (hm : Measures eng mt) :
    (textLinesHyphenated eng hyph cs iss width sty s).1 = blockLinesSet hyph mt width (blockTokens cs (eng.currentPage s.eng) sty iss) := by
  rw [textLinesHyph_eq hm, wrappedHyph_fill]

/-- C121: there is just one way to break each stretch of words into lines, so that none ends too early and none is too long, and it is that of the code.  (Texts are not
of negative width.) -/
theorem C121_only (hm : Measures eng mt) (h0 : ∀ f w, 0 ≤ mt f w) {groups : List (List (List Word))}
    (h : List.Forall₂ (Broken mt width) (segments (tokens cs (eng.currentPage s.eng) sty iss)) groups) :
    (textLines eng cs iss width sty s).1.map (·.items) = (dropBlank groups.flatten).map setWords := by
  have e : groups = (segments (tokens cs (eng.currentPage s.eng) sty iss)).map (fillLines mt width []) := by
    generalize segments (tokens cs (eng.currentPage s.eng) sty iss) = segs at h
    induction h with
    | nil => rfl
    | cons hb _ ih => rw [ih, broken_unique h0 hb]; rfl
  rw [C121_plain hm, linesSet, ← e, List.map_map]
  rfl

/-- C121: this way exists for all texts. -/
theorem C121_some (segs : List (List Word)) : ∃ groups, List.Forall₂ (Broken mt width) segs groups := by
  induction segs with
  | nil => exact ⟨[], .nil⟩
  | cons seg segs ih =>
    obtain ⟨gs, h⟩ := ih
    exact ⟨_, .cons (fillLines_broken seg) h⟩

/-! ### Examples -/

private def sample : List Instr := [.textBlock b!"one syllable two", .lineBreak, .paragraph ⟨[], []⟩ b!"syllable"]

private def shown (ls : List TextLine) : List (List Str × ℚ × Bool) := ls.map fun l => (l.items.map (·.text), l.width, l.paragraph)

/- Letters are 2 wide.  With less width, a blank line comes before the wide word at the start of a stretch. -/
example : shown (linesSet exPaper.metric 28 (tokens [] 7 defaultStyle sample)) =
      [([b!"one", b!" syllable"], 26, false), ([b!"two"], 8, false), ([b!"syllable"], 18, false)] ∧
    shown (linesSet exPaper.metric 18 (tokens [] 7 defaultStyle sample)) =
      [([b!"one"], 8, false), ([b!"syllable"], 18, false), ([b!"two"], 8, false), ([], 0, false), ([b!"syllable"], 18, false)] := by
  decide +kernel

/- Block text: as many syllables as fit; the line before the line that ends with the line break is not stretched, nor the last one. -/
example : shown (blockLinesSet exHyph exPaper.metric 20 (blockTokens [] 7 defaultStyle sample)) =
      [([b!"one", b!" syl-"], 18, true), ([b!"lable", b!" two"], 18, false), ([b!"syllable"], 18, true)] ∧
    mostSyllables exHyph exPaper.metric 14 (defaultStyle, b!"syllable") = some 2 ∧ mostSyllables exHyph exPaper.metric 13 (defaultStyle, b!"syllable") = some 1 ∧
    mostSyllables exHyph exPaper.metric 9 (defaultStyle, b!"syllable") = none := by
  decide +kernel

/- The engine of the repository measures texts (`Measures`), and the only way to break this stretch of words. -/
example (s : PState Fpdf) : (textLines (Fpdf.engine exPaper) [] sample 28 defaultStyle s).1 =
    linesSet exPaper.metric 28 (tokens [] ((Fpdf.engine exPaper).currentPage s.eng) defaultStyle sample) := C121_plain (measures_fpdf exPaper)

example : Broken exPaper.metric 28 [(defaultStyle, b!"one"), (defaultStyle, b!"syllable"), (defaultStyle, b!"two")]
    [[(defaultStyle, b!"one"), (defaultStyle, b!"syllable")], [(defaultStyle, b!"two")]] := by
  have h := fillLines_broken (mt := exPaper.metric) (width := 28) [(defaultStyle, b!"one"), (defaultStyle, b!"syllable"), (defaultStyle, b!"two")]
  rwa [show fillLines exPaper.metric 28 [] [(defaultStyle, b!"one"), (defaultStyle, b!"syllable"), (defaultStyle, b!"two")] =
    [[(defaultStyle, b!"one"), (defaultStyle, b!"syllable")], [(defaultStyle, b!"two")]] by decide +kernel] at h

end Verif.Props
