import Verif.Proofs.Late
import Verif.Props.TextLines
/-
Property C77: block text is broken as late as possible (/repo/text-hyph.go:9-108).
-/
namespace Verif.Props
open Verif.Go Verif.Model Verif.Proofs Verif.Spec

variable {E : Type} {eng : Engine E} {mt : Font → Str → ℚ} {cs : Classes} {iss : List Instr} {width : ℚ} {sty : Styles} {s : PState E} {hyph : Str → List Str}

/-- C77: the lines come in groups, one for every stretch between line break instructions, that spell the words of the stretch.  Within a group, a
line ends only because the next word would reach the width; and of the syllables of that word it has as many as fit with a hyphen. -/
theorem C77_late (hm : Measures eng mt) : ∃ groups : List (List (List WPiece)),
    (textLinesHyphenated eng hyph cs iss width sty s).1.map (·.items) = (dropBlank groups.flatten).map setPieces ∧
    List.Forall₂ (fun g seg => (∃ ws, Spells g.flatten ws ∧ List.Forall₂ (fun v w => v = w ∨ v = (w.1, (hyph w.2).flatten)) ws seg) ∧
      g.IsChain (Late hyph mt width seg)) groups (segments (blockTokens cs (eng.currentPage s.eng) sty iss)) := by
  obtain ⟨gs', ls', new, c, e1, ⟨e2, e2'⟩, e3, _⟩ := foldl_marked (mt := mt) (hyph := hyph) (width := width)
    (segments (blockTokens cs (eng.currentPage s.eng) sty iss)) [] [] (segments_ne _) ⟨rfl, by simp⟩
  rw [joinSegs_segments] at e1
  rw [List.nil_append] at e3
  have hfl : ((segments (blockTokens cs (eng.currentPage s.eng) sty iss)).map (segLinesH hyph mt width)).flatten =
      (ls'.map (·.1) ++ new) ++ [c] := by
    rw [← e3, e2]; simp
  refine ⟨(segments (blockTokens cs (eng.currentPage s.eng) sty iss)).map (segLinesH hyph mt width), ?_, ?_⟩
  · rw [textLinesHyph_eq hm, hfl]
    unfold wrappedHyph dropBlank
    simp only [e1, List.getLast?_append, List.getLast?_singleton, Option.some_or, Option.some.injEq, List.dropLast_concat]
    by_cases hc : c = []
    · simp [hc, lineOfH, Function.comp_def]
    · simp [hc, lineOfH, Function.comp_def, List.length_pos_iff]
  · generalize segments (blockTokens cs (eng.currentPage s.eng) sty iss) = segs
    induction segs with
    | nil => exact .nil
    | cons seg segs ih =>
      refine .cons ⟨?_, segLinesH_late seg⟩ ih
      obtain ⟨vs, h1, h2⟩ := foldl_spells (mt := mt) (width := width) (hyph := hyph)
        (P := fun v w => v = w ∨ v = (w.1, (hyph w.2).flatten)) (fun _ => Or.inl rfl) (fun w => Or.inr rfl) (seg.map some) ([], []) []
        (by simpa using Spells.nil)
      refine ⟨vs, ?_, by simpa using h1⟩
      simpa [segLinesH] using h2

/-! ### Examples -/

private def exState : PState Fpdf := newProcessor (Fpdf.new exPaper)

private def texts (width : ℚ) : List (List Str) :=
  (textLinesHyphenated (Fpdf.engine exPaper) exHyph [] [.textBlock b!"a syllable of a syllable"] width defaultStyle exState).1.map
    fun l => l.items.map (·.text)

/-- In a width of eight letters the first syllable fits behind `a`, in one of nine the first two, in one of six none. -/
example : texts 16 = [[b!"a", b!" syl-"], [b!"lable"], [b!"of", b!" a"], [b!"syllable"]] ∧
    texts 18 = [[b!"a", b!" sylla-"], [b!"ble", b!" of", b!" a"], [b!"syllable"]] ∧
    texts 12 = [[b!"a"], [b!"syllable"], [b!"of", b!" a"], [b!"syllable"]] := by
  decide +kernel

/-- The first one in the words of the theorem. -/
example : Late exHyph exPaper.metric 16 [(defaultStyle, b!"a"), (defaultStyle, b!"syllable")]
    [.whole (defaultStyle, b!"a"), .head (defaultStyle, b!"syl")] [.tail (defaultStyle, b!"lable")] := by
  refine .inr ⟨(defaultStyle, b!"syllable"), by simp, [.whole (defaultStyle, b!"a")], [], 1, le_refl _, by decide, rfl, rfl, ?_, ?_, ?_⟩
  · decide +kernel
  · decide +kernel
  · intro j h1 h2
    have h2' : j < 3 := h2
    obtain rfl : j = 2 := by omega
    decide +kernel

end Verif.Props
