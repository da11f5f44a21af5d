import Verif.Proofs.Fewest
import Verif.Props.TextLines
/-
C104: text is broken into as few lines as possible, and takes no more room if it is given more width.
-/
namespace Verif.Props
open Verif.Go Verif.Model Verif.Spec Verif.Proofs

variable {E : Type} {eng : Engine E} {mt : Font → Str → ℚ} {cs : Classes} {iss : List Instr} {width width' : ℚ} {sty : Styles} {s : PState E}

private theorem length_eq (hm : Measures eng mt) : (textLines eng cs iss width sty s).1.length =
    (dropBlank ((segments (tokens cs (eng.currentPage s.eng) sty iss)).map (segLines mt width)).flatten).length := by
  have : (textLines eng cs iss width sty s).1.map (·.items) =
      (dropBlank ((segments (tokens cs (eng.currentPage s.eng) sty iss)).map (segLines mt width)).flatten).map setWords := by
    rw [textLines_eq hm, List.map_map, wrapped_segments]
    rfl
  have h := congrArg List.length this
  simpa using h

/-- C104: left, center and right aligned text.  Whatever other way there is to break it into lines, it takes as many lines or more; but for the blank line that the
code puts before a stretch whose first word alone reaches the width. -/
theorem C104_fewest (hm : Measures eng mt) (h0 : ∀ f w, 0 ≤ mt f w) {groups : List (List (List Word))}
    (h : Breaking mt width (segments (tokens cs (eng.currentPage s.eng) sty iss)) groups) :
    (textLines eng cs iss width sty s).1.length ≤ (dropBlank groups.flatten).length + wideStarts mt width (segments (tokens cs (eng.currentPage s.eng) sty iss)) := by
  rw [length_eq hm]
  exact dropBlank_length_le (fun hl => (segLines_last _).mpr (breaking_last h hl)) _ (lines_fewest h0 h)

/-- C104: if no stretch begins with a word that alone reaches the width, the lines of the code are one of these ways: so they are the fewest possible. -/
theorem C104_attained (hm : Measures eng mt) (hw : wideStarts mt width (segments (tokens cs (eng.currentPage s.eng) sty iss)) = 0) :
    ∃ groups, Breaking mt width (segments (tokens cs (eng.currentPage s.eng) sty iss)) groups ∧
      (textLines eng cs iss width sty s).1.map (·.items) = (dropBlank groups.flatten).map setWords := by
  refine ⟨(segments (tokens cs (eng.currentPage s.eng) sty iss)).map (segLines mt width), ⟨?_, ?_, ?_, ?_⟩, ?_⟩
  · rw [List.map_map]
    conv_rhs => rw [← List.map_id (segments _)]
    exact List.map_congr_left fun seg _ => segLines_words seg
  · intro g hg
    obtain ⟨seg, _, rfl⟩ := List.mem_map.mp hg
    exact segLines_ne seg
  · intro g hg hb
    obtain ⟨seg, hs, rfl⟩ := List.mem_map.mp hg
    by_cases hne : seg = []
    · rw [hne]; rfl
    · have hns : ¬ wideStart mt width seg = true := (List.countP_eq_zero.mp hw) seg hs
      obtain ⟨ls, h1, _, _, _, h5⟩ := segLines_split (mt := mt) (width := width) hne
      rw [h5, if_neg hns] at hb
      exact absurd rfl (h1 [] (by simpa using hb))
  · intro g hg
    obtain ⟨seg, _, rfl⟩ := List.mem_map.mp hg
    exact segLines_fits seg
  · rw [textLines_eq hm, List.map_map, wrapped_segments]
    rfl

/-- C104: with more width there are not more lines. -/
theorem C104_wider (hm : Measures eng mt) (h0 : ∀ f w, 0 ≤ mt f w) (hw : width ≤ width') :
    (textLines eng cs iss width' sty s).1.length ≤ (textLines eng cs iss width sty s).1.length := by
  rw [length_eq hm, length_eq hm]
  exact dropBlank_length_le (k := 0) (fun hl => (segLines_last _).mpr ((segLines_last _).mp hl)) (lines_wider h0 hw _)

/-- C104: with more width the text, in a box or a cell, is not higher. -/
theorem C104_height (hm : Measures eng mt) (h0 : ∀ f w, 0 ≤ mt f w) {fh : Font → ℚ} (hf : ∀ f e, eng.fontHeight (eng.changeFont f e) = fh f) {ctx : Ctx}
    (hfh : 0 ≤ fh sty.font ∧ ∀ st t, .paragraph st t ∈ iss → 0 ≤ fh (st.mutatedStyles ctx.classes sty).font) (hsp : 0 ≤ sty.dim.lineSpacing)
    (ha : sty.align.h ≠ b!"block") (hw : width ≤ width') : (textHeightFnc eng ctx sty iss width' s).1 ≤ (textHeightFnc eng ctx sty iss width s).1 := by
  unfold textHeightFnc
  rw [if_neg ha, if_neg ha]
  unfold textHeight
  have h1 : (textLines eng ctx.classes iss width' sty { s with eng := eng.changeFont sty.font s.eng }).2 =
      (textLines eng ctx.classes iss width sty { s with eng := eng.changeFont sty.font s.eng }).2 := linesLoop_state eng ctx.classes sty iss _ _ _
  have h2 : ((textLines eng ctx.classes iss width' sty { s with eng := eng.changeFont sty.font s.eng }).1.length : ℚ) ≤
      (textLines eng ctx.classes iss width sty { s with eng := eng.changeFont sty.font s.eng }).1.length := by
    exact_mod_cast C104_wider hm h0 hw
  have h3 := mul_nonneg (linesLoop_nonneg (width := width) hf hfh.1 iss ([], TextLine.empty) { s with eng := eng.changeFont sty.font s.eng } hfh.2 (by
    show 0 ≤ eng.fontHeight (eng.changeFont _ _)
    rw [hf]; exact hfh.1)) hsp
  change 0 ≤ eng.fontHeight (textLines eng ctx.classes iss width sty { s with eng := eng.changeFont sty.font s.eng }).2.eng * _ at h3
  simp only [linesHeight, h1]
  have := mul_le_mul_of_nonneg_right h2 h3
  linarith

/-! ### Examples -/

private theorem exMetric_nonneg : ∀ f w, 0 ≤ exPaper.metric f w := fun f w => by
  show (0 : ℚ) ≤ 2 * (w.length : ℚ)
  positivity

private def exState : PState Fpdf := newProcessor (Fpdf.new exPaper)

private def sample : List Instr := [.textBlock b!"one two three four", .lineBreak, .textBlock b!"five"]

private def lineCount (width : ℚ) : Nat := (textLines (Fpdf.engine exPaper) [] sample width defaultStyle exState).1.length

/- Three lines where also four are possible; with more width there are two, with less width more. -/
example : lineCount 24 = 3 ∧ lineCount 60 = 2 ∧ lineCount 13 = 5 := by decide +kernel

private def others : List (List (List Word)) :=
  [[[(defaultStyle, b!"one")], [(defaultStyle, b!"two")], [(defaultStyle, b!"three"), (defaultStyle, b!"four")]], [[(defaultStyle, b!"five")]]]

example : Breaking exPaper.metric 24 (segments (tokens [] ((Fpdf.engine exPaper).currentPage exState.eng) defaultStyle sample)) others ∧
    wideStarts exPaper.metric 24 (segments (tokens [] ((Fpdf.engine exPaper).currentPage exState.eng) defaultStyle sample)) = 0 := by
  refine ⟨⟨by decide +kernel, by decide +kernel, by decide +kernel, ?_⟩, by decide +kernel⟩
  decide +kernel

/- The blank line before a wide word: one line would do. -/
example : (textLines (Fpdf.engine exPaper) [] [.textBlock b!"syllable"] 15 defaultStyle exState).1.length = 2 ∧
    wideStarts exPaper.metric 15 (segments (tokens [] ((Fpdf.engine exPaper).currentPage exState.eng) defaultStyle [.textBlock b!"syllable"])) = 1 := by
  decide +kernel

/- The engine of the repository meets the assumptions. -/
example (w w' : ℚ) (h : w ≤ w') (ctx : Ctx) : (textHeightFnc (Fpdf.engine exPaper) ctx defaultStyle sample w' exState).1 ≤
    (textHeightFnc (Fpdf.engine exPaper) ctx defaultStyle sample w exState).1 :=
  C104_height (measures_fpdf exPaper) exMetric_nonneg (fh := fun f => f.pointSize * (127 / 360)) (fun _ _ => rfl)
    ⟨by decide +kernel, fun st t hm => by simp [sample] at hm⟩ (by decide +kernel) (by decide +kernel) h

end Verif.Props
