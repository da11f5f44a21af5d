import Verif.Proofs.Inside
import Verif.Props.Writing
import Verif.Props.Pages
import Verif.Props.Table
/-
Properties C78, C79: the text of a box is within the box, the text of a cell within the cell (/repo/process.go renderTextBox,
/repo/table.go renderCell).
-/
namespace Verif.Props
open Verif.Go Verif.Model Verif.Proofs Verif.Spec

variable {E : Type} {eng : Engine E} {c : Calls E} {mt : Font → Str → ℚ} {fh : Font → ℚ} {right bottom : ℚ} {look : E → Look}
  {placed : E → List TextAt} {ctx : Ctx} {iss : List Instr} {width : ℚ} {sty : Styles} {s s' : PState E}

theorem lastFont_one {ws : List Word} (h : ∀ w ∈ ws, fh w.1.font = fh sty.font) : fh (lastFont sty ws) = fh sty.font := by
  unfold lastFont
  cases hl : ws.getLast? with
  | none => rfl
  | some w => exact h w (List.mem_of_getLast? hl)

/-- The height measured for a text: in the font of its last word. -/
theorem textHeight_last (hm : Metrics eng ctx.hyphenate mt fh) (s : PState E) :
    (textHeight eng ctx.classes iss width sty s).1 = linesHeight (textLines eng ctx.classes iss width sty s).1.length
      (fh (lastFont sty ((tokens ctx.classes (eng.currentPage s.eng) sty iss).filterMap id))) sty.dim.lineSpacing := by
  unfold textHeight
  simp only
  congr 1
  · rw [textLines_eq hm.measures, textLines_eq hm.measures, hm.measures.page]
  · have := linesLoop_last (cs := ctx.classes) (width := width) (sty := sty) hm.measures hm.height iss ([], TextLine.empty)
      { s with eng := eng.changeFont sty.font s.eng } sty.font (hm.height _ _)
    rw [show eng.currentPage ({ s with eng := eng.changeFont sty.font s.eng } : PState E).eng = eng.currentPage s.eng from hm.measures.page _ _] at this
    exact this

theorem textHeightHyph_last (hm : Metrics eng ctx.hyphenate mt fh) (s : PState E) :
    (textHeightHyphenated eng ctx.hyphenate ctx.classes iss width sty s).1 =
      linesHeight (textLinesHyphenated eng ctx.hyphenate ctx.classes iss width sty s).1.length
        (fh (lastFont sty ((blockTokens ctx.classes (eng.currentPage s.eng) sty iss).filterMap id))) sty.dim.lineSpacing := by
  unfold textHeightHyphenated
  simp only
  congr 1
  · rw [textLinesHyph_eq hm.measures, textLinesHyph_eq hm.measures, hm.measures.page]
  · have := linesLoopHyph_last (hyph := ctx.hyphenate) (cs := ctx.classes) (width := width) (sty := sty) hm.measures hm.height iss ([], TextLine.empty)
      { s with eng := eng.changeFont sty.font s.eng } sty.font (hm.height _ _)
    rw [show eng.currentPage ({ s with eng := eng.changeFont sty.font s.eng } : PState E).eng = eng.currentPage s.eng from hm.measures.page _ _] at this
    exact this

/-- The height measured for a text with fonts of one height. -/
theorem textHeight_one (hm : Metrics eng ctx.hyphenate mt fh)
    (hone : ∀ st t, .paragraph st t ∈ iss → fh (st.mutatedStyles ctx.classes sty).font = fh sty.font) (s : PState E) :
    (textHeight eng ctx.classes iss width sty s).1 =
      linesHeight (textLines eng ctx.classes iss width sty s).1.length (fh sty.font) sty.dim.lineSpacing := by
  unfold textHeight
  simp only
  congr 1
  · rw [textLines_eq hm.measures, textLines_eq hm.measures, hm.measures.page]
  · exact linesLoop_font hm.height iss _ _ hone (hm.height _ _)

theorem textHeightHyph_one (hm : Metrics eng ctx.hyphenate mt fh)
    (hone : ∀ st t, .paragraph st t ∈ iss → fh (st.mutatedStyles ctx.classes sty).font = fh sty.font) (s : PState E) :
    (textHeightHyphenated eng ctx.hyphenate ctx.classes iss width sty s).1 =
      linesHeight (textLinesHyphenated eng ctx.hyphenate ctx.classes iss width sty s).1.length (fh sty.font) sty.dim.lineSpacing := by
  unfold textHeightHyphenated
  simp only
  congr 1
  · rw [textLinesHyph_eq hm.measures, textLinesHyph_eq hm.measures, hm.measures.page]
  · exact linesLoopHyph_font hm.height iss _ _ hone (hm.height _ _)

theorem setWords_inj : ∀ a b : List Word, setWords a = setWords b → a = b := by
  intro a b h
  rcases a with _ | ⟨w, ws⟩ <;> rcases b with _ | ⟨v, vs⟩
  · rfl
  · simp [setWords] at h
  · simp [setWords] at h
  · simp only [setWords, List.cons.injEq, TextItem.mk.injEq] at h
    obtain ⟨⟨e1, e2⟩, h⟩ := h
    have e3 : ws = vs := by
      refine List.map_injective_iff.mpr ?_ h
      intro a b h
      simp only [TextItem.mk.injEq, List.cons.injEq, true_and] at h
      exact Prod.ext h.1 h.2
    rw [e3, show w = v from Prod.ext e1 e2]

/-- Lines are not wider than the width if no word is. -/
theorem lines_narrow (hm : Measures eng mt) {cs : Classes} (hwd : 0 ≤ width) {ls : List (List Word)}
    (h1 : (textLines eng cs iss width sty s).1.map (·.items) = ls.map setWords) (hfits : ∀ w ∈ ls.flatten, spaced mt w ≤ width) :
    ∀ l ∈ ls, spacedSum mt l ≤ width := by
  intro l hl
  rcases Nat.lt_or_ge l.length 2 with h | h
  · rcases l with _ | ⟨w, _ | ⟨v, l⟩⟩
    · simpa [spacedSum] using hwd
    · have := hfits w (List.mem_flatten.mpr ⟨_, hl, by simp⟩)
      simpa [spacedSum] using this
    · simp only [List.length_cons] at h; omega
  · rw [textLines_eq hm, List.map_map] at h1
    have hmem : setWords l ∈ ls.map setWords := List.mem_map_of_mem hl
    rw [← h1] at hmem
    obtain ⟨l', hl', e⟩ := List.mem_map.mp hmem
    have e' : l' = l := setWords_inj _ _ e
    subst e'
    exact le_of_lt (wrapped_narrow _ l' hl' h)

theorem lines_within (hm : Metrics eng ctx.hyphenate mt fh) (hw : Writes eng c mt fh right bottom look placed)
    (hp : ∀ w ∈ (blockTokens ctx.classes (eng.currentPage s.eng) sty iss).filterMap id, spaced mt w ≤ width)
    (hu : Under fh sty.dim.lineSpacing sty ((tokens ctx.classes (eng.currentPage s.eng) sty iss).filterMap id))
    (hh : sty.align.h = b!"left" ∨ sty.align.h = b!"center" ∨ sty.align.h = b!"right") (hx : 0 ≤ (look s.eng).x) (hwd : 0 ≤ width) (hr : (look s.eng).x + width ≤ right)
    (hb : (look s.eng).y + (textHeight eng ctx.classes iss width sty s).1 ≤ bottom) :
    ∃ s' new, Model.writeText eng ctx c iss width sty s = some ((), s') ∧ placed s'.eng = placed s.eng ++ new ∧
      (∀ t ∈ new, TextIn mt fh (look s.eng).x (look s.eng).y ((look s.eng).x + width)
        ((look s.eng).y + (textHeight eng ctx.classes iss width sty s).1) t) ∧
      ((∀ st t, .paragraph st t ∈ iss → fh (st.mutatedStyles ctx.classes sty).font = fh sty.font) → 0 ≤ fh sty.font → fh sty.font ≤ sty.dim.lineSpacing * fh sty.font → new.Pairwise (TextAfter mt fh)) := by
  obtain ⟨ls, h1, h2, h3⟩ := C64_placed (ctx := ctx) (iss := iss) (s := s) hm.measures hm.colored hw hh hx hwd
  have hfits : ∀ w ∈ ls.flatten, spaced mt w ≤ width := by
    rw [h2]; intro w hw; exact hp w (tokens_block iss w hw)
  have hlen : (textLines eng ctx.classes iss width sty s).1.length = ls.length := by
    have := congrArg List.length h1
    simpa using this
  have hsum : ∀ l ∈ ls, spacedSum mt l ≤ width := by
    intro l hl
    exact lines_narrow hm.measures hwd h1 hfits l hl
  have hin : ∀ l ∈ ls.map (fun l => runFrom mt 0 ((look s.eng).x + indent sty.align.h (width - spacedSum mt l)) (lineTexts l)), ∀ i ∈ l,
      (∃ w ∈ (tokens ctx.classes (eng.currentPage s.eng) sty iss).filterMap id, i.2.1 = w.1.font) ∧ (look s.eng).x ≤ i.1 ∧ i.1 + mt i.2.1 i.2.2 ≤ (look s.eng).x + width := by
    intro l hl i hi
    obtain ⟨l, hl', rfl⟩ := List.mem_map.mp hl
    obtain ⟨h4, h5, h6⟩ := runFrom_within hm.nonneg (le_refl 0) _ _ i hi
    have hs := hsum l hl'
    have hind : 0 ≤ indent sty.align.h (width - spacedSum mt l) ∧ indent sty.align.h (width - spacedSum mt l) ≤ width - spacedSum mt l := by
      unfold indent
      split
      · exact ⟨by linarith, le_refl _⟩
      · split
        · exact ⟨by linarith, by linarith⟩
        · exact ⟨le_refl _, by linarith⟩
    have hsumle : ((lineTexts l).map fun t => mt t.1 t.2).sum ≤ spacedSum mt l := by
      have := natural_le (mt := mt) hm.lead l
      simp only [naturalWidth, lineTexts, List.map_map] at this ⊢
      exact this
    refine ⟨?_, by linarith, by linarith⟩
    simp only [lineTexts, List.mem_map, Prod.mk.injEq] at h4
    obtain ⟨it, hit, e, _⟩ := h4
    rw [← e]
    have : ∃ w ∈ l, it.sty = w.1 := by
      cases l with
      | nil => simp [setWords] at hit
      | cons w ws =>
        simp only [setWords, List.mem_cons, List.mem_map] at hit
        rcases hit with rfl | ⟨v, hv, rfl⟩
        · exact ⟨w, by simp, rfl⟩
        · exact ⟨v, by simp [hv], rfl⟩
    obtain ⟨w, hw, e⟩ := this
    rw [e, ← h2]
    exact ⟨w, List.mem_flatten.mpr ⟨_, hl', hw⟩, rfl⟩
  have key := stack_under (mt := mt) (fh := fh) (width := width) (color := sty.color.text) (y := (look s.eng).y) hu hin
  rw [List.length_map] at key
  rw [textHeight_last hm, hlen] at hb ⊢
  obtain ⟨s', x, r1, r2, _⟩ := h3 _ rfl (by
    intro t ht
    obtain ⟨k1, k2, k3, k4⟩ := key t ht
    exact ⟨by linarith, by linarith, by linarith⟩)
  refine ⟨s', _, r1, r2, key, fun q0 q1 q2 => ?_⟩
  have hfont : ∀ w ∈ (tokens ctx.classes (eng.currentPage s.eng) sty iss).filterMap id, fh w.1.font = fh sty.font :=
    fun w hw => blockTokens_font iss q0 w (tokens_block iss w hw)
  exact stack_order q1 q2 (lastFont_one hfont) _ _ fun l hl => ⟨fun i hi => by
    obtain ⟨⟨w, hw, e⟩, -⟩ := hin l hl i hi
    rw [e]; exact hfont w hw, by
    obtain ⟨l, -, rfl⟩ := List.mem_map.mp hl
    exact runFrom_order hm.nonneg (le_refl 0) _ _⟩

theorem block_within (hm : Metrics eng ctx.hyphenate mt fh) (hw : Writes eng c mt fh right bottom look placed)
    (hp : ∀ w ∈ (blockTokens ctx.classes (eng.currentPage s.eng) sty iss).filterMap id, spaced mt w ≤ width)
    (hu : Under fh sty.dim.lineSpacing sty ((blockTokens ctx.classes (eng.currentPage s.eng) sty iss).filterMap id))
    (hx : 0 ≤ (look s.eng).x) (hwd : 0 ≤ width) (hr : (look s.eng).x + width ≤ right)
    (hb : (look s.eng).y + (textHeightHyphenated eng ctx.hyphenate ctx.classes iss width sty s).1 ≤ bottom) :
    ∃ s' new, writeTextHyphenated eng ctx c iss width sty s = some ((), s') ∧ placed s'.eng = placed s.eng ++ new ∧
      (∀ t ∈ new, TextIn mt fh (look s.eng).x (look s.eng).y ((look s.eng).x + width)
        ((look s.eng).y + (textHeightHyphenated eng ctx.hyphenate ctx.classes iss width sty s).1) t) ∧
      ((∀ st t, .paragraph st t ∈ iss → fh (st.mutatedStyles ctx.classes sty).font = fh sty.font) → 0 ≤ fh sty.font → fh sty.font ≤ sty.dim.lineSpacing * fh sty.font → new.Pairwise (TextAfter mt fh)) := by
  have h3 := C66_placed (ctx := ctx) (iss := iss) (s := s) (sty := sty) (width := width) hm.measures hm.colored hw hm.nonneg hm.space hm.trimmed hx
  simp only at h3
  have hin : ∀ l ∈ (textLinesHyphenated eng ctx.hyphenate ctx.classes iss width sty s).1.map
      (fun l => blockLine mt (look s.eng).x width l.items l.paragraph), ∀ i ∈ l,
      (∃ w ∈ (blockTokens ctx.classes (eng.currentPage s.eng) sty iss).filterMap id, i.2.1 = w.1.font) ∧ (look s.eng).x ≤ i.1 ∧ i.1 + mt i.2.1 i.2.2 ≤ (look s.eng).x + width := by
    intro l hl i hi
    rw [textLinesHyph_eq hm.measures, List.map_map] at hl
    obtain ⟨ps, hps, rfl⟩ := List.mem_map.mp hl
    have hmem : ps.1 ∈ (wrappedHyph ctx.hyphenate mt width (blockTokens ctx.classes (eng.currentPage s.eng) sty iss)).map (·.1) :=
      List.mem_map_of_mem hps
    have hwhole := wrappedHyph_whole (hyph := ctx.hyphenate) (mt := mt) (width := width) _
      (blockTokens_nosp (cs := ctx.classes) (page := eng.currentPage s.eng) (sty := sty) iss) ps.1 hmem
    have hpc := fun p hp' => pieceOf_item hm hp (wrappedHyph_pieceOf hm.nonneg _ ps.1 hmem p hp')
    have hpf : ∀ it ∈ setPieces ps.1, ∃ w ∈ (blockTokens ctx.classes (eng.currentPage s.eng) sty iss).filterMap id, it.sty.font = w.1.font := by
      intro it hit
      cases hps : ps.1 with
      | nil => rw [hps] at hit; simp [setPieces] at hit
      | cons q qs =>
        rw [hps] at hit hpc
        simp only [setPieces, List.mem_cons, List.mem_map] at hit
        rcases hit with rfl | ⟨r, hr, rfl⟩
        · obtain ⟨w, hw, e, -⟩ := hpc q (by simp)
          exact ⟨w, hw, e⟩
        · obtain ⟨w, hw, -, e, -⟩ := hpc r (by simp [hr])
          exact ⟨w, hw, e⟩
    have hlen : (setPieces ps.1).length = ps.1.length := setPieces_length ps.1
    have hi : i ∈ blockLine mt (look s.eng).x width (setPieces ps.1) ps.2 := hi
    by_cases hc : (setPieces ps.1).length ≤ 1 ∨ ps.2 = true
    · rw [show blockLine mt (look s.eng).x width (setPieces ps.1) ps.2 = _ from if_pos hc] at hi
      obtain ⟨h4, h5, h6⟩ := runFrom_within hm.nonneg (le_refl 0) _ _ i hi
      simp only [List.mem_map, Prod.mk.injEq] at h4
      obtain ⟨it, hit, e, _⟩ := h4
      have hnat : ((setPieces ps.1).map fun i => mt i.sty.font i.text).sum ≤ width := by
        rcases Nat.lt_or_ge ps.1.length 2 with h | h
        · rcases hq : ps.1 with _ | ⟨q, _ | ⟨r, l⟩⟩
          · simpa [setPieces] using hwd
          · obtain ⟨_, _, _, _, this⟩ := hpc q (by rw [hq]; simp)
            simpa [setPieces] using this
          · rw [hq] at h; simp only [List.length_cons] at h; omega
        · exact le_trans (natural_le_hyph hm.lead ps.1 (wrappedHyph_ends _ ps.1 hmem)) (wrappedHyph_width _ ps.1 hmem h).1
      rw [List.map_map] at h6
      have h6' : i.1 + mt i.2.1 i.2.2 ≤ (look s.eng).x + ((setPieces ps.1).map fun i => mt i.sty.font i.text).sum := by
        have : ((setPieces ps.1).map ((fun t : Font × Str => mt t.1 t.2) ∘ fun i => (i.sty.font, i.text))).sum =
          ((setPieces ps.1).map fun i => mt i.sty.font i.text).sum := rfl
        rw [this] at h6
        linarith
      exact ⟨by rw [← e]; exact hpf it hit, h5, by linarith⟩
    · rw [show blockLine mt (look s.eng).x width (setPieces ps.1) ps.2 = _ from if_neg hc] at hi
      simp only [not_or, not_le] at hc
      have h2 : 2 ≤ ps.1.length := by omega
      have hroom := room hm.space hm.trimmed (wrappedHyph_ends _ ps.1 hmem) hwhole h2
      have hwid := (wrappedHyph_width _ ps.1 hmem h2).1
      have hpure : pureWidth mt (setPieces ps.1) ≤ width - 1 / 10 := by rw [← pure_eq ps.1 hwhole]; linarith
      have hpos : (0 : ℚ) < (setPieces ps.1).length - 1 := by
        have : (2 : ℚ) ≤ (setPieces ps.1).length := by exact_mod_cast (by omega : 2 ≤ (setPieces ps.1).length)
        linarith
      have hgap : 0 ≤ (width - 1 / 10 - pureWidth mt (setPieces ps.1)) / ((setPieces ps.1).length - 1 : ℚ) :=
        div_nonneg (by linarith) (le_of_lt hpos)
      obtain ⟨h4, h5, h6⟩ := runFrom_within hm.nonneg hgap _ _ i hi
      simp only [List.mem_map, Prod.mk.injEq] at h4
      obtain ⟨it, hit, e, _⟩ := h4
      rw [List.map_map, List.length_map, div_mul_cancel₀ _ (ne_of_gt hpos)] at h6
      have : ((setPieces ps.1).map ((fun t : Font × Str => mt t.1 t.2) ∘ fun i => (i.sty.font, trimSpace i.text))).sum =
        pureWidth mt (setPieces ps.1) := rfl
      rw [this] at h6
      exact ⟨by rw [← e]; exact hpf it hit, h5, by linarith⟩
  have hrow : ∀ l ∈ (textLinesHyphenated eng ctx.hyphenate ctx.classes iss width sty s).1.map
      (fun l => blockLine mt (look s.eng).x width l.items l.paragraph), l.Pairwise fun i j => i.1 + mt i.2.1 i.2.2 ≤ j.1 := by
    intro l hl
    rw [textLinesHyph_eq hm.measures, List.map_map] at hl
    obtain ⟨ps, hps, rfl⟩ := List.mem_map.mp hl
    have hmem : ps.1 ∈ (wrappedHyph ctx.hyphenate mt width (blockTokens ctx.classes (eng.currentPage s.eng) sty iss)).map (·.1) :=
      List.mem_map_of_mem hps
    have hwhole := wrappedHyph_whole (hyph := ctx.hyphenate) (mt := mt) (width := width) _
      (blockTokens_nosp (cs := ctx.classes) (page := eng.currentPage s.eng) (sty := sty) iss) ps.1 hmem
    have hlen : (setPieces ps.1).length = ps.1.length := setPieces_length ps.1
    show (blockLine mt (look s.eng).x width (setPieces ps.1) ps.2).Pairwise _
    unfold blockLine
    split
    · exact runFrom_order hm.nonneg (le_refl 0) _ _
    · rename_i hc
      simp only [not_or, not_le] at hc
      have h2 : 2 ≤ ps.1.length := by omega
      have hroom := room hm.space hm.trimmed (wrappedHyph_ends _ ps.1 hmem) hwhole h2
      have hwid := (wrappedHyph_width _ ps.1 hmem h2).1
      have hpure : pureWidth mt (setPieces ps.1) ≤ width - 1 / 10 := by rw [← pure_eq ps.1 hwhole]; linarith
      have hpos : (0 : ℚ) < (setPieces ps.1).length - 1 := by
        have : (2 : ℚ) ≤ (setPieces ps.1).length := by exact_mod_cast (by omega : 2 ≤ (setPieces ps.1).length)
        linarith
      exact runFrom_order hm.nonneg (div_nonneg (by linarith) (le_of_lt hpos)) _ _
  have key := stack_under (mt := mt) (fh := fh) (width := width) (color := sty.color.text) (y := (look s.eng).y) hu hin
  rw [List.length_map] at key
  rw [textHeightHyph_last hm] at hb ⊢
  obtain ⟨s', x, r1, r2, _⟩ := h3 (by
    intro t ht
    obtain ⟨k1, k2, k3, k4⟩ := key t ht
    exact ⟨by linarith, by linarith, by linarith⟩)
  refine ⟨s', _, r1, r2, key, fun q0 q1 q2 => ?_⟩
  have hfont := blockTokens_font (page := eng.currentPage s.eng) iss q0
  exact stack_order q1 q2 (lastFont_one hfont) _ _ fun l hl => ⟨fun i hi => by
    obtain ⟨⟨w, hw, e⟩, -⟩ := hin l hl i hi
    rw [e]; exact hfont w hw, hrow l hl⟩

theorem linesLoop_page (hm : Measures eng mt) {cs : Classes} : ∀ (iss : List Instr) acc (s : PState E),
    eng.currentPage (linesLoop eng cs width sty iss acc s).2.eng = eng.currentPage s.eng := by
  intro iss
  induction iss with
  | nil => intro acc s; rfl
  | cons i iss ih =>
    intro acc s
    cases i with
    | textBlock t =>
      simp only [linesLoop, textOf]
      split
      · exact ih _ _
      · exact (ih _ _).trans (hm.page _ _)
    | paragraph st t =>
      simp only [linesLoop, textOf]
      split
      · exact ih _ _
      · exact (ih _ _).trans (hm.page _ _)
    | _ => exact ih _ _

/-- Measuring leaves texts, position and page alone. -/
theorem textHeight_kept (hm : Metrics eng ctx.hyphenate mt fh) (hw : Writes eng c mt fh right bottom look placed) (s : PState E) :
    placed (textHeight eng ctx.classes iss width sty s).2.eng = placed s.eng ∧
    (∃ f, look (textHeight eng ctx.classes iss width sty s).2.eng = { look s.eng with font := f }) ∧
    eng.currentPage (textHeight eng ctx.classes iss width sty s).2.eng = eng.currentPage s.eng := by
  obtain ⟨h1, h2⟩ := linesLoop_look hm.measures hw (cs := ctx.classes) (width := width) (sty := sty) iss ([], TextLine.empty)
    { s with eng := eng.changeFont sty.font s.eng }
  have h3 := linesLoop_page hm.measures (cs := ctx.classes) (width := width) (sty := sty) iss ([], TextLine.empty)
    { s with eng := eng.changeFont sty.font s.eng }
  refine ⟨h2.trans (hw.font _ _).2, ?_, h3.trans (hm.measures.page _ _)⟩
  simp only [(hw.font _ _).1] at h1
  exact ⟨_, h1⟩

theorem under_one {ws : List Word} {spacing : ℚ} (h : ∀ w ∈ ws, fh w.1.font = fh sty.font) (h0 : 0 ≤ spacing * fh sty.font) : Under fh spacing sty ws := by
  intro w hw
  rw [h w hw, lastFont_one h]
  exact ⟨le_refl _, h0, le_refl _⟩

theorem plain_under {page : Int} (hp : Plain mt fh ctx.classes page sty iss width) (h0 : 0 ≤ sty.dim.lineSpacing * fh sty.font) :
    Under fh sty.dim.lineSpacing sty (textWords ctx.classes page sty iss) := by
  refine under_one (fun w hw => blockTokens_font (page := page) iss hp.font w ?_) h0
  unfold textWords at hw
  split at hw
  · exact hw
  · exact tokens_block iss w hw

theorem low_under {page : Int} (hp : Low mt fh ctx.classes page sty iss width) (h0 : 0 ≤ sty.dim.lineSpacing) :
    Under fh sty.dim.lineSpacing sty (textWords ctx.classes page sty iss) := fun w hw =>
  ⟨(hp.font w hw).2, mul_nonneg h0 (hp.font w hw).1, mul_le_mul_of_nonneg_left (hp.font w hw).2 h0⟩

/-- The text of a box or cell, whatever its alignment. -/
theorem text_within (hm : Metrics eng ctx.hyphenate mt fh) (hw : Writes eng c mt fh right bottom look placed)
    (hp : ∀ w ∈ (blockTokens ctx.classes (eng.currentPage s.eng) sty iss).filterMap id, spaced mt w ≤ width)
    (hu : Under fh sty.dim.lineSpacing sty (textWords ctx.classes (eng.currentPage s.eng) sty iss))
    (hh : sty.align.h = b!"left" ∨ sty.align.h = b!"center" ∨ sty.align.h = b!"right" ∨ sty.align.h = b!"block") (hx : 0 ≤ (look s.eng).x) (hwd : 0 ≤ width) (hr : (look s.eng).x + width ≤ right)
    (hb : (look s.eng).y + (textHeightFnc eng ctx sty iss width s).1 ≤ bottom) :
    ∃ s' new, writeTextFnc eng ctx c iss width sty s = some ((), s') ∧ placed s'.eng = placed s.eng ++ new ∧
      (∀ t ∈ new, TextIn mt fh (look s.eng).x (look s.eng).y ((look s.eng).x + width)
        ((look s.eng).y + (textHeightFnc eng ctx sty iss width s).1) t) ∧
      ((∀ st t, .paragraph st t ∈ iss → fh (st.mutatedStyles ctx.classes sty).font = fh sty.font) → 0 ≤ fh sty.font → fh sty.font ≤ sty.dim.lineSpacing * fh sty.font → new.Pairwise (TextAfter mt fh)) := by
  unfold writeTextFnc
  by_cases hbl : sty.align.h = b!"block"
  · have e : textHeightFnc eng ctx sty iss width s = textHeightHyphenated eng ctx.hyphenate ctx.classes iss width sty s := if_pos hbl
    rw [e] at hb ⊢
    rw [if_pos hbl]
    rw [textWords, if_pos hbl] at hu
    exact block_within hm hw hp hu hx hwd hr hb
  · have e : textHeightFnc eng ctx sty iss width s = textHeight eng ctx.classes iss width sty s := if_neg hbl
    rw [e] at hb ⊢
    rw [if_neg hbl]
    rw [textWords, if_neg hbl] at hu
    refine lines_within hm hw hp hu ?_ hx hwd hr hb
    rcases hh with h | h | h | h
    · exact Or.inl h
    · exact Or.inr (Or.inl h)
    · exact Or.inr (Or.inr h)
    · exact absurd h hbl

/-- The height measured depends on the page only. -/
theorem textHeightFnc_page (hm : Metrics eng ctx.hyphenate mt fh) {s s2 : PState E}
    (hpage : eng.currentPage s2.eng = eng.currentPage s.eng) :
    (textHeightFnc eng ctx sty iss width s2).1 = (textHeightFnc eng ctx sty iss width s).1 := by
  unfold textHeightFnc
  split
  · rw [textHeightHyph_last hm, textHeightHyph_last hm, textLinesHyph_eq hm.measures, textLinesHyph_eq hm.measures, hpage]
  · rw [textHeight_last hm, textHeight_last hm, textLines_eq hm.measures, textLines_eq hm.measures, hpage]

theorem draws_kept (hf : Frames eng look placed) (cmds : List DrawCmd) : ∀ e, placed (cmds.foldl (fun e c => eng.draw c e) e) = placed e ∧
    eng.currentPage (cmds.foldl (fun e c => eng.draw c e) e) = eng.currentPage e := by
  induction cmds with
  | nil => intro e; exact ⟨rfl, rfl⟩
  | cons d cmds ih =>
    intro e
    obtain ⟨h1, h2⟩ := ih (eng.draw d e)
    obtain ⟨g1, g2⟩ := hf.draw d e
    exact ⟨h1.trans g1, h2.trans g2⟩

/-- C78, as far as it holds: if no word of a text is higher than the last one or wider than the box, and the height of the box is not set, then the text is within the padding edges of the box, as long as the box is drawn within the limits of the page.  The box is the one of C56. -/
theorem C78_box_partial (hm : Metrics eng ctx.hyphenate mt fh) (hw : Writes eng c mt fh right bottom look placed) (hf : Frames eng look placed)
    (hpos : Positions eng) {st : Styled} {pa : Area} (h : renderTextBox eng ctx c st iss pa s = some ((), s')) (hi : iss ≠ [])
    (hsty : sty = st.mutatedStyles ctx.classes s.curr) (hauto : sty.dim.height ≤ 0)
    (hh : sty.align.h = b!"left" ∨ sty.align.h = b!"center" ∨ sty.align.h = b!"right" ∨ sty.align.h = b!"block")
    (hwidth : width = pa.effectiveWidth sty.dim.width - sty.box.padding.left - sty.box.padding.right) (hwd : 0 ≤ width)
    (hp : Low mt fh ctx.classes (eng.currentPage s.eng) sty iss width) (h0 : 0 ≤ sty.dim.lineSpacing) :
    ∃ s1 s2 x0 y0 x1 y1 s3,
      (s2 = s1 ∨ c.addPage s1 = some ((), s2)) ∧ s1 = (textHeightFnc eng ctx sty iss width s).2 ∧
      (x0, y0) = ((eng.getXY s2.eng).1 + sty.dim.offsetX, (eng.getXY s2.eng).2 + sty.dim.offsetY) ∧
      drawBoxM eng x0 y0 x1 y1 sty s2 = some ((), s3) ∧ placed s3.eng = placed s2.eng ∧
      (eng.currentPage s2.eng = eng.currentPage s.eng → 0 ≤ x0 + sty.box.padding.left → 0 ≤ y0 + sty.box.padding.top →
        x1 - sty.box.padding.right ≤ right → y1 - sty.box.padding.bottom ≤ bottom →
        ∃ new, placed s'.eng = placed s3.eng ++ new ∧
          ∀ t ∈ new, TextIn mt fh (x0 + sty.box.padding.left) (y0 + sty.box.padding.top) (x1 - sty.box.padding.right)
            (y1 - sty.box.padding.bottom) t) := by
  subst hsty
  obtain ⟨height, s1, s2, x0, y0, x1, y1, s3, s4, g1, g2, g3, g4, g5, g6, g7, _, _, g8, g9, _⟩ := C56_geometry_partial hpos h
  rw [← hwidth] at g1 g8
  have hm1 : textHeightFnc eng ctx (st.mutatedStyles ctx.classes s.curr) iss width s = (height, s1) := by
    rcases g1 with ⟨q, _⟩ | ⟨_, _, q⟩ | ⟨_, q, _⟩
    · linarith
    · exact q
    · exact absurd q hi
  obtain ⟨d2, d3⟩ := draws_kept hf (drawBox x0 y0 x1 y1 (st.mutatedStyles ctx.classes s.curr)) s2.eng
  refine ⟨s1, s2, x0, y0, x1, y1, { s2 with eng := (drawBox x0 y0 x1 y1 (st.mutatedStyles ctx.classes s.curr)).foldl (fun e c => eng.draw c e) s2.eng },
    ?_, by rw [hm1], g4, rfl, d2, ?_⟩
  · by_cases hc : s1.prevent = false ∧ (eng.getXY s1.eng).2 + height ≥ eng.pageHeight s1.eng - (eng.margins s1.eng).bottom
    · exact Or.inr (g2 hc)
    · exact Or.inl (g3 hc)
  · intro k1 k2 k3 k4 k5
    have hl3 : (look s3.eng).x = x0 + (st.mutatedStyles ctx.classes s.curr).box.padding.left ∧
        (look s3.eng).y = y0 + (st.mutatedStyles ctx.classes s.curr).box.padding.top := by
      obtain ⟨x, e⟩ := hf.setY _ ((drawBox x0 y0 x1 y1 (st.mutatedStyles ctx.classes s.curr)).foldl (fun e c => eng.draw c e) s2.eng) k3
      rw [g7]
      simp only [(hw.setX _ _ k2).1, e, and_self]
    have hp3 : placed s3.eng = placed s2.eng := by
      rw [g7]; simp only [(hw.setX _ _ k2).2, (hf.kept _ _).1, d2]
    have hc3 : eng.currentPage s3.eng = eng.currentPage s.eng := by
      rw [g7]; simp only [hf.setX, (hf.kept _ _).2, d3, k1]
    have hh3 : (textHeightFnc eng ctx (st.mutatedStyles ctx.classes s.curr) iss width s3).1 = height := by
      rw [textHeightFnc_page hm hc3, hm1]
    have hx1 : x0 + (st.mutatedStyles ctx.classes s.curr).box.padding.left + width = x1 - (st.mutatedStyles ctx.classes s.curr).box.padding.right := by
      rw [hwidth]; linarith
    have hy1 : y0 + (st.mutatedStyles ctx.classes s.curr).box.padding.top + height = y1 - (st.mutatedStyles ctx.classes s.curr).box.padding.bottom := by
      linarith
    obtain ⟨s5, new, r1, r2, r3, -⟩ := text_within (s := s3) hm hw (by rw [hc3]; exact hp.fits) (by rw [hc3]; exact low_under hp h0) hh (by rw [hl3.1]; exact k2) hwd
      (by rw [hl3.1, hx1]; exact k4) (by rw [hl3.2, hh3, hy1]; exact k5)
    rw [g8 hi, Option.some.injEq, Prod.mk.injEq] at r1
    rw [hl3.1, hl3.2, hh3, hx1, hy1] at r3
    refine ⟨new, ?_, r3⟩
    rw [g9]
    simp only [(hw.color _ _).2, (hw.font _ _).2, (hf.kept _ _).1]
    rw [r1.2, r2, hp3, d2]

/-- Where the text of a cell starts, if it has the height `H` and is measured as `h1` (as it is if it is not block text), starts at the top, or is
measured as higher, but not as too high. -/
theorem cell_start {sty : Styles} {y0 y1 h1 start H : ℚ} (hal : Aligned sty.align.v y0 y1 h1 start)
    (hv : sty.align.h = b!"block" → sty.align.v ≠ b!"middle" ∧ sty.align.v ≠ b!"bottom" ∨ H ≤ h1 ∧ h1 ≤ y1 - y0)
    (hm : sty.align.h ≠ b!"block" → h1 = H) (hH : H ≤ y1 - y0) : y0 ≤ start ∧ start + H ≤ y1 := by
  have key : H ≤ h1 ∧ h1 ≤ y1 - y0 → y0 ≤ start ∧ start + H ≤ y1 := by
    rintro ⟨k1, k2⟩
    unfold Aligned at hal
    split at hal
    · exact ⟨by linarith, by linarith⟩
    · split at hal
      · exact ⟨by linarith, by linarith⟩
      · exact ⟨by linarith, by linarith⟩
  by_cases hb : sty.align.h = b!"block"
  · rcases hv hb with ⟨v1, v2⟩ | h
    · unfold Aligned at hal
      rw [if_neg v1, if_neg v2] at hal
      exact ⟨by linarith, by linarith⟩
    · exact key h
  · exact key ⟨(hm hb).ge, by rw [hm hb]; exact hH⟩

/-- C79, as far as it holds: if no word of a text is higher than the last one or wider than the cell, and the text is not block text or starts at the top, then the
text is within the padding edges of the cell, wherever it is aligned, as long as the cell is tall enough for the text (C79_tall) and within the limits of
the page.  It is also so for block text that would not be less high without hyphenation, if the cell is tall enough for it then. -/
theorem C79_cell_partial (hm : Metrics eng ctx.hyphenate mt fh) (hw : Writes eng c mt fh right bottom look placed) (hf : Frames eng look placed)
    (hpos : Positions eng) {pa : Area} (h : renderCell eng ctx c pa sty iss s = some ((), s')) (hi : iss ≠ [])
    (hh : sty.align.h = b!"left" ∨ sty.align.h = b!"center" ∨ sty.align.h = b!"right" ∨ sty.align.h = b!"block")
    (hv : sty.align.h = b!"block" → sty.align.v ≠ b!"middle" ∧ sty.align.v ≠ b!"bottom" ∨
      (textHeightFnc eng ctx sty iss width s).1 ≤ (textHeight eng ctx.classes iss width sty s).1 ∧
      (textHeight eng ctx.classes iss width sty s).1 + sty.box.padding.top + sty.box.padding.bottom ≤ pa.y1 - pa.y0)
    (hwidth : width = pa.x1 - pa.x0 - sty.box.padding.left - sty.box.padding.right) (hwd : 0 ≤ width)
    (hp : Low mt fh ctx.classes (eng.currentPage s.eng) sty iss width) (h0 : 0 ≤ sty.dim.lineSpacing)
    (htall : (textHeightFnc eng ctx sty iss width s).1 + sty.box.padding.top + sty.box.padding.bottom ≤ pa.y1 - pa.y0)
    (hx : 0 ≤ pa.x0 + sty.box.padding.left) (hy : 0 ≤ pa.y0 + sty.box.padding.top) (hr : pa.x1 - sty.box.padding.right ≤ right)
    (hb : pa.y1 - sty.box.padding.bottom ≤ bottom) :
    ∃ s3 new, placed s3.eng = placed s.eng ++ new ∧
      (∀ t ∈ new, TextIn mt fh (pa.x0 + sty.box.padding.left) (pa.y0 + sty.box.padding.top) (pa.x1 - sty.box.padding.right)
        (pa.y1 - sty.box.padding.bottom) t) ∧
      (do upd (eng.setX (pa.x0 + sty.box.padding.left)); renderCellItems eng ctx c sty.align.v (pa.withPadding sty.box.padding) iss : M E Unit) s3 =
        some ((), s') := by
  obtain ⟨s0, s1, h1, start, s2, s3, g0, g1, g2, g3, _, g4, g5⟩ := C55_start hpos hi hx h
  rw [show pa.width - sty.box.padding.left - sty.box.padding.right = width from hwidth.symm] at g1 g4
  simp only [drawBoxM, upd, Option.some.injEq, Prod.mk.injEq, true_and] at g0
  obtain ⟨d2, d3⟩ := draws_kept hf (drawBox pa.x0 pa.y0 pa.x1 pa.y1 sty) s.eng
  have e0 : placed s0.eng = placed s.eng ∧ eng.currentPage s0.eng = eng.currentPage s.eng := by
    rw [← g0]; exact ⟨d2, d3⟩
  obtain ⟨k1, ⟨f, k2⟩, k3⟩ := textHeight_kept (ctx := ctx) (iss := iss) (width := width) (sty := sty) hm hw s0
  rw [g1] at k1 k2 k3
  simp only at k1 k2 k3
  have hplain : (textHeight eng ctx.classes iss width sty s).1 = h1 := by
    have : (textHeight eng ctx.classes iss width sty s0).1 = h1 := by rw [g1]
    rw [← this, textHeight_last hm, textHeight_last hm, textLines_eq hm.measures, textLines_eq hm.measures, e0.2]
  have hstart := cell_start (H := (textHeightFnc eng ctx sty iss width s).1) g2 (fun hb => (hv hb).imp_right fun h => by
    rw [hplain] at h; exact ⟨h.1, by linarith [h.2]⟩) (fun hnb => by
    have := textHeightFnc_page (ctx := ctx) (iss := iss) (width := width) (sty := sty) hm e0.2
    rw [show textHeightFnc eng ctx sty iss width s0 = textHeight eng ctx.classes iss width sty s0 from if_neg hnb, g1] at this
    exact this) (by linarith)
  have hs0 : 0 ≤ start := le_trans hy hstart.1
  have hl2 : (look s2.eng).x = pa.x0 + sty.box.padding.left ∧ (look s2.eng).y = start := by
    obtain ⟨x, e⟩ := hf.setY start s1.eng hs0
    rw [g3]
    simp only [(hw.setX _ _ hx).1, e, and_self]
  have hp2 : placed s2.eng = placed s.eng := by
    rw [g3]; simp only [(hw.setX _ _ hx).2, (hf.kept _ _).1, k1, e0.1]
  have hc2 : eng.currentPage s2.eng = eng.currentPage s.eng := by
    rw [g3]; simp only [hf.setX, (hf.kept _ _).2, k3, e0.2]
  have hh2 := textHeightFnc_page (ctx := ctx) (iss := iss) (width := width) (sty := sty) hm hc2
  have hx1 : pa.x0 + sty.box.padding.left + width = pa.x1 - sty.box.padding.right := by rw [hwidth]; ring
  obtain ⟨s5, new, r1, r2, r3, -⟩ := text_within (s := s2) hm hw (by rw [hc2]; exact hp.fits) (by rw [hc2]; exact low_under hp h0) hh (by rw [hl2.1]; exact hx) hwd
    (by rw [hl2.1, hx1]; exact hr) (by rw [hl2.2, hh2]; linarith)
  rw [g4, Option.some.injEq, Prod.mk.injEq] at r1
  refine ⟨s3, new, by rw [r1.2, r2, hp2], ?_, g5⟩
  intro t ht
  have := r3 t ht
  rw [hl2.1, hl2.2, hh2, hx1] at this
  exact ⟨this.1, this.2.1, by linarith [this.2.2.1], by linarith [this.2.2.2]⟩

/-- C79: in a cell with alignment middle or bottom the text starts above the padding edge exactly if the cell is not tall enough for the text as it
would be without hyphenation. -/
theorem C79_above (hpos : Positions eng) {pa : Area} (h : renderCell eng ctx c pa sty iss s = some ((), s')) (hi : iss ≠ [])
    (hx : 0 ≤ pa.x0 + sty.box.padding.left) (hv : sty.align.v = b!"middle" ∨ sty.align.v = b!"bottom") :
    ∃ s0 s1 h1 start s2 s3,
      drawBoxM eng pa.x0 pa.y0 pa.x1 pa.y1 sty s = some ((), s0) ∧
      textHeight eng ctx.classes iss (pa.width - sty.box.padding.left - sty.box.padding.right) sty s0 = (h1, s1) ∧
      s2 = { s1 with eng := eng.setX (pa.x0 + sty.box.padding.left) (eng.setY start s1.eng) } ∧
      writeTextFnc eng ctx c iss (pa.width - sty.box.padding.left - sty.box.padding.right) sty s2 = some ((), s3) ∧
      (start < pa.y0 + sty.box.padding.top ↔ pa.y1 - pa.y0 < h1 + sty.box.padding.top + sty.box.padding.bottom) := by
  obtain ⟨s0, s1, h1, start, s2, s3, g0, g1, g2, g3, _, g4, _⟩ := C55_start hpos hi hx h
  refine ⟨s0, s1, h1, start, s2, s3, g0, g1, g3, g4, ?_⟩
  unfold Aligned at g2
  rcases hv with hv | hv <;> rw [hv] at g2
  · rw [if_pos rfl] at g2
    constructor <;> intro k <;> linarith
  · rw [if_neg (by decide), if_pos rfl] at g2
    constructor <;> intro k <;> linarith

theorem linesLoopHyph_page (hm : Measures eng mt) {hyph : Str → List Str} {cs : Classes} : ∀ (iss : List Instr) acc (s : PState E),
    eng.currentPage (linesLoopHyph eng hyph cs width sty iss acc s).2.eng = eng.currentPage s.eng := by
  intro iss
  induction iss with
  | nil => intro acc s; rfl
  | cons i iss ih =>
    intro acc s
    cases i with
    | textBlock t => exact (ih _ _).trans (hm.page _ _)
    | paragraph st t => exact (ih _ _).trans (hm.page _ _)
    | _ => exact ih _ _

/-- C79: the cells of a table are tall enough for their texts, as C79_cell_partial requires: if no height is set for a cell,
the text and the padding are not taller than the cell, on the page on which the table starts. -/
theorem C79_tall (hm : Metrics eng ctx.hyphenate mt fh) {page : Page} {curr : Styles} {st : Styled} {xrows : List TableRow} {t : Tab}
    (h : transformTable (textHeightFnc eng ctx) ctx.classes page curr st xrows s = some (t, s')) {i a : Nat} (ha : a ∈ idsOf t i)
    (hau : isAuthored t a = true) (hsty : sty = (t.cell a).styles) (hauto : sty.dim.height ≤ 0)
    {s2 : PState E} (hpage : eng.currentPage s2.eng = eng.currentPage s.eng) :
    (textHeightFnc eng ctx sty (t.cell a).iss ((t.dim a).1 - sty.box.padding.left - sty.box.padding.right) s2).1
      + sty.box.padding.top + sty.box.padding.bottom ≤ (t.dim a).2 := by
  subst hsty
  have := C27_holds h ha hau (I := fun s0 => eng.currentPage s0.eng = eng.currentPage s.eng) (by
    intro sty iss w s0 h0
    unfold textHeightFnc
    split
    · exact (linesLoopHyph_page hm.measures iss _ _).trans ((hm.measures.page _ _).trans h0)
    · exact (linesLoop_page hm.measures iss _ _).trans ((hm.measures.page _ _).trans h0)) rfl
  rw [if_neg (not_lt.mpr hauto)] at this
  obtain ⟨s0, h0, h1⟩ := this
  rw [textHeightFnc_page hm (h0.trans hpage.symm)] at h1
  rw [show (t.dim a).1 - (t.cell a).styles.box.padding.left - (t.cell a).styles.box.padding.right =
    (t.dim a).1 - ((t.cell a).styles.box.padding.left + (t.cell a).styles.box.padding.right) from by ring]
  exact h1

/-! ### The engine of the program meets the assumptions -/

theorem frames_fpdf (p : Paper) : Frames (Fpdf.engine p) lookOf textsOf where
  draw d e := by cases d <;> simp [Fpdf.engine, Fpdf.draw, textsOf]
  setY y e hy := ⟨((Fpdf.engine p).setY y e).x, by simp [Fpdf.engine, Fpdf.setY, Fpdf.setX, lookOf, hy]⟩
  kept y e := ⟨rfl, rfl⟩
  setX x e := rfl

/-! ### Examples: the paper with letters 2 wide; `syllable` is `syl-la-ble` -/

theorem trimRight_length (f : UInt8 → Bool) : ∀ w : Str, (trimRight f w).length ≤ w.length
  | [] => Nat.le_refl _
  | c :: cs => by
    have ih := trimRight_length f cs
    rw [trimRight]
    split
    · split <;> simp
    · simp only [List.length_cons]; omega

theorem trimSpace_length (w : Str) : (trimSpace w).length ≤ w.length :=
  le_trans (trimRight_length _ _) (List.Sublist.length_le (List.dropWhile_sublist _))

theorem metrics_example : Metrics (Fpdf.engine exPaper) exHyph exPaper.metric (fun f => f.pointSize * (127 / 360)) where
  measures := measures_fpdf exPaper
  colored _ _ := rfl
  height _ _ := rfl
  nonneg _ t := by show (0 : ℚ) ≤ 2 * (t.length : ℚ); positivity
  space _ w := by
    show (2 * ((trimSpace w).length : ℚ)) + 1 / 10 ≤ 2 * ((32 :: w).length : ℚ)
    have : ((trimSpace w).length : ℚ) ≤ w.length := by exact_mod_cast trimSpace_length w
    rw [List.length_cons]; push_cast; linarith
  trimmed _ w := by
    show 2 * ((trimSpace w).length : ℚ) ≤ 2 * (w.length : ℚ)
    have : ((trimSpace w).length : ℚ) ≤ w.length := by exact_mod_cast trimSpace_length w
    linarith
  lead _ w := by
    show 2 * (w.length : ℚ) ≤ 2 * ((32 :: w).length : ℚ)
    rw [List.length_cons]; push_cast; linarith
  rest _ w k := by
    show 2 * ((((exHyph w).drop k).flatten).length : ℚ) ≤ 2 * (w.length : ℚ)
    have h1 : (((exHyph w).drop k).flatten).length ≤ ((exHyph w).flatten).length := by
      conv_rhs => rw [← List.take_append_drop k (exHyph w), List.flatten_append, List.length_append]
      omega
    have h2 : (exHyph w).flatten = w := by
      unfold exHyph; split
      · rename_i h; rw [h]; decide
      · simp
    rw [h2] at h1
    have : ((((exHyph w).drop k).flatten).length : ℚ) ≤ w.length := by exact_mod_cast h1
    linarith

private def exCtx : Ctx :=
  { classes := [], header := [], footer := [], body := [], hyphenate := exHyph, resolve := id, describe := fun _ => none }

private def exCalls : Calls Fpdf := callsAt (Fpdf.engine exPaper) exCtx 1

private def exStart : PState Fpdf := newProcessor (Fpdf.new exPaper)

/-- Line width 0, padding 2, width 24, aligned as given. -/
private def exFrame (h v : Str) : Styled := ⟨[[([6, 0], .flt 0), ([1, 1], .quad ⟨2, 2, 2, 2⟩), ([2, 0], .flt 24), ([4, 0], .str h), ([4, 1], .str v)]], []⟩

/-- A rectangle or a text: x, y; width and height or the point size. -/
private inductive Shown
  | rect (x y w h : ℚ)
  | text (x y p : ℚ) (t : Str)
deriving DecidableEq

/-- What is drawn and written. -/
private def shown (r : Option (Unit × PState Fpdf)) : List Shown :=
  match r with
  | none => []
  | some r => r.2.eng.out.filterMap fun
    | .draw _ (.fillRect x y w h) => some (.rect x y w h)
    | .text _ x y f _ t => some (.text x y f.pointSize t)
    | _ => none

private def boxOf (h : Str) (iss : List Instr) : Option (Unit × PState Fpdf) :=
  renderTextBox (Fpdf.engine exPaper) exCtx exCalls (exFrame h b!"top") iss ⟨10, 10, 90, 90⟩ exStart

private def cellOf (h v : Str) (iss : List Instr) : Option (Unit × PState Fpdf) :=
  renderTable (Fpdf.engine exPaper) exCtx exCalls (exFrame h v) 0 [.mk ⟨[], []⟩ [.mk ⟨[], []⟩ 1 1 iss]] exStart

/-- The texts are within the padding edges, from (12, 12) to (32, ...): the heights of the boxes are 4 more than those of three and of two lines. -/
example : shown (boxOf b!"right" [.textBlock b!"a syllable bb"]) =
    [.rect 10 10 24 (314 / 15), .text 28 12 12 b!"a", .text 14 (367 / 20) 12 b!"syllable", .text 26 (247 / 10) 12 b!"bb"] ∧
  shown (boxOf b!"block" [.textBlock b!"a syllable bb"]) =
    [.rect 10 10 24 (175 / 12), .text 12 12 12 b!"a", .text (199 / 10) 12 12 b!"sylla-", .text 12 (367 / 20) 12 b!"ble", .text 18 (367 / 20) 12 b!" bb"] := by
  decide +kernel

/-- The text is plain, as C78 requires. -/
example : Plain exPaper.metric (fun f => f.pointSize * (127 / 360)) [] 0 ((exFrame b!"right" b!"top").mutatedStyles [] defaultStyle) [.textBlock b!"a syllable bb"] 20 where
  font := by simp
  fits := by decide +kernel

/-- So is a text with a bold word. -/
example : Plain exPaper.metric (fun f => f.pointSize * (127 / 360)) [] 0 ((exFrame b!"right" b!"top").mutatedStyles [] defaultStyle)
    [.textBlock b!"a", .paragraph ⟨[[([0, 3], .str b!"bold")]], []⟩ b!"bb"] 20 ∧
    ((⟨[[([0, 3], .str b!"bold")]], []⟩ : Styled).mutatedStyles [] defaultStyle).font ≠ defaultStyle.font := by
  refine ⟨⟨?_, by decide +kernel⟩, by decide +kernel⟩
  intro st t h
  simp only [List.mem_cons, reduceCtorEq, Instr.paragraph.injEq, List.not_mem_nil, or_false, false_or] at h
  rw [h.1]
  decide +kernel

/-- Texts with fonts of one height are low, as C78 and C79 require. -/
theorem Low.of_plain {cs : Classes} {page : Int} (hp : Plain mt fh cs page sty iss width) (h0 : 0 ≤ fh sty.font) : Low mt fh cs page sty iss width where
  font w hw := by
    have hfont : ∀ w ∈ textWords cs page sty iss, fh w.1.font = fh sty.font := fun w hw => blockTokens_font iss hp.font w (by
      unfold textWords at hw
      split at hw
      · exact hw
      · exact tokens_block iss w hw)
    rw [hfont w hw, lastFont_one hfont]
    exact ⟨h0, le_refl _⟩
  fits := hp.fits

/-- So are texts with smaller words, if one of the size of the text comes last. -/
example : Low exPaper.metric (fun f => f.pointSize * (127 / 360)) [] 0 ((exFrame b!"block" b!"top").mutatedStyles [] defaultStyle)
    [.textBlock b!"a", .paragraph ⟨[[([0, 1], .flt 6)]], []⟩ b!"note", .textBlock b!"syllable bb"] 20 where
  font := by decide +kernel
  fits := by decide +kernel

/-- The box is as high as it would be without them, and the text is within. -/
example : shown (boxOf b!"block" [.textBlock b!"a", .paragraph ⟨[[([0, 1], .flt 6)]], []⟩ b!"note", .textBlock b!"syllable bb"]) =
    [.rect 10 10 24 (314 / 15), .text 12 12 12 b!"a", .text (239 / 10) 12 6 b!"note", .text 12 (607 / 40) 12 b!"syllable", .text 12 (861 / 40) 12 b!"bb"] := by
  decide +kernel

/-- C78 is false of the code if the text has words that are higher than the last one: the height is measured in the font of the last word.  This box is 8.2 high, but its
first word is 12.7 high. -/
theorem C78_mixed : shown (boxOf b!"left" [.paragraph ⟨[[([0, 1], .flt 36)]], []⟩ b!"a", .textBlock b!"bb"]) =
    [.rect 10 10 24 (247 / 30), .text 12 12 36 b!"a", .text 14 12 12 b!" bb"] ∧
    ¬ TextIn exPaper.metric (fun f => f.pointSize * (127 / 360)) 12 12 32 (10 + 247 / 30 - 2)
      ⟨12, 12, { defaultStyle.font with pointSize := 36 }, ⟨0, 0, 0⟩, b!"a"⟩ := by
  refine ⟨by decide +kernel, ?_⟩
  rintro ⟨_, _, _, h⟩
  revert h
  decide +kernel

/-- C79: three lines in a cell, aligned at the bottom. -/
example : shown (cellOf b!"left" b!"bottom" [.textBlock b!"a syllable bb"]) =
    [.rect 10 10 24 (314 / 15), .text 12 12 12 b!"a", .text 12 (367 / 20) 12 b!"syllable", .text 12 (247 / 10) 12 b!"bb"] := by
  decide +kernel

/-- Block text at the top of a cell. -/
example : shown (cellOf b!"block" b!"top" [.textBlock b!"a syllable bb"]) =
    [.rect 10 10 24 (175 / 12), .text 12 12 12 b!"a", .text (199 / 10) 12 12 b!"sylla-", .text 12 (367 / 20) 12 b!"ble", .text 18 (367 / 20) 12 b!" bb"] := by
  decide +kernel

/-- C79 is false of the code for other block text: renderCell measures the text without hyphenation.  The cell starts at 10, but the text at 5.65, above
the cell, because three lines are expected and two are written. -/
theorem C79_block : shown (cellOf b!"block" b!"bottom" [.textBlock b!"a syllable bb"]) =
    [.rect 10 10 24 (175 / 12), .text 12 (113 / 20) 12 b!"a", .text (199 / 10) (113 / 20) 12 b!"sylla-", .text 12 12 12 b!"ble", .text 18 12 12 b!" bb"] := by
  decide +kernel

end Verif.Props
