import Verif.Proofs.TextLines
import Verif.Spec.Writing
/-
What is written where: lines of text (C64-C66).
-/
namespace Verif.Proofs
open Verif.Go Verif.Model Verif.Spec

variable {E : Type} {eng : Engine E} {c : Calls E} {mt : Font → Str → ℚ} {fh : Font → ℚ} {right bottom : ℚ} {look : E → Look}
  {placed : E → List TextAt}

/-- The font at the end of a line. -/
def fontAfter (font : Font) (l : SetLine) : Font := (l.getLast?.map (·.2.1)).getD font

theorem fontAfter_cons (font : Font) (i : ℚ × Font × Str) (l : SetLine) : fontAfter font (i :: l) = fontAfter i.2.1 l := by
  unfold fontAfter
  cases l with
  | nil => rfl
  | cons j l => rw [List.getLast?_cons_cons, List.getLast?_eq_some_getLast (l := j :: l) (by simp)]; rfl

/-- A line at height `y`. -/
def atY (y : ℚ) (color : RGB) (l : SetLine) : List TextAt := l.map fun i => ⟨i.1, y, i.2.1, color, i.2.2⟩

theorem writeItems_placed (hw : Writes eng c mt fh right bottom look placed) : ∀ (items : List TextItem) (s : PState E),
    TextsFit mt fh right bottom (atY (look s.eng).y (look s.eng).color (runFrom mt 0 (look s.eng).x (items.map fun i => (i.sty.font, i.text)))) →
    ∃ s' x, writeItems eng c items s = some ((), s') ∧
      placed s'.eng = placed s.eng ++ atY (look s.eng).y (look s.eng).color (runFrom mt 0 (look s.eng).x (items.map fun i => (i.sty.font, i.text))) ∧
      look s'.eng = { look s.eng with
        x := x, font := fontAfter (look s.eng).font (runFrom mt 0 (look s.eng).x (items.map fun i => (i.sty.font, i.text))) } := by
  intro items
  induction items with
  | nil => intro s _; exact ⟨s, (look s.eng).x, rfl, by simp [runFrom, atY], rfl⟩
  | cons i items ih =>
    intro s hf
    have h0 := hf ⟨(look s.eng).x, (look s.eng).y, i.sty.font, (look s.eng).color, i.text⟩ (by simp [atY, runFrom])
    obtain ⟨l1, p1⟩ := hw.font i.sty.font s.eng
    have l1' : look (changeFont eng i.sty.font s).eng = { look s.eng with font := i.sty.font } := l1
    have p1' : placed (changeFont eng i.sty.font s).eng = placed s.eng := p1
    obtain ⟨s1, w1, w2, w3⟩ := hw.write i.text (changeFont eng i.sty.font s) (by rw [l1']; exact h0.1) (by rw [l1']; exact h0.2.1)
      (by rw [l1']; exact h0.2.2)
    rw [l1'] at w2 w3
    simp only at w2 w3
    obtain ⟨s', x, e1, e2, e3⟩ := ih s1 (by
      intro q hq
      refine hf q ?_
      rw [w2] at hq
      simp only [List.map_cons, runFrom, atY, List.mem_cons, add_zero] at hq ⊢
      exact Or.inr hq)
    refine ⟨s', x, ?_, ?_, ?_⟩
    · simp only [writeItems, bind_eq, changeFontM, Option.bind_some, w1, e1]
    · rw [e2, w3, w2, p1']; simp [runFrom, atY]
    · rw [e3, w2]; simp only [List.map_cons, runFrom, fontAfter_cons, add_zero]

theorem writeSpaced_placed (hw : Writes eng c mt fh right bottom look placed) {gap : ℚ} (hg : 0 ≤ gap) (hnn : ∀ f t, 0 ≤ mt f t) :
    ∀ (items : List TextItem) (s : PState E),
    TextsFit mt fh right bottom (atY (look s.eng).y (look s.eng).color
      (runFrom mt gap (look s.eng).x (items.map fun i => (i.sty.font, trimSpace i.text)))) →
    ∃ s' x, writeSpaced eng c gap items s = some ((), s') ∧
      placed s'.eng = placed s.eng ++ atY (look s.eng).y (look s.eng).color
        (runFrom mt gap (look s.eng).x (items.map fun i => (i.sty.font, trimSpace i.text))) ∧
      look s'.eng = { look s.eng with
        x := x, font := fontAfter (look s.eng).font (runFrom mt gap (look s.eng).x (items.map fun i => (i.sty.font, trimSpace i.text))) } := by
  intro items
  induction items with
  | nil => intro s _; exact ⟨s, (look s.eng).x, rfl, by simp [runFrom, atY], rfl⟩
  | cons i items ih =>
    intro s hf
    have h0 := hf ⟨(look s.eng).x, (look s.eng).y, i.sty.font, (look s.eng).color, trimSpace i.text⟩ (by simp [atY, runFrom])
    obtain ⟨l1, p1⟩ := hw.font i.sty.font s.eng
    have l1' : look (changeFont eng i.sty.font s).eng = { look s.eng with font := i.sty.font } := l1
    have p1' : placed (changeFont eng i.sty.font s).eng = placed s.eng := p1
    obtain ⟨s1, w1, w2, w3⟩ := hw.write (trimSpace i.text) (changeFont eng i.sty.font s) (by rw [l1']; exact h0.1)
      (by rw [l1']; exact h0.2.1) (by rw [l1']; exact h0.2.2)
    rw [l1'] at w2 w3
    simp only at w2 w3
    have hx : (eng.getXY s1.eng).1 = (look s.eng).x + mt i.sty.font (trimSpace i.text) := by rw [hw.xy, w2]
    obtain ⟨x1, x2⟩ := hw.setX ((eng.getXY s1.eng).1 + gap) s1.eng (by
      rw [hx]; have := hnn i.sty.font (trimSpace i.text); have := h0.1; simp only at this; linarith)
    rw [w2, hx] at x1
    simp only at x1
    obtain ⟨s', x, e1, e2, e3⟩ := ih { s1 with eng := eng.setX ((eng.getXY s1.eng).1 + gap) s1.eng } (by
      intro q hq
      refine hf q ?_
      rw [hx, x1] at hq
      simp only [List.map_cons, runFrom, atY, List.mem_cons] at hq ⊢
      exact Or.inr hq)
    refine ⟨s', x, ?_, ?_, ?_⟩
    · simp only [writeSpaced, bind_eq, changeFontM, Option.bind_some, w1, ask, upd, e1]
    · rw [e2, x2, w3, hx, x1, p1']; simp [runFrom, atY]
    · rw [e3, hx, x1]; simp only [List.map_cons, runFrom, fontAfter_cons]

/-- The fonts and heights after some lines. -/
theorem stack_cons (spacing : ℚ) (color : RGB) (y : ℚ) (font : Font) (l : SetLine) (ls : List SetLine) :
    stack fh spacing color y font (l :: ls) =
      atY y color l ++ stack fh spacing color (y + spacing * fh (fontAfter font l)) (fontAfter font l) ls := rfl

theorem fits_append {a b : List TextAt} (h : TextsFit mt fh right bottom (a ++ b)) : TextsFit mt fh right bottom a ∧ TextsFit mt fh right bottom b :=
  ⟨fun p hp => h p (List.mem_append_left _ hp), fun p hp => h p (List.mem_append_right _ hp)⟩

theorem alignLine_eq {h : Str} (hh : h = b!"left" ∨ h = b!"center" ∨ h = b!"right") (xLeft width : ℚ) (line : TextLine) :
    alignLine eng h xLeft width line = upd (eng.setX (xLeft + indent h (width - line.width))) := by
  rcases hh with rfl | rfl | rfl
  · simp [alignLine, indent]
  · simp [alignLine, indent]
  · simp [alignLine, indent, add_sub_assoc]

theorem writeLines_placed (hw : Writes eng c mt fh right bottom look placed) {sty : Styles}
    (hh : sty.align.h = b!"left" ∨ sty.align.h = b!"center" ∨ sty.align.h = b!"right") {x0 width : ℚ} (hx0 : 0 ≤ x0) (hwd : 0 ≤ width) :
    ∀ (ls : List (List Word)) (s : PState E) (tl : List SetLine),
    tl = (ls.map fun l => runFrom mt 0 (x0 + indent sty.align.h (width - spacedSum mt l)) (lineTexts l)) →
    TextsFit mt fh right bottom (stack fh sty.dim.lineSpacing (look s.eng).color (look s.eng).y (look s.eng).font tl) →
    ∃ s', writeLines eng c sty x0 width (ls.map (lineOf mt)) s = some ((), s') ∧
      placed s'.eng = placed s.eng ++ stack fh sty.dim.lineSpacing (look s.eng).color (look s.eng).y (look s.eng).font tl ∧
      ∃ x, look s'.eng = ⟨x, (below fh sty.dim.lineSpacing (look s.eng).y (look s.eng).font tl).1,
        (below fh sty.dim.lineSpacing (look s.eng).y (look s.eng).font tl).2, (look s.eng).color⟩ := by
  intro ls
  induction ls with
  | nil => rintro s tl rfl _; exact ⟨s, rfl, by simp [stack], (look s.eng).x, rfl⟩
  | cons l ls ih =>
    rintro s tl rfl hf
    rw [List.map_cons, stack_cons] at hf
    obtain ⟨hf1, hf2⟩ := fits_append hf
    have hstart : 0 ≤ x0 + indent sty.align.h (width - spacedSum mt l) := by
      cases l with
      | nil =>
        have : spacedSum mt [] = 0 := rfl
        rw [this, sub_zero]
        unfold indent
        split
        · linarith
        · split <;> linarith
      | cons w ws =>
        exact (hf1 ⟨x0 + indent sty.align.h (width - spacedSum mt (w :: ws)), (look s.eng).y, w.1.font, (look s.eng).color, w.2⟩ (by
          simp [atY, runFrom, lineTexts, setWords])).1
    obtain ⟨x1, x2⟩ := hw.setX _ s.eng hstart
    obtain ⟨s1, x, e1, e2, e3⟩ := writeItems_placed hw (lineOf mt l).items
      { s with eng := eng.setX (x0 + indent sty.align.h (width - spacedSum mt l)) s.eng } (by
        simp only [x1]; exact hf1)
    simp only [x1, x2] at e2 e3
    obtain ⟨⟨x', f1⟩, f2⟩ := hw.feed sty.dim.lineSpacing s1.eng
    rw [e3] at f1
    simp only at f1
    obtain ⟨s', r1, r2, x'', r3⟩ := ih { s1 with eng := eng.lineFeed sty.dim.lineSpacing s1.eng } _ rfl (by
      simp only [f1]; exact hf2)
    simp only [f1, f2] at r2 r3
    refine ⟨s', ?_, ?_, x'', r3⟩
    · simp only [List.map_cons, writeLines, bind_eq, alignLine_eq hh, upd, Option.bind_some]
      rw [show (lineOf mt l).width = spacedSum mt l from rfl, e1]
      exact r1
    · rw [r2, e2, List.map_cons, stack_cons, List.append_assoc]
      rfl

theorem writeHyphLines_placed (hw : Writes eng c mt fh right bottom look placed) (hnn : ∀ f t, 0 ≤ mt f t) {sty : Styles}
    {x0 width : ℚ} (hx0 : 0 ≤ x0) : ∀ (lines : List TextLine) (s : PState E),
    (∀ l ∈ lines, l.pureTextWidth = pureWidth mt l.items ∧ (2 ≤ l.items.length → l.pureTextWidth ≤ width - 1 / 10)) →
    TextsFit mt fh right bottom (stack fh sty.dim.lineSpacing (look s.eng).color (look s.eng).y (look s.eng).font
      (lines.map fun l => blockLine mt x0 width l.items l.paragraph)) →
    ∃ s', writeHyphLines eng c sty x0 width lines s = some ((), s') ∧
      placed s'.eng = placed s.eng ++ stack fh sty.dim.lineSpacing (look s.eng).color (look s.eng).y (look s.eng).font
        (lines.map fun l => blockLine mt x0 width l.items l.paragraph) ∧
      ∃ x, look s'.eng = ⟨x, (below fh sty.dim.lineSpacing (look s.eng).y (look s.eng).font
        (lines.map fun l => blockLine mt x0 width l.items l.paragraph)).1, (below fh sty.dim.lineSpacing (look s.eng).y (look s.eng).font
        (lines.map fun l => blockLine mt x0 width l.items l.paragraph)).2, (look s.eng).color⟩ := by
  intro lines
  induction lines with
  | nil => intro s _ _; exact ⟨s, rfl, by simp [stack], (look s.eng).x, rfl⟩
  | cons l ls ih =>
    intro s hroom hf
    rw [List.map_cons, stack_cons] at hf
    obtain ⟨hf1, hf2⟩ := fits_append hf
    obtain ⟨x1, x2⟩ := hw.setX x0 s.eng hx0
    have hline : ∃ s1 x, writeHyphLine eng c width l { s with eng := eng.setX x0 s.eng } = some ((), s1) ∧
        placed s1.eng = placed s.eng ++ atY (look s.eng).y (look s.eng).color (blockLine mt x0 width l.items l.paragraph) ∧
        look s1.eng = { look s.eng with x := x, font := fontAfter (look s.eng).font (blockLine mt x0 width l.items l.paragraph) } := by
      unfold writeHyphLine blockLine at *
      by_cases hp : l.items.length ≤ 1 ∨ l.paragraph = true
      · simp only [if_pos hp] at hf1 ⊢
        rw [if_pos (by rcases hp with h | h; · exact Or.inl (by omega)
                       · exact Or.inr h)]
        obtain ⟨s1, x, e1, e2, e3⟩ := writeItems_placed hw l.items { s with eng := eng.setX x0 s.eng } (by simp only [x1]; exact hf1)
        simp only [x1, x2] at e2 e3
        exact ⟨s1, x, e1, e2, e3⟩
      · simp only [if_neg hp] at hf1 ⊢
        rw [not_or] at hp
        have h2 : 2 ≤ l.items.length := by omega
        have hcast : (((l.items.length : Int) - 1 : Int) : ℚ) = (l.items.length - 1 : ℚ) := by push_cast; ring
        rw [if_neg (by rintro (h | h); · omega
                       · exact hp.2 h), hcast, (hroom l (by simp)).1]
        have hpos : (0 : ℚ) < l.items.length - 1 := by rw [← hcast]; exact Int.cast_pos.mpr (by omega)
        have hgap : 0 ≤ (width - 1 / 10 - pureWidth mt l.items) / (l.items.length - 1 : ℚ) :=
          div_nonneg (by have := (hroom l (by simp)).2 h2; rw [(hroom l (by simp)).1] at this; linarith) (le_of_lt hpos)
        obtain ⟨s1, x, e1, e2, e3⟩ := writeSpaced_placed hw hgap hnn l.items { s with eng := eng.setX x0 s.eng } (by simp only [x1]; exact hf1)
        simp only [x1, x2] at e2 e3
        exact ⟨s1, x, e1, e2, e3⟩
    obtain ⟨s1, x, e1, e2, e3⟩ := hline
    obtain ⟨⟨x', f1⟩, f2⟩ := hw.feed sty.dim.lineSpacing s1.eng
    rw [e3] at f1
    simp only at f1
    obtain ⟨s', r1, r2, x'', r3⟩ := ih { s1 with eng := eng.lineFeed sty.dim.lineSpacing s1.eng } (fun l hl => hroom l (by simp [hl])) (by
      simp only [f1]; exact hf2)
    simp only [f1, f2] at r2 r3
    refine ⟨s', ?_, ?_, x'', r3⟩
    · simp only [writeHyphLines, bind_eq, upd, Option.bind_some, e1]
      exact r1
    · rw [r2, e2, List.map_cons, stack_cons, List.append_assoc]

/-- The font after setting the fonts of words. -/
def fontOver (font : Font) (ws : List Word) : Font := (ws.getLast?.map (·.1.font)).getD font

theorem fontOver_nil (font : Font) : fontOver font [] = font := rfl

theorem fontOver_append (font : Font) (a b : List Word) : fontOver font (a ++ b) = fontOver (fontOver font a) b := by
  unfold fontOver
  rw [List.getLast?_append]
  cases b.getLast? <;> rfl

theorem fontOver_same (font : Font) (sty : Styles) {ws : List Str} (h : ws ≠ []) : fontOver font (ws.map fun w => (sty, w)) = sty.font := by
  unfold fontOver
  rw [List.getLast?_map, List.getLast?_eq_some_getLast h]
  rfl

theorem filterMap_somes (sty : Styles) (ws : List Str) (ts : List (Option Word)) :
    ((ws.map fun w => some (sty, w)) ++ ts).filterMap id = (ws.map fun w => (sty, w)) ++ ts.filterMap id := by
  rw [List.filterMap_append]
  congr 1
  rw [List.filterMap_map]
  induction ws with
  | nil => rfl
  | cons w ws ih => simpa using ih

theorem linesLoop_look (hm : Measures eng mt) (hw : Writes eng c mt fh right bottom look placed) {cs : Classes} {width : ℚ} {sty : Styles} :
    ∀ (iss : List Instr) (acc : List TextLine × TextLine) (s : PState E),
    look (linesLoop eng cs width sty iss acc s).2.eng =
        { look s.eng with font := fontOver (look s.eng).font ((tokens cs (eng.currentPage s.eng) sty iss).filterMap id) } ∧
      placed (linesLoop eng cs width sty iss acc s).2.eng = placed s.eng := by
  intro iss
  induction iss with
  | nil => intro acc s; exact ⟨rfl, rfl⟩
  | cons is iss ih =>
    intro acc s
    have text : ∀ (isty : Styles) (t : Str),
        tokens cs (eng.currentPage s.eng) sty (is :: iss) =
          (wordsOf (eng.currentPage s.eng) t).map (fun w => some (isty, w)) ++ tokens cs (eng.currentPage s.eng) sty iss →
        (∃ acc', linesLoop eng cs width sty (is :: iss) acc s =
          (if norm eng s.eng t = [] then linesLoop eng cs width sty iss acc s
           else linesLoop eng cs width sty iss acc' (changeFont eng isty.font s))) →
        look (linesLoop eng cs width sty (is :: iss) acc s).2.eng =
          { look s.eng with font := fontOver (look s.eng).font ((tokens cs (eng.currentPage s.eng) sty (is :: iss)).filterMap id) } ∧
        placed (linesLoop eng cs width sty (is :: iss) acc s).2.eng = placed s.eng := by
      rintro isty t htok ⟨acc', hloop⟩
      have hn : wordsOf (eng.currentPage s.eng) t = (split 32 (norm eng s.eng t)).filter (· ≠ []) := by
        rw [wordsOf, piecesOf, ← Verif.Props.C02_exact]; rfl
      rw [hloop, htok, filterMap_somes, fontOver_append]
      by_cases h0 : norm eng s.eng t = []
      · rw [if_pos h0, hn, h0]
        exact ih acc s
      · rw [if_neg h0]
        have h1 := split_norm (s := tr eng s.eng t) h0
        have h2 : wordsOf (eng.currentPage s.eng) t ≠ [] := by
          rw [hn]
          exact fun h => split_ne_nil 32 (norm eng s.eng t) (h1.symm.trans h)
        rw [fontOver_same _ _ h2]
        have hpg : eng.currentPage s.eng = eng.currentPage (changeFont eng isty.font s).eng := (hm.page _ _).symm
        have hl : look (changeFont eng isty.font s).eng = { look s.eng with font := isty.font } := (hw.font _ _).1
        have := ih acc' (changeFont eng isty.font s)
        rw [← hpg, hl] at this
        exact ⟨this.1, this.2.trans (hw.font _ _).2⟩
    cases is with
    | textBlock t => exact text sty t rfl ⟨_, rfl⟩
    | paragraph st t => exact text (st.mutatedStyles cs sty) t rfl ⟨_, rfl⟩
    | lineBreak => exact ih _ s
    | _ => exact ih acc s

theorem linesLoopHyph_look (hm : Measures eng mt) (hw : Writes eng c mt fh right bottom look placed) {hyph : Str → List Str} {cs : Classes}
    {width : ℚ} {sty : Styles} : ∀ (iss : List Instr) (acc : List TextLine × TextLine) (s : PState E),
    look (linesLoopHyph eng hyph cs width sty iss acc s).2.eng =
        { look s.eng with font := fontOver (look s.eng).font ((blockTokens cs (eng.currentPage s.eng) sty iss).filterMap id) } ∧
      placed (linesLoopHyph eng hyph cs width sty iss acc s).2.eng = placed s.eng := by
  intro iss
  induction iss with
  | nil => intro acc s; exact ⟨rfl, rfl⟩
  | cons is iss ih =>
    intro acc s
    have text : ∀ (isty : Styles) (t : Str),
        blockTokens cs (eng.currentPage s.eng) sty (is :: iss) =
          (piecesOf (eng.currentPage s.eng) t).map (fun w => some (isty, w)) ++ blockTokens cs (eng.currentPage s.eng) sty iss →
        (∃ acc', linesLoopHyph eng hyph cs width sty (is :: iss) acc s = linesLoopHyph eng hyph cs width sty iss acc' (changeFont eng isty.font s)) →
        look (linesLoopHyph eng hyph cs width sty (is :: iss) acc s).2.eng =
          { look s.eng with font := fontOver (look s.eng).font ((blockTokens cs (eng.currentPage s.eng) sty (is :: iss)).filterMap id) } ∧
        placed (linesLoopHyph eng hyph cs width sty (is :: iss) acc s).2.eng = placed s.eng := by
      rintro isty t htok ⟨acc', hloop⟩
      rw [hloop, htok, filterMap_somes, fontOver_append, fontOver_same _ _ (ws := piecesOf (eng.currentPage s.eng) t) (split_ne_nil _ _)]
      have hpg : eng.currentPage s.eng = eng.currentPage (changeFont eng isty.font s).eng := (hm.page _ _).symm
      have hl : look (changeFont eng isty.font s).eng = { look s.eng with font := isty.font } := (hw.font _ _).1
      have := ih acc' (changeFont eng isty.font s)
      rw [← hpg, hl] at this
      exact ⟨this.1, this.2.trans (hw.font _ _).2⟩
    cases is with
    | textBlock t => exact text sty t rfl ⟨_, rfl⟩
    | paragraph st t => exact text (st.mutatedStyles cs sty) t rfl ⟨_, rfl⟩
    | lineBreak => exact ih _ s
    | _ => exact ih acc s

/-- Where a line without gaps ends. -/
theorem endOf_run : ∀ (ts : List (Font × Str)) (x : ℚ), ts ≠ [] → endOf mt (runFrom mt 0 x ts) = some (x + (ts.map fun i => mt i.1 i.2).sum)
  | [], _, h => absurd rfl h
  | [(f, t)], x, _ => by simp [runFrom, endOf]
  | (f, t) :: (g, u) :: ts, x, _ => by
    have := endOf_run ((g, u) :: ts) (x + mt f t + 0) (by simp)
    simp only [runFrom, endOf] at this ⊢
    rw [List.getLast?_cons_cons, this]
    simp [add_assoc]

end Verif.Proofs
