import Verif.Proofs.Alike
import Verif.Spec.Matters
/-
Documents that agree in the style properties that matter are processed the same way.
-/
namespace Verif.Proofs
open Verif.Go Verif.Model Verif.Spec

/-! ### What styles that are the same for an element have in common -/

section
variable {m : StyledKind → Prp → Bool} {e : StyledKind} {s s' : Styles}

theorem same_font (he : ∀ p : Prp, p.ofFont = true → m e p = true) (h : SameBy m e s s') : s'.font = s.font := by
  have h1 := h _ (he .fontFamily rfl)
  have h2 := h _ (he .fontPointSize rfl)
  have h3 := h _ (he .fontStyle rfl)
  have h4 := h _ (he .fontWeight rfl)
  have h5 := h _ (he .fontDecoration rfl)
  simp only [Prp.get, Leaf.str.injEq, Leaf.flt.injEq] at h1 h2 h3 h4 h5
  obtain ⟨⟨_, _, _, _, _⟩, _⟩ := s
  obtain ⟨⟨_, _, _, _, _⟩, _⟩ := s'
  simp only at h1 h2 h3 h4 h5
  simp only [h1, h2, h3, h4, h5]

theorem same_width (h : SameBy m e s s') (he : m e .width = true) : s'.dim.width = s.dim.width := (Leaf.flt.inj (h _ he)).symm
theorem same_height (h : SameBy m e s s') (he : m e .height = true) : s'.dim.height = s.dim.height := (Leaf.flt.inj (h _ he)).symm
theorem same_lineSpacing (h : SameBy m e s s') (he : m e .lineSpacing = true) : s'.dim.lineSpacing = s.dim.lineSpacing :=
  (Leaf.flt.inj (h _ he)).symm
theorem same_offsetX (h : SameBy m e s s') (he : m e .offsetX = true) : s'.dim.offsetX = s.dim.offsetX := (Leaf.flt.inj (h _ he)).symm
theorem same_offsetY (h : SameBy m e s s') (he : m e .offsetY = true) : s'.dim.offsetY = s.dim.offsetY := (Leaf.flt.inj (h _ he)).symm
theorem same_columnWidth (h : SameBy m e s s') (he : m e .columnWidth = true) : s'.columnWidth = s.columnWidth :=
  (Leaf.flt.inj (h _ he)).symm
theorem same_lineWidth (h : SameBy m e s s') (he : m e .lineWidth = true) : s'.lineWidth = s.lineWidth := (Leaf.flt.inj (h _ he)).symm
theorem same_hAlign (h : SameBy m e s s') (he : m e .hAlign = true) : s'.align.h = s.align.h := (Leaf.str.inj (h _ he)).symm
theorem same_vAlign (h : SameBy m e s s') (he : m e .vAlign = true) : s'.align.v = s.align.v := (Leaf.str.inj (h _ he)).symm
theorem same_textColor (h : SameBy m e s s') (he : m e .textColor = true) : s'.color.text = s.color.text := (Leaf.rgb.inj (h _ he)).symm
theorem same_foreground (h : SameBy m e s s') (he : m e .color = true) : s'.color.foreground = s.color.foreground :=
  (Leaf.rgb.inj (h _ he)).symm
theorem same_background (h : SameBy m e s s') (he : m e .backgroundColor = true) : s'.color.background = s.color.background :=
  (Leaf.rgb.inj (h _ he)).symm
theorem same_padding (h : SameBy m e s s') (he : m e .padding = true) : s'.box.padding = s.box.padding := (Leaf.quad.inj (h _ he)).symm
theorem same_border (h : SameBy m e s s') (he : m e .border = true) : s'.box.border = s.box.border := (Leaf.border.inj (h _ he)).symm

theorem sameBy_refl (m : StyledKind → Prp → Bool) (e : StyledKind) (s : Styles) : SameBy m e s s := fun _ _ => rfl

theorem sameBy_weaken {e e' : StyledKind} (he : ∀ p, m e' p = true → m e p = true) (h : SameBy m e s s') : SameBy m e' s s' :=
  fun p hp => h p (he p hp)

end

/-- An engine for which the properties of `m` are all that can be seen: those that say where things are, and colors and borders as far as the
engine shows them. -/
structure Sees {E : Type} (eng : Engine E) (m : StyledKind → Prp → Bool) : Prop where
  places : ∀ {e p}, places e p = true → m e p = true
  paragraph : ∀ {p : Prp}, m .paragraph p = true → p.ofFont = true
  row : ∀ {p}, m .row p = true → m .table p = true
  cell : m .cell = m .row
  color : ∀ {e s s'}, e = .text ∨ e = .box ∨ e = .cell → SameBy m e s s' → eng.setTextColor s'.color.text = eng.setTextColor s.color.text
  draw : ∀ {e s s'}, e = .box ∨ e = .cell → SameBy m e s s' → ∀ x0 y0 x1 y1, drawBoxM eng x0 y0 x1 y1 s' = drawBoxM eng x0 y0 x1 y1 s

theorem font_text : ∀ p : Prp, p.ofFont = true → places .text p = true := by intro p; cases p <;> decide
theorem font_box : ∀ p : Prp, p.ofFont = true → places .box p = true := by intro p; cases p <;> decide
theorem font_cell : ∀ p : Prp, p.ofFont = true → places .cell p = true := by intro p; cases p <;> decide
theorem font_font : ∀ p : Prp, p.ofFont = true → places .font p = true := by intro p; cases p <;> decide
theorem font_paragraph : ∀ p : Prp, p.ofFont = true → places .paragraph p = true := by intro p; cases p <;> decide

/-- Every engine sees what matters. -/
theorem sees_matters {E : Type} (eng : Engine E) : Sees eng matters where
  places h := by simp only [places, Bool.and_eq_true] at h; exact h.1
  paragraph h := h
  row := by intro p; cases p <;> decide
  cell := rfl
  color he h := by rcases he with rfl | rfl | rfl <;> rw [same_textColor h rfl]
  draw he h x0 y0 x1 y1 := by
    rcases he with rfl | rfl <;>
      simp only [drawBoxM, drawBox, same_lineWidth h rfl, same_foreground h rfl, same_background h rfl, same_border h rfl]

/-- What the processor sees of styles when it writes text: font, color, line spacing, alignment. -/
structure TextSame {E : Type} (eng : Engine E) (s s' : Styles) : Prop where
  font : s'.font = s.font
  color : eng.setTextColor s'.color.text = eng.setTextColor s.color.text
  lineSpacing : s'.dim.lineSpacing = s.dim.lineSpacing
  hAlign : s'.align.h = s.align.h

section
variable {E : Type} {eng : Engine E} {m : StyledKind → Prp → Bool} {s s' : Styles}
theorem textSame_text (v : Sees eng m) (h : SameBy m .text s s') : TextSame eng s s' :=
  ⟨same_font (fun p hp => v.places (font_text p hp)) h, v.color (by simp) h, same_lineSpacing h (v.places rfl), same_hAlign h (v.places rfl)⟩
theorem textSame_box (v : Sees eng m) (h : SameBy m .box s s') : TextSame eng s s' :=
  ⟨same_font (fun p hp => v.places (font_box p hp)) h, v.color (by simp) h, same_lineSpacing h (v.places rfl), same_hAlign h (v.places rfl)⟩
theorem textSame_cell (v : Sees eng m) (h : SameBy m .cell s s') : TextSame eng s s' :=
  ⟨same_font (fun p hp => v.places (font_cell p hp)) h, v.color (by simp) h, same_lineSpacing h (v.places rfl), same_hAlign h (v.places rfl)⟩
end

/-! ### Lines -/

/-- Styles with nothing but the font. -/
def bareSty (s : Styles) : Styles := { zeroStyles with font := s.font }
def bareItem (i : TextItem) : TextItem := ⟨bareSty i.sty, i.text⟩
def bare (l : TextLine) : TextLine := { l with items := l.items.map bareItem }
def bareAcc (a : List TextLine × TextLine) : List TextLine × TextLine := (a.1.map bare, bare a.2)

theorem bareSty_eq {s s' : Styles} (h : s'.font = s.font) : bareSty s' = bareSty s := by simp only [bareSty, h]

theorem bare_empty : bare TextLine.empty = TextLine.empty := rfl

private theorem wrapWord_pos {tw : Str → ℚ} {width : ℚ} {l : TextLine} {word : Str} (h : l.width + tw (32 :: word) ≥ width)
    (sty : Styles) (ls : List TextLine) : wrapWord tw width sty (ls, l) word =
      (ls ++ [l], { TextLine.empty with items := [⟨sty, word⟩], width := 0 + tw (32 :: word) }) := by
  simp only [wrapWord, if_pos h]; simp [TextLine.empty]

private theorem wrapWord_neg {tw : Str → ℚ} {width : ℚ} {l : TextLine} {word : Str} (h : ¬ l.width + tw (32 :: word) ≥ width)
    (sty : Styles) (ls : List TextLine) : wrapWord tw width sty (ls, l) word =
      (ls, { l with items := l.items ++ [⟨sty, if l.items.length > 0 then 32 :: word else word⟩], width := l.width + tw (32 :: word) }) := by
  simp only [wrapWord, if_neg h]

theorem wrapWord_bare (tw : Str → ℚ) (width : ℚ) (sty : Styles) (acc : List TextLine × TextLine) (word : Str) :
    bareAcc (wrapWord tw width sty acc word) = wrapWord tw width (bareSty sty) (bareAcc acc) word := by
  obtain ⟨ls, l⟩ := acc
  have hb : bareAcc (ls, l) = (ls.map bare, bare l) := rfl
  by_cases h : l.width + tw (32 :: word) ≥ width
  · have h' : (bare l).width + tw (32 :: word) ≥ width := h
    rw [hb, wrapWord_pos h, wrapWord_pos h']
    simp [bareAcc, bareItem, bare, TextLine.empty]
  · have h' : ¬ (bare l).width + tw (32 :: word) ≥ width := h
    rw [hb, wrapWord_neg h, wrapWord_neg h']
    simp [bareAcc, bareItem, bare]

private theorem wrapWordHyph_none {hyph : Str → List Str} {tw : Str → ℚ} {width : ℚ} {l : TextLine} {word : Str}
    (h : l.width + tw (32 :: word) ≥ width) (ht : tryHyphenate hyph tw width word l.width = none)
    (sty : Styles) (ls : List TextLine) : wrapWordHyph hyph tw width sty (ls, l) word =
      (ls ++ [l], { TextLine.empty with items := [⟨sty, word⟩], width := 0 + tw (32 :: word), pureTextWidth := 0 + tw word }) := by
  simp only [wrapWordHyph, if_pos h, ht]; simp [TextLine.empty]

private theorem wrapWordHyph_some {hyph : Str → List Str} {tw : Str → ℚ} {width : ℚ} {l : TextLine} {word s1 s2 : Str}
    (h : l.width + tw (32 :: word) ≥ width) (ht : tryHyphenate hyph tw width word l.width = some (s1, s2))
    (sty : Styles) (ls : List TextLine) : wrapWordHyph hyph tw width sty (ls, l) word =
      (ls ++ [{ l with items := l.items ++ [⟨sty, s1⟩], width := l.width + tw s1, pureTextWidth := l.pureTextWidth + tw (trimSpace s1) }],
        { TextLine.empty with items := [⟨sty, s2⟩], width := 0 + tw s2, pureTextWidth := 0 + tw (trimSpace s2) }) := by
  simp only [wrapWordHyph, if_pos h, ht]; simp [TextLine.empty]

private theorem wrapWordHyph_neg {hyph : Str → List Str} {tw : Str → ℚ} {width : ℚ} {l : TextLine} {word : Str}
    (h : ¬ l.width + tw (32 :: word) ≥ width)
    (sty : Styles) (ls : List TextLine) : wrapWordHyph hyph tw width sty (ls, l) word =
      (ls, { l with
        items := l.items ++ [⟨sty, if l.items.length > 0 then 32 :: word else word⟩],
        width := l.width + tw (32 :: word), pureTextWidth := l.pureTextWidth + tw word }) := by
  simp only [wrapWordHyph, if_neg h]

theorem wrapWordHyph_bare (hyph : Str → List Str) (tw : Str → ℚ) (width : ℚ) (sty : Styles) (acc : List TextLine × TextLine) (word : Str) :
    bareAcc (wrapWordHyph hyph tw width sty acc word) = wrapWordHyph hyph tw width (bareSty sty) (bareAcc acc) word := by
  obtain ⟨ls, l⟩ := acc
  have hb : bareAcc (ls, l) = (ls.map bare, bare l) := rfl
  by_cases h : l.width + tw (32 :: word) ≥ width
  · have h' : (bare l).width + tw (32 :: word) ≥ width := h
    cases ht : tryHyphenate hyph tw width word l.width with
    | none =>
      have ht' : tryHyphenate hyph tw width word (bare l).width = none := ht
      rw [hb, wrapWordHyph_none h ht, wrapWordHyph_none h' ht']
      simp [bareAcc, bareItem, bare, TextLine.empty]
    | some p =>
      have ht' : tryHyphenate hyph tw width word (bare l).width = some (p.1, p.2) := ht
      rw [hb, wrapWordHyph_some h ht, wrapWordHyph_some h' ht']
      simp [bareAcc, bareItem, bare, TextLine.empty]
  · have h' : ¬ (bare l).width + tw (32 :: word) ≥ width := h
    rw [hb, wrapWordHyph_neg h, wrapWordHyph_neg h']
    simp [bareAcc, bareItem, bare]

theorem foldl_bare {f f' : List TextLine × TextLine → Str → List TextLine × TextLine}
    (hf : ∀ a a' w, bareAcc a' = bareAcc a → bareAcc (f' a' w) = bareAcc (f a w)) :
    ∀ (ws : List Str) (a a' : List TextLine × TextLine), bareAcc a' = bareAcc a → bareAcc (ws.foldl f' a') = bareAcc (ws.foldl f a)
  | [], _, _, h => h
  | w :: ws, a, a', h => foldl_bare hf ws _ _ (hf a a' w h)

theorem markLast_bare : ∀ ls : List TextLine, (markLast ls).map bare = markLast (ls.map bare)
  | [] => rfl
  | [_] => rfl
  | l :: m :: ls => by simpa [markLast] using markLast_bare (m :: ls)

section
variable {E : Type} {eng : Engine E} {m : StyledKind → Prp → Bool} (v : Sees eng m) {cs cs' : Classes}

local notation "A" => AlikeAll (AgreeBy m cs cs') Eq

include v

/-- The texts of two instructions are the same, in the same font. -/
theorem textOf_agree {sty sty' : Styles} (hf : sty'.font = sty.font) {i i' : Instr} (h : Alike (AgreeBy m cs cs') Eq i i') :
    OptLike (fun a b => b.1.font = a.1.font ∧ b.2 = a.2) (textOf cs sty i) (textOf cs' sty' i') := by
  cases h with
  | textBlock t => exact ⟨hf, t.symm⟩
  | paragraph hst t =>
    refine ⟨same_font (e := .paragraph) (fun p hp => v.places (font_paragraph p hp)) (hst _ _ fun p hp => ?_).1, t.symm⟩
    have hp := v.paragraph hp
    revert hp
    cases p <;> simp [Prp.ofFont, Prp.get, hf]
  | _ => trivial

theorem linesLoop_agree (width : ℚ) {sty sty' : Styles} (hf : sty'.font = sty.font) : ∀ {iss iss' : List Instr}, A iss iss' →
    ∀ (acc acc' : List TextLine × TextLine) (s : PState E), bareAcc acc' = bareAcc acc →
    bareAcc (linesLoop eng cs' width sty' iss' acc' s).1 = bareAcc (linesLoop eng cs width sty iss acc s).1 ∧
      (linesLoop eng cs' width sty' iss' acc' s).2 = (linesLoop eng cs width sty iss acc s).2
  | _, _, .nil, _, _, _, ha => ⟨ha, rfl⟩
  | _, _, .cons (i := i) (i' := i') h hr, acc, acc', s, ha => by
      have ih := linesLoop_agree width hf hr
      by_cases hb : i = .lineBreak
      · rw [(alike_lineBreak h).mpr hb, hb, linesLoop, linesLoop]
        exact ih _ _ _ (by
          simp only [bareAcc, Prod.mk.injEq] at ha
          simp only [bareAcc, List.map_append, ha.1, List.map_cons, ha.2, List.map_nil])
      · rw [linesLoop_step eng width sty hb, linesLoop_step eng width sty' (mt (alike_lineBreak h).mp hb)]
        have ht := textOf_agree v hf h
        revert ht
        cases textOf cs sty i <;> cases textOf cs' sty' i' <;> intro ht
        · exact ih _ _ _ ha
        · exact ht.elim
        · exact ht.elim
        · rename_i a b
          obtain ⟨isty, text⟩ := a
          obtain ⟨isty', text'⟩ := b
          obtain ⟨h1, h2⟩ := ht
          simp only at h1 h2
          simp only [h2, h1]
          split
          · exact ih _ _ _ ha
          · refine ih _ _ _ (foldl_bare (fun a a' w haa => ?_) _ _ _ ha)
            rw [wrapWord_bare, wrapWord_bare, haa, bareSty_eq h1]

theorem linesLoopHyph_agree (hyph : Str → List Str) (width : ℚ) {sty sty' : Styles} (hf : sty'.font = sty.font) :
    ∀ {iss iss' : List Instr}, A iss iss' →
    ∀ (acc acc' : List TextLine × TextLine) (s : PState E), bareAcc acc' = bareAcc acc →
    bareAcc (linesLoopHyph eng hyph cs' width sty' iss' acc' s).1 = bareAcc (linesLoopHyph eng hyph cs width sty iss acc s).1 ∧
      (linesLoopHyph eng hyph cs' width sty' iss' acc' s).2 = (linesLoopHyph eng hyph cs width sty iss acc s).2
  | _, _, .nil, _, _, _, ha => ⟨ha, rfl⟩
  | _, _, .cons (i := i) (i' := i') h hr, acc, acc', s, ha => by
      have ih := linesLoopHyph_agree hyph width hf hr
      by_cases hb : i = .lineBreak
      · rw [(alike_lineBreak h).mpr hb, hb, linesLoopHyph, linesLoopHyph]
        exact ih _ _ _ (by
          simp only [bareAcc, Prod.mk.injEq] at ha
          simp only [bareAcc, List.map_append, markLast_bare, ha.1, List.map_cons, ha.2, List.map_nil])
      · rw [linesLoopHyph_step eng hyph width sty hb, linesLoopHyph_step eng hyph width sty' (mt (alike_lineBreak h).mp hb)]
        have ht := textOf_agree v hf h
        revert ht
        cases textOf cs sty i <;> cases textOf cs' sty' i' <;> intro ht
        · exact ih _ _ _ ha
        · exact ht.elim
        · exact ht.elim
        · rename_i a b
          obtain ⟨isty, text⟩ := a
          obtain ⟨isty', text'⟩ := b
          obtain ⟨h1, h2⟩ := ht
          simp only at h1 h2
          simp only [h2, h1]
          refine ih _ _ _ (foldl_bare (fun a a' w haa => ?_) _ _ _ ha)
          rw [wrapWordHyph_bare, wrapWordHyph_bare, haa, bareSty_eq h1]

omit v in
private theorem items_length {l l' : TextLine} (h : bare l' = bare l) : l'.items.length = l.items.length := by
  have := congrArg (fun l : TextLine => l.items.length) h
  simpa [bare] using this

omit v in
theorem closeLines_bare {a a' : List TextLine × TextLine} (h : bareAcc a' = bareAcc a) : (closeLines a').map bare = (closeLines a).map bare := by
  simp only [bareAcc, Prod.mk.injEq] at h
  simp only [closeLines, items_length h.2]
  split
  · simp [h.1, h.2]
  · exact h.1

omit v in
theorem closeLinesHyph_bare {a a' : List TextLine × TextLine} (h : bareAcc a' = bareAcc a) :
    (closeLinesHyph a').map bare = (closeLinesHyph a).map bare := by
  simp only [bareAcc, Prod.mk.injEq] at h
  simp only [closeLinesHyph, items_length h.2]
  split
  · have : bare { a'.2 with paragraph := true } = bare { a.2 with paragraph := true } :=
      congrArg (fun l : TextLine => { l with paragraph := true }) h.2
    simp [h.1, this]
  · exact h.1

variable {iss iss' : List Instr} {sty sty' : Styles}

theorem textLines_agree (h : A iss iss') (width : ℚ) (hf : sty'.font = sty.font) (s : PState E) :
    (textLines eng cs' iss' width sty' s).1.map bare = (textLines eng cs iss width sty s).1.map bare ∧
      (textLines eng cs' iss' width sty' s).2 = (textLines eng cs iss width sty s).2 := by
  have := linesLoop_agree v width hf h ([], TextLine.empty) ([], TextLine.empty) s rfl
  exact ⟨closeLines_bare this.1, this.2⟩

theorem textLinesHyphenated_agree (hyph : Str → List Str) (h : A iss iss') (width : ℚ) (hf : sty'.font = sty.font) (s : PState E) :
    (textLinesHyphenated eng hyph cs' iss' width sty' s).1.map bare = (textLinesHyphenated eng hyph cs iss width sty s).1.map bare ∧
      (textLinesHyphenated eng hyph cs' iss' width sty' s).2 = (textLinesHyphenated eng hyph cs iss width sty s).2 := by
  have := linesLoopHyph_agree v hyph width hf h ([], TextLine.empty) ([], TextLine.empty) s rfl
  exact ⟨closeLinesHyph_bare this.1, this.2⟩

omit v in
private theorem lines_length {l l' : List TextLine} (h : l'.map bare = l.map bare) : l'.length = l.length := by
  simpa using congrArg List.length h

theorem textHeight_agree (h : A iss iss') (width : ℚ) (hs : TextSame eng sty sty') :
    textHeight eng cs' iss' width sty' = textHeight (E := E) eng cs iss width sty := by
  funext s
  have := textLines_agree v h width hs.font { s with eng := eng.changeFont sty.font s.eng }
  simp only [textHeight, hs.font, hs.lineSpacing, this.2, lines_length this.1]

theorem textHeightHyphenated_agree (hyph : Str → List Str) (h : A iss iss') (width : ℚ) (hs : TextSame eng sty sty') :
    textHeightHyphenated eng hyph cs' iss' width sty' = textHeightHyphenated (E := E) eng hyph cs iss width sty := by
  funext s
  have := textLinesHyphenated_agree v hyph h width hs.font { s with eng := eng.changeFont sty.font s.eng }
  simp only [textHeightHyphenated, hs.font, hs.lineSpacing, this.2, lines_length this.1]

/-! ### Writing -/

variable (c : Calls E)
omit v

theorem writeItems_bare : ∀ is : List TextItem, writeItems eng c (is.map bareItem) = writeItems eng c is
  | [] => rfl
  | i :: is => by simp only [List.map_cons, writeItems, writeItems_bare is, bareItem, bareSty]

theorem writeSpaced_bare (w : ℚ) : ∀ is : List TextItem, writeSpaced eng c w (is.map bareItem) = writeSpaced eng c w is
  | [] => rfl
  | i :: is => by simp only [List.map_cons, writeSpaced, writeSpaced_bare w is, bareItem, bareSty]

theorem writeLines_bare (hs : TextSame eng sty sty') (x width : ℚ) : ∀ ls : List TextLine,
    writeLines eng c sty' x width (ls.map bare) = writeLines eng c sty x width ls
  | [] => rfl
  | l :: ls => by
      simp only [List.map_cons, writeLines, writeLines_bare hs x width ls, hs.hAlign, hs.lineSpacing, alignLine, bare, writeItems_bare]

theorem writeHyphLine_bare (width : ℚ) (l : TextLine) : writeHyphLine eng c width (bare l) = writeHyphLine eng c width l := by
  simp only [writeHyphLine, bare, List.length_map, writeItems_bare, writeSpaced_bare]

theorem writeHyphLines_bare (hs : TextSame eng sty sty') (x width : ℚ) : ∀ ls : List TextLine,
    writeHyphLines eng c sty' x width (ls.map bare) = writeHyphLines eng c sty x width ls
  | [] => rfl
  | l :: ls => by
      simp only [List.map_cons, writeHyphLines, writeHyphLines_bare hs x width ls, hs.lineSpacing, writeHyphLine_bare]

theorem total_bind_congr {α β : Type} {f f' : PState E → α × PState E} {k k' : α → M E β}
    (h : ∀ s, (f' s).2 = (f s).2 ∧ k' (f' s).1 = k (f s).1) : total f' >>= k' = total f >>= k := by
  funext s
  show k' (f' s).1 (f' s).2 = k (f s).1 (f s).2
  rw [(h s).1, (h s).2]

private theorem TextSame.rfl' {s : Styles} : TextSame eng s s := ⟨rfl, rfl, rfl, rfl⟩

theorem writeLines_agree (hs : TextSame eng sty sty') (x width : ℚ) {ls ls' : List TextLine} (h : ls'.map bare = ls.map bare) :
    writeLines eng c sty' x width ls' = writeLines eng c sty x width ls := by
  rw [← writeLines_bare c .rfl' x width ls', h, writeLines_bare c hs]

theorem writeHyphLines_agree (hs : TextSame eng sty sty') (x width : ℚ) {ls ls' : List TextLine} (h : ls'.map bare = ls.map bare) :
    writeHyphLines eng c sty' x width ls' = writeHyphLines eng c sty x width ls := by
  rw [← writeHyphLines_bare c .rfl' x width ls', h, writeHyphLines_bare c hs]

end

/-! ### Elements -/

/-- What a processor is made with, for two documents that agree. -/
structure CtxAgree (m : StyledKind → Prp → Bool) (ctx ctx' : Ctx) : Prop where
  hyphenate : ctx'.hyphenate = ctx.hyphenate
  resolve : ctx'.resolve = ctx.resolve
  describe : ctx'.describe = ctx.describe
  header : AlikeAll (AgreeBy m ctx.classes ctx'.classes) Eq ctx.header ctx'.header
  footer : AlikeAll (AgreeBy m ctx.classes ctx'.classes) Eq ctx.footer ctx'.footer
  body : AlikeAll (AgreeBy m ctx.classes ctx'.classes) Eq ctx.body ctx'.body

section
variable {E : Type} {eng : Engine E} {m : StyledKind → Prp → Bool} (v : Sees eng m) {ctx ctx' : Ctx} (k : CtxAgree m ctx ctx') (c : Calls E)
include v k

local notation "A" => AlikeAll (AgreeBy m ctx.classes ctx'.classes) Eq
local notation "G" => AgreeBy m ctx.classes ctx'.classes

theorem textHeightFnc_agree {iss iss' : List Instr} (h : A iss iss') {sty sty' : Styles} (hs : TextSame eng sty sty') (width : ℚ) :
    textHeightFnc eng ctx' sty' iss' width = textHeightFnc eng ctx sty iss width := by
  funext s
  simp only [textHeightFnc, k.hyphenate, hs.hAlign, textHeightHyphenated_agree v _ h width hs, textHeight_agree v h width hs]

theorem writeTextFnc_agree {iss iss' : List Instr} (h : A iss iss') (width : ℚ) {sty sty' : Styles} (hs : TextSame eng sty sty') :
    writeTextFnc eng ctx' c iss' width sty' = writeTextFnc eng ctx c iss width sty := by
  have h1 : writeText eng ctx' c iss' width sty' = writeText eng ctx c iss width sty := by
    simp only [writeText, hs.font, hs.color]
    congr 1; funext _; congr 1; funext _
    refine total_bind_congr fun s => ?_
    have := textLines_agree v h width hs.font s
    exact ⟨this.2, by simp only [writeLines_agree c hs _ width this.1]⟩
  have h2 : writeTextHyphenated eng ctx' c iss' width sty' = writeTextHyphenated eng ctx c iss width sty := by
    simp only [writeTextHyphenated, hs.font, hs.color, k.hyphenate]
    congr 1; funext _; congr 1; funext _
    refine total_bind_congr fun s => ?_
    have := textLinesHyphenated_agree v ctx.hyphenate h width hs.font s
    exact ⟨this.2, by simp only [writeHyphLines_agree c hs _ width this.1]⟩
  simp only [writeTextFnc, hs.hAlign, h1, h2]

theorem renderText_agree {st st' : Styled} (hst : G .text st st') {iss iss' : List Instr} (h : A iss iss') :
    renderText eng ctx' c st' iss' = renderText eng ctx c st iss := by
  simp only [renderText, AlikeAll.length h]
  split
  · rfl
  · refine congrArg _ (funext fun s => ?_)
    have hs := (hst s.curr s.curr (sameBy_refl _ _ _)).1
    simp only [same_width hs (v.places rfl), writeTextFnc_agree v k c h _ (textSame_text v hs)]

theorem boxHeight_agree {iss iss' : List Instr} (h : A iss iss') {sty sty' : Styles} (hs : SameBy m .box sty sty') (width : ℚ) :
    boxHeight eng ctx' sty' iss' width = boxHeight eng ctx sty iss width := by
  simp only [boxHeight, AlikeAll.length h, textHeightFnc_agree v k h (textSame_box v hs), same_height hs (v.places rfl)]

omit k in
theorem boxWidth_agree {sty sty' : Styles} (hs : SameBy m .box sty sty') (pa : Area) : boxWidth sty' pa = boxWidth sty pa := by
  simp only [boxWidth, same_width hs (v.places rfl), same_padding hs (v.places rfl)]

theorem textBoxHeight_agree {st st' : Styled} (hst : G .box st st') {iss iss' : List Instr} (h : A iss iss')
    (pa : Area) : textBoxHeight eng ctx' st' iss' pa = textBoxHeight eng ctx st iss pa := by
  simp only [textBoxHeight]
  refine congrArg _ (funext fun s => ?_)
  have hs := (hst s.curr s.curr (sameBy_refl _ _ _)).1
  simp only [boxWidth_agree v hs, boxHeight_agree v k h hs]

theorem renderTextBox_agree {st st' : Styled} (hst : G .box st st') {iss iss' : List Instr} (h : A iss iss')
    (pa : Area) : renderTextBox eng ctx' c st' iss' pa = renderTextBox eng ctx c st iss pa := by
  simp only [renderTextBox]
  refine congrArg _ (funext fun s => ?_)
  have hs := (hst s.curr s.curr (sameBy_refl _ _ _)).1
  simp only [boxWidth_agree v hs, boxHeight_agree v k h hs, AlikeAll.length h, writeTextFnc_agree v k c h _ (textSame_box v hs),
    v.draw (.inl rfl) hs, same_offsetX hs (v.places rfl), same_offsetY hs (v.places rfl), same_padding hs (v.places rfl)]

theorem renderImage_agree {st st' : Styled} (hst : G .image st st') (src : Str) (pa : Area) :
    renderImage eng ctx' st' src pa = renderImage eng ctx st src pa := by
  simp only [renderImage, k.resolve, k.describe]
  cases ctx.describe (ctx.resolve src) with
  | none => rfl
  | some d =>
    funext s
    have hs := (hst s.curr s.curr (sameBy_refl _ _ _)).1
    simp only [placeImage, imageWanted, same_width hs (v.places rfl), same_height hs (v.places rfl), same_offsetX hs (v.places rfl), same_offsetY hs (v.places rfl)]

theorem renderCellItems_agree (va : Str) (padded : Area) : ∀ {iss iss' : List Instr}, A iss iss' →
    renderCellItems eng ctx' c va padded iss' = renderCellItems eng ctx c va padded iss
  | _, _, .nil => rfl
  | _, _, .cons h hr => by
      have ih := renderCellItems_agree va padded hr
      cases h with
      | box hst hi => simp only [renderCellItems, textBoxHeight_agree v k hst hi, renderTextBox_agree v k c hst hi, ih]
      | image src hst => simp only [renderCellItems, renderImage_agree v k hst, ih]
      | _ => simp only [renderCellItems, ih]

theorem renderCell_agree {iss iss' : List Instr} (h : A iss iss') (pa : Area) {sty sty' : Styles} (hs : SameBy m .cell sty sty') :
    renderCell eng ctx' c pa sty' iss' = renderCell eng ctx c pa sty iss := by
  simp only [renderCell, renderCellText, AlikeAll.length h, textHeight_agree v h _ (textSame_cell v hs),
    writeTextFnc_agree v k c h _ (textSame_cell v hs), renderCellItems_agree v k c _ _ h, v.draw (.inr rfl) hs,
    same_padding hs (v.places rfl), same_vAlign hs (v.places rfl)]

omit k in
theorem seen_agree (R : StyledKind → Styled → Styled → Prop) (T : Str → Str → Prop) : Seen (SameBy m .cell) (AlikeAll R T) where
  refl _ := sameBy_refl _ _ _
  nil := .nil
  columnWidth h := same_columnWidth h (v.places rfl)
  height h := same_height h (v.places rfl)
  padding h := same_padding h (v.places rfl)

omit k in
theorem sameBy_cell {s s' : Styles} : SameBy m .cell s s' ↔ SameBy m .row s s' := by simp only [SameBy, v.cell]

omit k in
theorem making_agree {cs cs' : Classes} : Making (SameBy m .cell) (AgreeBy m cs cs') cs cs' where
  row h hab n ir := by
    have := h _ _ ((sameBy_cell v).mp hab)
    simp only [rowStyles]
    split
    · exact (sameBy_cell v).mpr (this.2 _)
    · split
      · exact (sameBy_cell v).mpr (this.2 _)
      · exact (sameBy_cell v).mpr this.1
  cell h hab n ir := by
    have := h _ _ hab
    simp only [cellStyles]
    split
    · exact this.2 _
    · split
      · exact this.2 _
      · exact this.1

theorem tableOps_agree {t t' : Tab} (h : TabLike (SameBy m .cell) A t t') : tableOps eng ctx' c t' = tableOps eng ctx c t := by
  haveI := seen_agree v (AgreeBy m ctx.classes ctx'.classes) Eq
  simp only [tableOps, renderCell_agree v k c (h.cell _).iss _ (h.cell _).styles]

theorem renderTable_agree {st st' : Styled} (hst : G .table st st') (rh : Int) {rows rows' : List TableRow}
    (h : AlikeRows G Eq rows rows') : renderTable eng ctx' c st' rh rows' = renderTable eng ctx c st rh rows := by
  haveI := seen_agree v (AgreeBy m ctx.classes ctx'.classes) Eq
  simp only [renderTable]
  congr 1
  funext s
  have hs := (hst s.curr s.curr (sameBy_refl _ _ _)).1
  have ht := transformTable_like (S := SameBy m .cell) (m := textHeightFnc eng ctx) (m' := textHeightFnc eng ctx') (making_agree v)
    (fun sty sty' iss iss' w s he hi => by rw [textHeightFnc_agree v k hi (textSame_cell v he)]) (Page.mk (eng.printableArea s.eng)) s.curr
    ((sameBy_cell v).mpr (sameBy_weaken (fun _ => v.row) hs)) (same_width hs (v.places rfl)) h s
  revert ht
  cases transformTable (textHeightFnc eng ctx) ctx.classes (Page.mk (eng.printableArea s.eng)) s.curr st rows s <;>
    cases transformTable (textHeightFnc eng ctx') ctx'.classes (Page.mk (eng.printableArea s.eng)) s.curr st' rows' s <;> intro ht
  · rfl
  · exact ht.elim
  · exact ht.elim
  · rename_i a b
    obtain ⟨t, s1⟩ := a
    obtain ⟨t', s2⟩ := b
    obtain ⟨h1, rfl⟩ := ht
    have h2 := h1.columnCount
    simp only at h1 h2
    simp only [h2, tableOps_agree v k c h1, renderLaid_like _ h1]

theorem processInstr_agree {i i' : Instr} (h : Alike G Eq i i') : processInstr eng ctx' c i' = processInstr eng ctx c i := by
  cases h with
  | font hst =>
    simp only [processInstr]
    refine congrArg _ (funext fun s => ?_)
    rw [same_font (e := .font) (fun p hp => v.places (font_font p hp)) (hst s.curr s.curr (sameBy_refl _ _ _)).1]
  | box hst hi => simp only [processInstr, renderTextBox_agree v k c hst hi]
  | text hst hi => simp only [processInstr, renderText_agree v k c hst hi]
  | table rh hst hr => simp only [processInstr, renderTable_agree v k c hst rh hr]
  | image src hst => simp only [processInstr, renderImage_agree v k hst]
  | grid hst hr hp =>
    simp only [processInstr, renderGridM]
    rename_i rows rows' _ _
    have : rows'.map (·.2) = rows.map (·.2) := by
      clear hp
      induction hr with
      | nil => rfl
      | cons h _ ih => simp [h.2, ih]
    rw [this]
  | _ => rfl

theorem processInstrs_agree : ∀ {iss iss' : List Instr}, A iss iss' → processInstrs eng ctx' c iss' = processInstrs eng ctx c iss
  | _, _, .nil => rfl
  | _, _, .cons h hr => by simp only [processInstrs, processInstr_agree v k c h, processInstrs_agree hr]

theorem callsAt_agree : ∀ n, callsAt eng ctx' n = callsAt eng ctx n
  | 0 => rfl
  | n + 1 => by
      simp only [callsAt, callsAt_agree n]
      have : ∀ {α : Type} (op : E → Prog E α), runWith eng ctx' (callsAt eng ctx n) op = runWith eng ctx (callsAt eng ctx n) op := by
        intro α op
        funext s
        simp only [runWith, callback, processInstrs_agree v k _ k.header, processInstrs_agree v k _ k.footer]
      simp only [this]

theorem process_agree (n : Nat) : process eng ctx' n = process eng ctx n := by
  have : ∀ {α : Type} (c : Calls E) (op : E → Prog E α), runWith eng ctx' c op = runWith eng ctx c op := by
    intro α c op
    funext s
    simp only [runWith, callback, processInstrs_agree v k _ k.header, processInstrs_agree v k _ k.footer]
  simp only [process, callsAt_agree v k, processInstrs_agree v k _ k.body, this]

end
end Verif.Proofs
