import Verif.Spec.Outside
import Verif.Props.Origin
import Verif.Proofs.Alike
import Verif.Proofs.PlainTable
/-
Two processors for the same document that differ in what they take from outside.
-/
namespace Verif.Proofs
open Verif.Go Verif.Model Verif.Spec Verif.Props

variable {E : Type} {eng : Engine E} {α β : Type}

/-- The current styles do not ask for block alignment. -/
def NB (s : PState E) : Prop := s.curr.align.h ≠ b!"block"

/-- No block alignment. -/
def NotBlock (sty : Styles) : Prop := sty.align.h ≠ b!"block"

section
variable {cs : Classes} {st : Styled}

theorem notBlock_mutate (ha : ¬ AsksBlock cs st) {m : Mutator} (hm : Setting cs st m) {sty : Styles} (hs : NotBlock sty) : NotBlock (mutate m sty) := by
  rcases mutate_get m .hAlign with ⟨v, hv⟩ | hk
  · intro h
    refine ha ⟨m, hm, fun s => ?_⟩
    rw [hv s, ← hv sty]
    show Leaf.str _ = _
    rw [h]
  · have := hk sty
    simp only [Prp.get, Leaf.str.injEq] at this
    unfold NotBlock
    rw [this]
    exact hs

theorem notBlock_inline (ha : ¬ AsksBlock cs st) : ∀ (ms : List Mutator), (∀ m ∈ ms, m ∈ st.mutators) → ∀ sty, NotBlock sty →
    NotBlock (ms.foldl (fun s m => mutate m s) sty)
  | [], _, _, hs => hs
  | m :: ms, hm, _, hs => notBlock_inline ha ms (fun x hx => hm x (List.mem_cons_of_mem _ hx)) _ (notBlock_mutate ha (.inline (hm m (by simp))) hs)

theorem notBlock_classes (ha : ¬ AsksBlock cs st) : ∀ (use : List Str), (∀ n ∈ use, n ∈ st.classes) → ∀ sty, NotBlock sty → NotBlock (cs.mutate use sty)
  | [], _, _, hs => hs
  | n :: use, hm, sty, hs => by
    have hm' : ∀ n ∈ use, n ∈ st.classes := fun x hx => hm x (List.mem_cons_of_mem _ hx)
    simp only [Classes.mutate]
    cases hg : mapGet n cs with
    | none => exact notBlock_classes ha use hm' _ hs
    | some c => exact notBlock_classes ha use hm' _ (notBlock_mutate ha (.own (hm n (by simp)) hg) hs)

theorem notBlock_selected (ha : ¬ AsksBlock cs st) (sel : Str) : ∀ (use : List Str), (∀ n ∈ use, n ∈ st.classes) → ∀ sty, NotBlock sty →
    NotBlock (cs.mutateWithSelector sel use sty)
  | [], _, _, hs => hs
  | n :: use, hm, sty, hs => by
    have hm' : ∀ n ∈ use, n ∈ st.classes := fun x hx => hm x (List.mem_cons_of_mem _ hx)
    simp only [Classes.mutateWithSelector]
    cases hg : mapGet n cs with
    | none => exact notBlock_selected ha sel use hm' _ hs
    | some c =>
      refine notBlock_selected ha sel use hm' _ ?_
      unfold Class.mutateWithSelector
      split
      · rename_i m hsel
        exact notBlock_mutate ha (.selector (hm n (by simp)) hg hsel) hs
      · exact notBlock_mutate ha (.own (hm n (by simp)) hg) hs

/-- Styles without a setting for block alignment do not lead to it. -/
theorem notBlock_closed (cs : Classes) : Closed cs (fun st => ¬ AsksBlock cs st) NotBlock where
  plain st ha sty hs := by
    unfold Styled.mutatedStyles
    exact notBlock_inline ha _ (fun _ h => h) _ (notBlock_classes ha _ (fun _ h => h) _ hs)
  selected st ha sel sty hs := by
    unfold Styled.mutatedStylesWithSelector
    exact notBlock_inline ha _ (fun _ h => h) _ (notBlock_selected ha sel _ (fun _ h => h) _ hs)
  font _ _ ha _ := ha

end

/-! ### Texts -/

/-- The hyphenators agree on the words of the text. -/
def SameWords (hyph hyph' : Str → List Str) (t : Str) : Prop := ∀ page, ∀ w ∈ piecesOf page t, hyph' w = hyph w

/-- The hyphenators agree on the words of the texts. -/
def SameTexts (hyph hyph' : Str → List Str) (iss : List Instr) : Prop := ∀ i ∈ iss, ∀ t, SaysText t i → SameWords hyph hyph' t

variable {hyph hyph' : Str → List Str}

theorem foldl_hyph {tw : Str → ℚ} {width : ℚ} {sty : Styles} : ∀ (ws : List Str), (∀ w ∈ ws, hyph' w = hyph w) → ∀ acc,
    ws.foldl (wrapWordHyph hyph' tw width sty) acc = ws.foldl (wrapWordHyph hyph tw width sty) acc
  | [], _, _ => rfl
  | w :: ws, h, acc => by
    have e : wrapWordHyph hyph' tw width sty acc w = wrapWordHyph hyph tw width sty acc w := by
      have : ∀ W c, tryHyphenate hyph' tw W w c = tryHyphenate hyph tw W w c := by
        intro W c
        simp only [tryHyphenate, h w (by simp)]
      simp only [wrapWordHyph, this]
    rw [List.foldl_cons, List.foldl_cons, e]
    exact foldl_hyph ws (fun x hx => h x (List.mem_cons_of_mem _ hx)) _

theorem linesLoopHyph_same {cs : Classes} {width : ℚ} {sty : Styles} : ∀ (iss : List Instr), SameTexts hyph hyph' iss →
    ∀ (acc : List TextLine × TextLine) (s : PState E),
    linesLoopHyph eng hyph' cs width sty iss acc s = linesLoopHyph eng hyph cs width sty iss acc s
  | [], _, _, _ => rfl
  | i :: iss, h, acc, s => by
    have ih := linesLoopHyph_same (cs := cs) (width := width) (sty := sty) iss fun j hj => h j (List.mem_cons_of_mem _ hj)
    by_cases hb : i = .lineBreak
    · rw [hb, linesLoopHyph, linesLoopHyph, ih]
    · rw [linesLoopHyph_step eng hyph' width sty hb, linesLoopHyph_step eng hyph width sty hb]
      have key : ∀ t, SaysText t i → ∀ isty : Styles, (split 32 (norm eng s.eng t)).foldl
          (wrapWordHyph hyph' (fun w => eng.textWidth w (changeFont eng isty.font s).eng) width isty) acc =
          (split 32 (norm eng s.eng t)).foldl (wrapWordHyph hyph (fun w => eng.textWidth w (changeFont eng isty.font s).eng) width isty) acc := by
        intro t ht isty
        refine foldl_hyph _ (fun w hw => h i (by simp) t ht (eng.currentPage s.eng) w ?_) _
        unfold norm tr at hw
        rw [whitespaceRectified_eq] at hw
        exact hw
      cases i with
      | textBlock t => simp only [Model.textOf, key t .textBlock, ih]
      | paragraph st t => simp only [Model.textOf, key t .paragraph, ih]
      | _ => simp only [Model.textOf, ih]

theorem textLinesHyph_same {cs : Classes} {iss : List Instr} (h : SameTexts hyph hyph' iss) (width : ℚ) (sty : Styles) :
    (textLinesHyphenated eng hyph' cs iss width sty : PState E → _) = textLinesHyphenated eng hyph cs iss width sty := by
  funext s
  simp only [textLinesHyphenated, linesLoopHyph_same iss h]

theorem sameTexts_nil : SameTexts hyph hyph' [] := by intro i hi; simp at hi

section
variable {ctx ctx' : Ctx} {c : Calls E}

/-- If the text is set as a block, the hyphenators agree on it. -/
def TextOk (ctx ctx' : Ctx) (sty : Styles) (iss : List Instr) : Prop := sty.align.h = b!"block" → SameTexts ctx.hyphenate ctx'.hyphenate iss

theorem writeTextFnc_outside (hc : ctx'.classes = ctx.classes) {iss : List Instr} {sty : Styles} (h : TextOk ctx ctx' sty iss) (width : ℚ) :
    writeTextFnc eng ctx' c iss width sty = writeTextFnc eng ctx c iss width sty := by
  unfold writeTextFnc
  split
  · rename_i hb
    unfold writeTextHyphenated
    rw [hc, textLinesHyph_same (h hb)]
  · unfold Model.writeText
    rw [hc]

theorem textHeightFnc_outside (hc : ctx'.classes = ctx.classes) {iss : List Instr} {sty : Styles} (h : TextOk ctx ctx' sty iss) (width : ℚ) (s : PState E) :
    textHeightFnc eng ctx' sty iss width s = textHeightFnc eng ctx sty iss width s := by
  unfold textHeightFnc
  split
  · rename_i hb
    unfold textHeightHyphenated
    rw [hc, textLinesHyph_same (h hb)]
  · rw [hc]

theorem boxHeight_outside (hc : ctx'.classes = ctx.classes) {iss : List Instr} {sty : Styles} (h : TextOk ctx ctx' sty iss) (width : ℚ) :
    (boxHeight eng ctx' sty iss width : M E ℚ) = boxHeight eng ctx sty iss width := by
  have : (textHeightFnc eng ctx' sty iss width : PState E → _) = textHeightFnc eng ctx sty iss width := funext fun s => textHeightFnc_outside hc h width s
  unfold boxHeight
  rw [this]

/-- A style that may lead to block alignment has contents on which the hyphenators agree. -/
def StOk (ctx ctx' : Ctx) (st : Styled) (iss : List Instr) : Prop := AsksBlock ctx.classes st → SameTexts ctx.hyphenate ctx'.hyphenate iss

theorem StOk.text {st : Styled} {iss : List Instr} (h : StOk ctx ctx' st iss) {sty : Styles} (hs : NotBlock sty) :
    TextOk ctx ctx' (st.mutatedStyles ctx.classes sty) iss := by
  intro hb
  by_cases ha : AsksBlock ctx.classes st
  · exact h ha
  · exact absurd hb ((notBlock_closed _).plain st ha sty hs)

/-! ### Instructions -/

/-- Without conditions on the calls: the calls keep `NB`. -/
abbrev RelNB (eng : Engine E) (c c' : Calls E) : Prop := Rel eng NB (fun _ => True) c c'

theorem relNB {c c' : Calls E} (hw : ∀ t, Le NB (c.writeText t) (c'.writeText t)) (ha : Le NB c.addPage c'.addPage) : RelNB eng c c' where
  setX _ _ h := h
  setY _ _ h := h
  lineFeed _ _ h := h
  font _ _ h := h
  changeFont _ _ h := h
  color _ _ h := h
  image _ _ _ _ _ _ h := h
  draw _ _ h := h
  write t _ := hw t
  add := Or.inr ha

/-- The same for a computation that starts with asking for the state. -/
theorem le_get {P : PState E → Prop} {k k' : PState E → M E β} (hk : ∀ s, P s → Le P (k s) (k' s)) :
    Le P (get >>= k) (get >>= k') := by
  refine (Le.get (P := P)).bindV (V := P) ?_ hk
  intro s a s' hs h
  simp only [MonadState.get, getThe, MonadStateOf.get, StateT.get, Pure.pure, Option.some.injEq, Prod.mk.injEq] at h
  exact h.1 ▸ hs

variable (hr : RelNB eng c c) (hc : ctx'.classes = ctx.classes)
include hr hc

theorem renderText_outside {st : Styled} {iss : List Instr} (h : StOk ctx ctx' st iss) : Le NB (renderText eng ctx c st iss) (renderText eng ctx' c st iss) := by
  unfold renderText
  refine Le.ite (fun _ => Le.pure ()) fun _ => le_get fun s hs => (Le.ask _).bind fun _ => ?_
  rw [hc, writeTextFnc_outside hc (h.text hs)]
  exact (writeTextFnc_le hr (Texts.all _) _ _ _).bind fun _ => resetStyles_le hr

theorem renderTextBox_outside {st : Styled} {iss : List Instr} (h : StOk ctx ctx' st iss) (pa : Area) :
    Le NB (renderTextBox eng ctx c st iss pa) (renderTextBox eng ctx' c st iss pa) := by
  unfold renderTextBox
  refine le_get fun s hs => ?_
  simp only [hc]
  rw [boxHeight_outside hc (h.text hs)]
  simp only [writeTextFnc_outside hc (h.text hs)]
  exact (boxHeight_le hr _ _ _).bind fun _ => (boxStart_le hr _).bind fun _ => (drawBoxM_le hr _ _ _ _ _).bind fun _ =>
    (Le.upd (hr.setY _)).bind fun _ => (Le.upd (hr.setX _)).bind fun _ =>
    Le.ite (fun _ => (writeTextFnc_le hr (Texts.all _) _ _ _).bind fun _ => (Le.upd (hr.setY _)).bind fun _ => resetStyles_le hr)
      fun _ => (Le.pure _).bind fun _ => (Le.upd (hr.setY _)).bind fun _ => resetStyles_le hr

theorem textBoxHeight_outside {st : Styled} {iss : List Instr} (h : StOk ctx ctx' st iss) (pa : Area) :
    Le NB (textBoxHeight eng ctx st iss pa) (textBoxHeight eng ctx' st iss pa) := by
  unfold textBoxHeight
  refine le_get fun s hs => ?_
  simp only [hc]
  rw [boxHeight_outside hc (h.text hs)]
  exact (boxHeight_le hr _ _ _).bind fun _ => (resetStyles_le hr).bind fun _ => Le.pure _

/-- The image is the same. -/
def ImgOk (ctx ctx' : Ctx) (src : Str) : Prop := ctx'.resolve src = ctx.resolve src ∧ ctx'.describe (ctx.resolve src) = ctx.describe (ctx.resolve src)

theorem renderImage_same {src : Str} (h : ImgOk ctx ctx' src) (st : Styled) (pa : Area) :
    Le NB (renderImage eng ctx st src pa) (renderImage eng ctx' st src pa) := by
  have : (renderImage eng ctx' st src pa : M E Unit) = renderImage eng ctx st src pa := by
    unfold renderImage
    simp only [h.1, h.2, hc]
  rw [this]
  exact renderImage_le hr _ _ _

/-- The boxes and images of a cell are fine. -/
structure ItemsOk (ctx ctx' : Ctx) (iss : List Instr) : Prop where
  box : ∀ st b, .box st b ∈ iss → StOk ctx ctx' st b
  image : ∀ st src, .image st src ∈ iss → ImgOk ctx ctx' src

omit hr hc in
theorem itemsOk_nil : ItemsOk ctx ctx' [] := ⟨by simp, by simp⟩

theorem renderCellItems_same (v : Str) (pa : Area) : ∀ (iss : List Instr), ItemsOk ctx ctx' iss →
    Le NB (renderCellItems eng ctx c v pa iss) (renderCellItems eng ctx' c v pa iss)
  | [], _ => Le.pure ()
  | i :: iss, h => by
    have ih := renderCellItems_same v pa iss
      ⟨fun st b hm => h.box st b (List.mem_cons_of_mem _ hm), fun st src hm => h.image st src (List.mem_cons_of_mem _ hm)⟩
    cases i with
    | box st b =>
      exact (textBoxHeight_outside hr hc (h.box st b (by simp)) _).bind fun _ => (Le.upd (hr.setY _)).bind fun _ =>
        (renderTextBox_outside hr hc (h.box st b (by simp)) _).bind fun _ => ih
    | image st src => exact (Le.upd (hr.setY _)).bind fun _ => (renderImage_same hr hc (h.image st src (by simp)) _ _).bind fun _ => ih
    | _ => exact ih

theorem renderCell_same {sty : Styles} {iss : List Instr} (h : TextOk ctx ctx' sty iss) (hi : ItemsOk ctx ctx' iss) (pa : Area) :
    Le NB (renderCell eng ctx c pa sty iss) (renderCell eng ctx' c pa sty iss) := by
  have ht : Le NB (renderCellText eng ctx c pa sty iss) (renderCellText eng ctx' c pa sty iss) := by
    unfold renderCellText
    simp only [hc]
    simp only [writeTextFnc_outside hc h]
    exact (Le.total (textHeight_inv hr _ _ _ _)).bind fun _ => (Le.upd (hr.setY _)).bind fun _ => (Le.upd (hr.setX _)).bind fun _ =>
      writeTextFnc_le hr (Texts.all _) _ _ _
  unfold renderCell
  exact (drawBoxM_le hr _ _ _ _ _).bind fun _ => Le.ite (fun _ => ht.bind fun _ => (Le.upd (hr.setX _)).bind fun _ => renderCellItems_same hr hc _ _ _ hi)
    fun _ => (Le.pure _).bind fun _ => (Le.upd (hr.setX _)).bind fun _ => renderCellItems_same hr hc _ _ _ hi

end

/-! ### Tables -/

/-- Everything that is done with the cell is the same. -/
def CellOk (ctx ctx' : Ctx) (x : TCell) : Prop := TextOk ctx ctx' x.styles x.iss ∧ ItemsOk ctx ctx' x.iss

section
variable {ctx ctx' : Ctx}

theorem cellOk_nil {x : TCell} (h : x.iss = []) : CellOk ctx ctx' x :=
  ⟨fun _ => h ▸ sameTexts_nil, h ▸ itemsOk_nil⟩

theorem Inv.cellOk {H0 : List TCell} {orig : List (List Nat)} {t : Tab} (hi : Inv H0 orig t) (hk : ∀ x ∈ H0, CellOk ctx ctx' x) (id : Nat) :
    CellOk ctx ctx' (t.cell id) := by
  by_cases h0 : id < H0.length
  · obtain ⟨e1, e2, _⟩ := hi.authored id h0
    have : H0.getD id TCell.new ∈ H0 := by
      rw [List.getD_eq_getElem?_getD, List.getElem?_eq_getElem h0]
      exact List.getElem_mem h0
    obtain ⟨g1, g2⟩ := hk _ this
    exact ⟨by rw [e1, e2]; exact g1, by rw [e2]; exact g2⟩
  · by_cases h1 : id < t.heap.length
    · exact cellOk_nil (hi.made id (by omega) h1).2.2.2.1
    · refine cellOk_nil ?_
      unfold Tab.cell
      rw [List.getD_eq_getElem?_getD, List.getElem?_eq_none (by omega)]
      rfl

theorem assignCellMinHeight_same {σ : Type} {m m' : Measure σ} {id : Nat} {t : Tab}
    (hm : ∀ w s, m' (t.cell id).styles (t.cell id).iss w s = m (t.cell id).styles (t.cell id).iss w s) (s : σ) :
    assignCellMinHeight m' id t s = assignCellMinHeight m id t s := by
  unfold assignCellMinHeight
  simp only [hm]

theorem minHeightsRow_same {σ : Type} {m m' : Measure σ} {H0 : List TCell} {orig : List (List Nat)} (hk : ∀ x ∈ H0, CellOk ctx ctx' x)
    (hm : ∀ x : TCell, CellOk ctx ctx' x → ∀ w s, m' x.styles x.iss w s = m x.styles x.iss w s) (r : Nat) : ∀ (ids : List Nat) (t : Tab) (s : σ),
    Inv H0 orig t → (∀ x ∈ ids, x ∈ rowAt t r) → minHeightsRow m' ids t s = minHeightsRow m ids t s
  | [], _, _, _, _ => rfl
  | id :: ids, t, s, hi, hmem => by
    have h1 := assignCellMinHeight_same (m := m) (m' := m') (id := id) (t := t) (fun w s => hm _ (Inv.cellOk hi hk id) w s) s
    obtain ⟨p1, _, _⟩ := assignCellMinHeight_spec m hi (hmem id (by simp)) s
    simp only [minHeightsRow, h1]
    exact minHeightsRow_same hk hm r ids _ _ (hi.core p1.shape.1 (fun x => (p1.shape.2.2.2.2 x).1) p1.shape.2.2.2.1)
      (fun x hx => (p1.shape.2.2.2.1 r).symm ▸ hmem x (by simp [hx]))

theorem minHeights_same {σ : Type} {m m' : Measure σ} {H0 : List TCell} {orig : List (List Nat)} (hk : ∀ x ∈ H0, CellOk ctx ctx' x)
    (hm : ∀ x : TCell, CellOk ctx ctx' x → ∀ w s, m' x.styles x.iss w s = m x.styles x.iss w s) : ∀ (rs : List TRow) (t : Tab) (s : σ), Inv H0 orig t →
    (∀ r ∈ rs, r ∈ t.rows) → minHeights m' rs t s = minHeights m rs t s
  | [], _, _, _, _ => rfl
  | r :: rs, t, s, hi, hmem => by
    obtain ⟨i, _, hrow⟩ := hi.cell_mem (hmem r (by simp))
    have h1 := minHeightsRow_same hk hm i r.cells t s hi (fun x hx => by rw [hrow]; exact hx)
    obtain ⟨p1, _, _⟩ := minHeightsRow_spec m i r.cells t s hi (fun x hx => by rw [hrow]; exact hx)
    simp only [minHeights, h1]
    exact minHeights_same hk hm rs _ _ (hi.core p1.shape.1 (fun x => (p1.shape.2.2.2.2 x).1) p1.shape.2.2.2.1)
      (fun r' hr' => by rw [p1.2.1]; exact hmem r' (by simp [hr']))

/-- Everything that is done with the cells of the table is the same. -/
structure TableOk (ctx ctx' : Ctx) (st : Styled) (rows : List TableRow) : Prop where
  text : ∀ rst cells, TableRow.mk rst cells ∈ rows → ∀ cst cspan rspan iss, TableCell.mk cst cspan rspan iss ∈ cells →
    AsksBlock ctx.classes st ∨ AsksBlock ctx.classes rst ∨ AsksBlock ctx.classes cst → SameTexts ctx.hyphenate ctx'.hyphenate iss
  items : ∀ rst cells, TableRow.mk rst cells ∈ rows → ∀ cst cspan rspan iss, TableCell.mk cst cspan rspan iss ∈ cells → ItemsOk ctx ctx' iss

theorem makeTable_ok {st : Styled} {rows : List TableRow} (h : TableOk ctx ctx' st rows) {curr : Styles} (hcurr : NotBlock curr) :
    ∀ x ∈ (makeTable ctx.classes (st.mutatedStyles ctx.classes curr) rows).heap, CellOk ctx ctx' x := by
  have hC := notBlock_closed ctx.classes
  refine makeRows_K rows 0 [] (by simp) ?_
  rintro ⟨rst, cells⟩ hr ir ⟨cst, cspan, rspan, iss⟩ hcell ic
  refine ⟨?_, h.items rst cells hr cst cspan rspan iss hcell⟩
  intro hb
  by_cases h1 : AsksBlock ctx.classes st ∨ AsksBlock ctx.classes rst ∨ AsksBlock ctx.classes cst
  · exact h.text rst cells hr cst cspan rspan iss hcell h1
  · exfalso
    simp only [not_or] at h1
    have hrow : NotBlock (rowStyles ctx.classes (st.mutatedStyles ctx.classes curr) rows.length ir rst) := by
      have hts := hC.plain st h1.1 curr hcurr
      unfold rowStyles
      split
      · exact hC.selected _ h1.2.1 _ _ hts
      · split
        · exact hC.selected _ h1.2.1 _ _ hts
        · exact hC.plain _ h1.2.1 _ hts
    revert hb
    show NotBlock (cellStyles _ _ _ _ _)
    unfold cellStyles
    split
    · exact hC.selected _ h1.2.2 _ _ hrow
    · split
      · exact hC.selected _ h1.2.2 _ _ hrow
      · exact hC.plain _ h1.2.2 _ hrow

theorem transformTable_same {σ : Type} {m m' : Measure σ} {st : Styled} {rows : List TableRow} (h : TableOk ctx ctx' st rows) {curr : Styles}
    (hcurr : NotBlock curr) (hm : ∀ x : TCell, CellOk ctx ctx' x → ∀ w s, m' x.styles x.iss w s = m x.styles x.iss w s) (page : Page) (s : σ) :
    transformTable m' ctx.classes page curr st rows s = transformTable m ctx.classes page curr st rows s ∧
    ∀ t s', transformTable m ctx.classes page curr st rows s = some (t, s') → ∀ id, CellOk ctx ctx' (t.cell id) := by
  have hk := makeTable_ok h hcurr
  have hf := (makeTable_fresh ctx.classes (st.mutatedStyles ctx.classes curr) rows).1
  obtain ⟨t1, h1, hs1⟩ := processSpans_spec hf
  obtain ⟨t2, cws, h2, sh12, _⟩ := assignColumnWidths_spec hs1 (page.effectiveWidth (st.mutatedStyles ctx.classes curr).dim.width)
  have hs2 := hs1.shape sh12
  obtain ⟨sh23, _⟩ := assignHeights_spec m hs2.inv s
  have hs3 := hs2.shape sh23
  have e : assignHeights m' t2 s = assignHeights m t2 s := by
    unfold assignHeights
    rw [minHeights_same hk hm _ _ _ hs2.inv (fun _ h => h)]
  unfold transformTable
  simp only [h1, h2]
  refine ⟨by rw [e], ?_⟩
  intro t s' ht id
  simp only [Option.some.injEq] at ht
  have e1 : t = (assignHeights m t2 s).1 := (congrArg Prod.fst ht).symm
  rw [e1]
  exact Inv.cellOk hs3.inv hk id

variable {c : Calls E} (hr : RelNB eng c c) (hc : ctx'.classes = ctx.classes)
include hr hc

theorem relOps_same {t : Tab} (h : ∀ id, CellOk ctx ctx' (t.cell id)) : RelOps (tableOps eng ctx c t) (tableOps eng ctx' c t) NB where
  getXY := rfl
  prevent := rfl
  setX := rfl
  setY := rfl
  setX_inv := hr.setX
  setY_inv := hr.setY
  cell pa id s s' hs he := by
    obtain ⟨q, hq, e⟩ := Option.map_eq_some_iff.mp he
    obtain ⟨h1, h2⟩ := renderCell_same hr hc (h id).1 (h id).2 pa s hs q.1 q.2 hq
    exact ⟨Option.map_eq_some_iff.mpr ⟨q, h1, e⟩, e ▸ h2⟩
  add := by
    rcases hr.add with hp | ha
    · exact Or.inl hp
    · refine Or.inr fun s s' hs he => ?_
      obtain ⟨q, hq, e⟩ := Option.map_eq_some_iff.mp he
      obtain ⟨h1, h2⟩ := ha s hs q.1 q.2 hq
      exact ⟨Option.map_eq_some_iff.mpr ⟨q, h1, e⟩, e ▸ h2⟩

theorem renderTable_same {st : Styled} {rows : List TableRow} (h : TableOk ctx ctx' st rows) (rh : Int) :
    Le NB (renderTable eng ctx c st rh rows) (renderTable eng ctx' c st rh rows) := by
  intro s hs a s' he
  unfold renderTable at he ⊢
  rw [bind_eq] at he ⊢
  simp only [MonadState.get, getThe, MonadStateOf.get, StateT.get, Pure.pure, Option.bind_some] at he ⊢
  obtain ⟨e1, e2⟩ := transformTable_same (m := textHeightFnc eng ctx) (m' := textHeightFnc eng ctx') h (curr := s.curr) hs
    (fun x hx w s => textHeightFnc_outside hc hx.1 w s) (Page.mk (eng.printableArea s.eng)) s
  rw [hc, e1]
  cases ht : transformTable (textHeightFnc eng ctx) ctx.classes (Page.mk (eng.printableArea s.eng)) s.curr st rows s with
  | none => rw [ht] at he; exact absurd he (by simp)
  | some q =>
    obtain ⟨t, s1⟩ := q
    have hs1 := transformTable_inv (P := NB) (fun sty iss w s hs => textHeightFnc_inv hr sty iss w s hs) ht hs
    have hcells := e2 t s1 ht
    simp only [ht] at he ⊢
    rw [bind_eq] at he ⊢
    simp only [set, StateT.set, Pure.pure, Option.bind_some] at he ⊢
    refine (Le.ite (P := NB) (fun _ => resetStyles_le hr) fun _ => (Le.ask _).bind fun pa => Le.bind ?_ fun _ => resetStyles_le hr) s1 hs1 a s' he
    intro s2 hs2 b s3 hr3
    obtain ⟨s4, h4, e⟩ := Option.map_eq_some_iff.mp hr3
    simp only [Prod.mk.injEq, true_and] at e
    obtain ⟨h5, h6⟩ := renderLaid_le (relOps_same hr hc hcells) hs2 h4
    refine ⟨?_, e ▸ h6⟩
    simp only [h5, Option.map_some, e]

/-- Everything the instruction takes from outside is the same. -/
def InstrOk (ctx ctx' : Ctx) (i : Instr) : Prop :=
  (∀ t, BlockText ctx.classes t i → SameWords ctx.hyphenate ctx'.hyphenate t) ∧ ∀ src, ShowsImage src i → ImgOk ctx ctx' src

theorem processInstr_same (i : Instr) (h : InstrOk ctx ctx' i) : Le NB (processInstr eng ctx c i) (processInstr eng ctx' c i) := by
  have hadd : Le NB c.addPage c.addPage ∨ i ≠ .pageBreak := by
    rcases hr.add with hp | ha
    · by_cases hb : i = .pageBreak
      · exact Or.inl fun s hs => absurd (hp { s with prevent := false } hs) (by simp)
      · exact Or.inr hb
    · exact Or.inl ha
  cases i with
  | font st =>
    simp only [processInstr, hc]
    exact Le.get.bind fun s => changeFontM_le hr _
  | box st iss =>
    exact (Le.ask _).bind fun pa => renderTextBox_outside hr hc (fun ha j hj t ht => h.1 t (.box ha hj ht)) _
  | text st iss => exact renderText_outside hr hc fun ha j hj t ht => h.1 t (.text ha hj ht)
  | table st rh rows =>
    refine renderTable_same hr hc ⟨?_, ?_⟩ rh
    · intro rst cells hrow cst cspan rspan iss hcell ha j hj t ht
      exact h.1 t (.cell hrow hcell ha hj ht)
    · intro rst cells hrow cst cspan rspan iss hcell
      exact ⟨fun bst b hb ha j hj t ht => h.1 t (.cellBox hrow hcell hb ha hj ht), fun ist src hm => h.2 src (.cell hrow hcell hm)⟩
  | image st src => exact (Le.ask _).bind fun pa => renderImage_same hr hc (h.2 src .image) _ _
  | lineFeed n => exact processInstr_le hr (Texts.all _) (ctx := ctx) _ hadd
  | setX x => exact processInstr_le hr (Texts.all _) (ctx := ctx) _ hadd
  | setY x => exact processInstr_le hr (Texts.all _) (ctx := ctx) _ hadd
  | grid st rows parts => exact processInstr_le hr (Texts.all _) (ctx := ctx) (.grid st rows parts) hadd
  | pageBreak => exact processInstr_le hr (Texts.all _) (ctx := ctx) _ hadd
  | _ => exact Le.pure ()

theorem processInstrs_same : ∀ (iss : List Instr), (∀ i ∈ iss, InstrOk ctx ctx' i) → Le NB (processInstrs eng ctx c iss) (processInstrs eng ctx' c iss)
  | [], _ => Le.pure ()
  | i :: is, h => by
    unfold processInstrs
    exact (processInstr_same hr hc i (h i (by simp))).bind fun _ => processInstrs_same is fun j hj => h j (List.mem_cons_of_mem _ hj)

end

/-! ### Header and footer -/

theorem Le.trans {P : PState E → Prop} {m m' m'' : M E α} (h : Le P m m') (h' : Le P m' m'') : Le P m m'' := by
  intro s hs a s' he
  obtain ⟨h1, h2⟩ := h s hs a s' he
  exact h' s hs a s' h1

theorem Le.left {P : PState E → Prop} {m m' : M E α} (h : Le P m m') : Le P m m := by
  intro s hs a s' he
  exact ⟨he, (h s hs a s' he).2⟩

section
variable {ctx ctx' : Ctx}

theorem sameOutside_instr (h : SameOutside ctx ctx') {i : Instr} (hi : i ∈ instrsOf ctx) : InstrOk ctx ctx' i :=
  ⟨fun t ht page w hw => h.hyphenate i hi t ht page w hw, fun src hs => ⟨h.resolve i hi src hs, h.describe i hi src hs⟩⟩

theorem sameOutside_symm (h : SameOutside ctx ctx') : SameOutside ctx' ctx := by
  have e : instrsOf ctx' = instrsOf ctx := by simp only [instrsOf, h.header, h.footer, h.body]
  refine ⟨h.classes.symm, h.header.symm, h.footer.symm, h.body.symm, ?_, ?_, ?_⟩
  · intro i hi t ht page w hw
    rw [e] at hi
    rw [h.classes] at ht
    exact (h.hyphenate i hi t ht page w hw).symm
  · intro i hi src hs
    rw [e] at hi
    exact (h.resolve i hi src hs).symm
  · intro i hi src hs
    rw [e] at hi
    rw [h.resolve i hi src hs]
    exact (h.describe i hi src hs).symm

/-- The instructions with both the calls and what is outside replaced. -/
theorem processInstrs_outside (h : SameOutside ctx ctx') {c c' : Calls E} (hr : RelNB eng c c') (ha : Le NB c.addPage c'.addPage) {iss : List Instr}
    (hi : ∀ i ∈ iss, i ∈ instrsOf ctx) : Le NB (processInstrs eng ctx c iss) (processInstrs eng ctx' c' iss) := by
  have hl : RelNB eng c c := relNB (fun t => (hr.write t trivial).left) ha.left
  exact (processInstrs_same hl h.classes iss fun i hm => sameOutside_instr h (hi i hm)).trans (processInstrs_le hr (Texts.all _) iss (Or.inl ha))

theorem callback_outside (h : SameOutside ctx ctx') {c c' : Calls E} (hr : RelNB eng c c') (ha : Le NB c.addPage c'.addPage) {iss : List Instr}
    (hi : ∀ i ∈ iss, i ∈ instrsOf ctx) : Le NB (callback eng ctx c iss) (callback eng ctx' c' iss) := by
  intro s hs a s' he
  rw [callback_eq] at he ⊢
  obtain ⟨q, hq, e⟩ := Option.map_eq_some_iff.mp he
  obtain ⟨h2, h3⟩ := processInstrs_outside h hr ha hi { s with prevent := true } hs q.1 q.2 hq
  refine ⟨Option.map_eq_some_iff.mpr ⟨q, h2, e⟩, ?_⟩
  simp only [Prod.mk.injEq, true_and] at e
  rw [← e]
  exact h3

theorem runProg_NB {hdr hdr' ftr ftr' : M E Unit} (hh : Le NB hdr hdr') (hf : Le NB ftr ftr') : ∀ (pr : Prog E α),
    Le NB (runProg hdr ftr pr) (runProg hdr' ftr' pr)
  | .done e a => by
    intro s hs b s' hr
    simp only [runProg, Option.some.injEq, Prod.mk.injEq] at hr
    refine ⟨by simp [runProg, hr], ?_⟩
    rw [← hr.2]
    exact hs
  | .header e k => by
    intro s hs b s' hr
    unfold runProg at hr ⊢
    cases h1 : hdr { s with eng := e } with
    | none => rw [h1] at hr; exact absurd hr (by simp)
    | some q =>
      obtain ⟨h2, h3⟩ := hh { s with eng := e } hs q.1 q.2 h1
      rw [h1] at hr
      rw [h2]
      exact runProg_NB hh hf (k q.2.eng) q.2 h3 b s' hr
  | .footer e k => by
    intro s hs b s' hr
    unfold runProg at hr ⊢
    cases h1 : ftr { s with eng := e } with
    | none => rw [h1] at hr; exact absurd hr (by simp)
    | some q =>
      obtain ⟨h2, h3⟩ := hf { s with eng := e } hs q.1 q.2 h1
      rw [h1] at hr
      rw [h2]
      exact runProg_NB hh hf (k q.2.eng) q.2 h3 b s' hr

theorem runWith_outside (h : SameOutside ctx ctx') {c c' : Calls E} (hr : RelNB eng c c') (ha : Le NB c.addPage c'.addPage) (op : E → Prog E α) :
    Le NB (runWith eng ctx c op) (runWith eng ctx' c' op) := by
  intro s hs
  unfold runWith
  rw [h.header, h.footer]
  exact runProg_NB (callback_outside h hr ha fun i hi => by simp [instrsOf, hi]) (callback_outside h hr ha fun i hi => by simp [instrsOf, hi]) _ s hs

theorem callsAt_outside (h : SameOutside ctx ctx') : ∀ n, RelNB eng (callsAt eng ctx n) (callsAt eng ctx' n) ∧
    Le NB (callsAt eng ctx n).addPage (callsAt eng ctx' n).addPage
  | 0 => ⟨relNB (fun _ => Le.none) Le.none, Le.none⟩
  | n + 1 => by
    obtain ⟨h1, h2⟩ := callsAt_outside h n
    exact ⟨relNB (fun t => runWith_outside h h1 h2 _) (runWith_outside h h1 h2 _), runWith_outside h h1 h2 _⟩

theorem process_outside (h : SameOutside ctx ctx') (n : Nat) : Le NB (process eng ctx n) (process eng ctx' n) := by
  obtain ⟨h1, h2⟩ := callsAt_outside (eng := eng) h n
  obtain ⟨h3, h4⟩ := callsAt_outside (eng := eng) h (n - 1)
  have hl : RelNB eng (callsAt eng ctx n) (callsAt eng ctx n) := relNB (fun t => (h1.write t trivial).left) h2.left
  unfold process
  rw [h.body]
  exact (Le.upd fun _ hs => hs).bind fun _ => Le.get.bind fun _ => (changeFontM_le hl _).bind fun _ => h2.bind fun _ =>
    (processInstrs_outside h h1 h2 fun i hi => by simp [instrsOf, hi]).bind fun _ => (Le.ask _).bind fun _ =>
    Le.ite (fun _ => Le.pure _) fun _ => runWith_outside h h3 h4 _

/-- The processors do the same. -/
theorem process_same_outside (h : SameOutside ctx ctx') (n : Nat) (e : E) :
    process eng ctx' n (newProcessor e) = process eng ctx n (newProcessor e) := by
  have h0 : NB (newProcessor e) := by
    show defaultStyle.align.h ≠ b!"block"
    decide
  exact (process_outside (sameOutside_symm h) n).eq (process_outside h n) h0

end
end Verif.Proofs
