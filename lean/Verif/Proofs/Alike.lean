import Verif.Proofs.AlikeTable
import Verif.Model.Process
/-
Documents that look the same are processed the same way, by every engine.
-/
namespace Verif.Proofs
open Verif.Go Verif.Model Verif.Spec

section
variable {E : Type} (eng : Engine E) {cs cs' : Classes} {T : Str → Str → Prop}

/-- Texts related by `T` are the same to the processor. -/
def SameNorm (eng : Engine E) (T : Str → Str → Prop) : Prop := ∀ {t t' : Str}, T t t' → ∀ e, norm eng e t' = norm eng e t

theorem sameNorm_eq : SameNorm eng Eq := fun h _ => by rw [h]

theorem textOf_alike (sty : Styles) {i i' : Instr} (h : Alike (fun _ => SameEffect cs cs') T i i') :
    OptLike (fun a b => b.1 = a.1 ∧ T a.2 b.2) (textOf cs sty i) (textOf cs' sty i') := by
  cases h <;> simp only [textOf, OptLike]
  · rename_i h; exact ⟨trivial, h⟩
  · rename_i h h'; exact ⟨(h.1 _).symm, h'⟩

theorem alike_lineBreak {R : StyledKind → Styled → Styled → Prop} {i i' : Instr} (h : Alike R T i i') : i' = .lineBreak ↔ i = .lineBreak := by
  cases h <;> simp

theorem linesLoop_step (width : ℚ) (sty : Styles) {i : Instr} (hi : i ≠ .lineBreak) (iss : List Instr)
    (acc : List TextLine × TextLine) (s : PState E) :
    linesLoop eng cs width sty (i :: iss) acc s =
      match textOf cs sty i with
      | none => linesLoop eng cs width sty iss acc s
      | some (isty, text) =>
        let t := norm eng s.eng text
        if t = [] then linesLoop eng cs width sty iss acc s
        else
          let s := changeFont eng isty.font s
          let words := split 32 t
          linesLoop eng cs width sty iss (words.foldl (wrapWord (fun w => eng.textWidth w s.eng) width isty) acc) s := by
  rw [linesLoop]
  · rfl
  · exact hi

theorem linesLoopHyph_step (hyph : Str → List Str) (width : ℚ) (sty : Styles) {i : Instr} (hi : i ≠ .lineBreak) (iss : List Instr)
    (acc : List TextLine × TextLine) (s : PState E) :
    linesLoopHyph eng hyph cs width sty (i :: iss) acc s =
      match textOf cs sty i with
      | none => linesLoopHyph eng hyph cs width sty iss acc s
      | some (isty, text) =>
        let t := norm eng s.eng text
        let s := changeFont eng isty.font s
        let words := split 32 t
        linesLoopHyph eng hyph cs width sty iss (words.foldl (wrapWordHyph hyph (fun w => eng.textWidth w s.eng) width isty) acc) s := by
  rw [linesLoopHyph]
  · rfl
  · exact hi

section
variable (hT : SameNorm eng T)
include hT

theorem linesLoop_alike (width : ℚ) (sty : Styles) : ∀ {iss iss' : List Instr}, AlikeAll (fun _ => SameEffect cs cs') T iss iss' →
    ∀ (acc : List TextLine × TextLine) (s : PState E),
    linesLoop eng cs' width sty iss' acc s = linesLoop eng cs width sty iss acc s
  | _, _, .nil, _, _ => rfl
  | _, _, .cons (i := i) (i' := i') h hr, acc, s => by
      have ih := linesLoop_alike width sty hr
      by_cases hb : i = .lineBreak
      · rw [(alike_lineBreak h).mpr hb, hb, linesLoop, linesLoop, ih]
      · rw [linesLoop_step eng width sty hb, linesLoop_step eng width sty (mt (alike_lineBreak h).mp hb)]
        have ht := textOf_alike sty h
        revert ht
        cases textOf cs sty i <;> cases textOf cs' sty i' <;> intro ht
        · simp only [ih]
        · exact ht.elim
        · exact ht.elim
        · simp only [ih, hT ht.2, ht.1]

theorem linesLoopHyph_alike (hyph : Str → List Str) (width : ℚ) (sty : Styles) : ∀ {iss iss' : List Instr},
    AlikeAll (fun _ => SameEffect cs cs') T iss iss' → ∀ (acc : List TextLine × TextLine) (s : PState E),
    linesLoopHyph eng hyph cs' width sty iss' acc s = linesLoopHyph eng hyph cs width sty iss acc s
  | _, _, .nil, _, _ => rfl
  | _, _, .cons (i := i) (i' := i') h hr, acc, s => by
      have ih := linesLoopHyph_alike hyph width sty hr
      by_cases hb : i = .lineBreak
      · rw [(alike_lineBreak h).mpr hb, hb, linesLoopHyph, linesLoopHyph, ih]
      · rw [linesLoopHyph_step eng hyph width sty hb, linesLoopHyph_step eng hyph width sty (mt (alike_lineBreak h).mp hb)]
        have ht := textOf_alike sty h
        revert ht
        cases textOf cs sty i <;> cases textOf cs' sty i' <;> intro ht
        · simp only [ih]
        · exact ht.elim
        · exact ht.elim
        · simp only [ih, hT ht.2, ht.1]

variable {iss iss' : List Instr}

theorem textLines_alike (h : AlikeAll (fun _ => SameEffect cs cs') T iss iss') (width : ℚ) (sty : Styles) :
    textLines eng cs' iss' width sty = textLines eng cs iss width sty := by
  funext s; simp only [textLines, linesLoop_alike eng hT width sty h]

theorem textLinesHyphenated_alike (hyph : Str → List Str) (h : AlikeAll (fun _ => SameEffect cs cs') T iss iss') (width : ℚ) (sty : Styles) :
    textLinesHyphenated eng hyph cs' iss' width sty = textLinesHyphenated eng hyph cs iss width sty := by
  funext s; simp only [textLinesHyphenated, linesLoopHyph_alike eng hT hyph width sty h]

theorem textHeight_alike (h : AlikeAll (fun _ => SameEffect cs cs') T iss iss') (width : ℚ) (sty : Styles) :
    textHeight eng cs' iss' width sty = textHeight eng cs iss width sty := by
  funext s; simp only [textHeight, textLines_alike eng hT h]

theorem textHeightHyphenated_alike (hyph : Str → List Str) (h : AlikeAll (fun _ => SameEffect cs cs') T iss iss') (width : ℚ) (sty : Styles) :
    textHeightHyphenated eng hyph cs' iss' width sty = textHeightHyphenated eng hyph cs iss width sty := by
  funext s; simp only [textHeightHyphenated, textLinesHyphenated_alike eng hT hyph h]

end

end

/-- What a processor is made with, for two documents that look the same. -/
structure CtxLike (T : Str → Str → Prop) (ctx ctx' : Ctx) : Prop where
  hyphenate : ctx'.hyphenate = ctx.hyphenate
  resolve : ctx'.resolve = ctx.resolve
  describe : ctx'.describe = ctx.describe
  header : AlikeAll (fun _ => SameEffect ctx.classes ctx'.classes) T ctx.header ctx'.header
  footer : AlikeAll (fun _ => SameEffect ctx.classes ctx'.classes) T ctx.footer ctx'.footer
  body : AlikeAll (fun _ => SameEffect ctx.classes ctx'.classes) T ctx.body ctx'.body

section
variable {E : Type} {eng : Engine E} {T : Str → Str → Prop} (hT : SameNorm eng T) {ctx ctx' : Ctx} (k : CtxLike T ctx ctx') (c : Calls E)
include hT k

local notation "A" => AlikeAll (fun _ => SameEffect ctx.classes ctx'.classes) T

theorem textHeightFnc_alike {iss iss' : List Instr} (h : A iss iss') (sty : Styles) (width : ℚ) :
    textHeightFnc eng ctx' sty iss' width = textHeightFnc eng ctx sty iss width := by
  funext s
  simp only [textHeightFnc, k.hyphenate, textHeightHyphenated_alike eng hT _ h, textHeight_alike eng hT h]

theorem writeTextFnc_alike {iss iss' : List Instr} (h : A iss iss') (width : ℚ) (sty : Styles) :
    writeTextFnc eng ctx' c iss' width sty = writeTextFnc eng ctx c iss width sty := by
  simp only [writeTextFnc, writeTextHyphenated, writeText, k.hyphenate, textLines_alike eng hT h, textLinesHyphenated_alike eng hT _ h]

theorem renderText_alike {st st' : Styled} (hst : SameEffect ctx.classes ctx'.classes st st') {iss iss' : List Instr} (h : A iss iss') :
    renderText eng ctx' c st' iss' = renderText eng ctx c st iss := by
  simp only [renderText, AlikeAll.length h, ← hst.1, writeTextFnc_alike hT k c h]

theorem boxHeight_alike {iss iss' : List Instr} (h : A iss iss') (sty : Styles) (width : ℚ) :
    boxHeight eng ctx' sty iss' width = boxHeight eng ctx sty iss width := by
  simp only [boxHeight, AlikeAll.length h, textHeightFnc_alike hT k h]

theorem textBoxHeight_alike {st st' : Styled} (hst : SameEffect ctx.classes ctx'.classes st st') {iss iss' : List Instr} (h : A iss iss')
    (pa : Area) : textBoxHeight eng ctx' st' iss' pa = textBoxHeight eng ctx st iss pa := by
  simp only [textBoxHeight, ← hst.1, boxHeight_alike hT k h]

theorem renderTextBox_alike {st st' : Styled} (hst : SameEffect ctx.classes ctx'.classes st st') {iss iss' : List Instr} (h : A iss iss')
    (pa : Area) : renderTextBox eng ctx' c st' iss' pa = renderTextBox eng ctx c st iss pa := by
  simp only [renderTextBox, ← hst.1, boxHeight_alike hT k h, AlikeAll.length h, writeTextFnc_alike hT k c h]

omit hT in
theorem renderImage_alike {st st' : Styled} (hst : SameEffect ctx.classes ctx'.classes st st') (src : Str) (pa : Area) :
    renderImage eng ctx' st' src pa = renderImage eng ctx st src pa := by
  simp only [renderImage, k.resolve, k.describe, ← hst.1]

theorem renderCellItems_alike (v : Str) (padded : Area) : ∀ {iss iss' : List Instr}, A iss iss' →
    renderCellItems eng ctx' c v padded iss' = renderCellItems eng ctx c v padded iss
  | _, _, .nil => rfl
  | _, _, .cons h hr => by
      have ih := renderCellItems_alike v padded hr
      cases h with
      | box hst hi => simp only [renderCellItems, textBoxHeight_alike hT k hst hi, renderTextBox_alike hT k c hst hi, ih]
      | image src hst => simp only [renderCellItems, renderImage_alike (eng := eng) k hst, ih]
      | _ => simp only [renderCellItems, ih]

theorem renderCell_alike {iss iss' : List Instr} (h : A iss iss') (pa : Area) (sty : Styles) :
    renderCell eng ctx' c pa sty iss' = renderCell eng ctx c pa sty iss := by
  simp only [renderCell, renderCellText, AlikeAll.length h, textHeight_alike eng hT h, writeTextFnc_alike hT k c h,
    renderCellItems_alike hT k c _ _ h]

omit hT k in
theorem renderRowCells_like {σ : Type} {S : Styles → Styles → Prop} {I : List Instr → List Instr → Prop} [Seen S I]
    (ops : TableOps σ) {t t' : Tab} (h : TabLike S I t t') (y : ℚ) :
    ∀ (x : ℚ) (ids : List Nat) (s : σ), renderRowCells ops t' y x ids s = renderRowCells ops t y x ids s
  | _, [], _ => rfl
  | x, id :: ids, s => by
      simp only [renderRowCells, (h.cell id).spannedBy, (h.cell id).zero, (h.cell id).width, h.dim,
        renderRowCells_like ops h y _ ids]

omit hT k in
theorem renderRow_like {σ : Type} {S : Styles → Styles → Prop} {I : List Instr → List Instr → Prop} [Seen S I]
    (ops : TableOps σ) {t t' : Tab} (h : TabLike S I t t') :
    renderRow ops t' = renderRow ops t := by
  funext x0 row y s
  simp only [renderRow, renderRowCells_like ops h]

omit hT k in
theorem renderHeader_like {σ : Type} {S : Styles → Styles → Prop} {I : List Instr → List Instr → Prop} [Seen S I]
    (ops : TableOps σ) {t t' : Tab} (h : TabLike S I t t') (x0 : ℚ) :
    ∀ (rows : List TRow) (y : ℚ) (s : σ), renderHeader ops t' x0 rows y s = renderHeader ops t x0 rows y s
  | [], _, _ => rfl
  | row :: rows, y, s => by
      simp only [renderHeader, renderRow_like ops h, renderHeader_like ops h x0 rows]

omit hT k in
theorem renderRows_like {σ : Type} {S : Styles → Styles → Prop} {I : List Instr → List Instr → Prop} [Seen S I]
    (ops : TableOps σ) {t t' : Tab} (h : TabLike S I t t')
    (rh : Int) (bottom x0 : ℚ) :
    ∀ (i : Nat) (rows : List TRow) (y : ℚ) (s : σ), renderRows ops t' rh bottom x0 i rows y s = renderRows ops t rh bottom x0 i rows y s
  | _, [], _, _ => rfl
  | i, row :: rows, y, s => by
      simp only [renderRows, h.maxCellHeight, h.rows, renderHeader_like ops h, renderRow_like ops h, renderRows_like ops h rh bottom x0 _ rows]

omit hT k in
theorem renderLaid_like {σ : Type} {S : Styles → Styles → Prop} {I : List Instr → List Instr → Prop} [Seen S I]
    (ops : TableOps σ) {t t' : Tab} (h : TabLike S I t t') :
    renderLaid ops t' = renderLaid ops t := by
  funext rh bottom s
  simp only [renderLaid, headHeight, h.rows, h.maxCellHeight, renderRows_like ops h]
  congr

theorem tableOps_alike {t t' : Tab} (h : TabLike Eq (AlikeAll (fun _ => SameEffect ctx.classes ctx'.classes) T) t t') :
    tableOps eng ctx' c t' = tableOps eng ctx c t := by
  simp only [tableOps, ← (h.cell _).styles, renderCell_alike hT k c (h.cell _).iss]

theorem renderTable_alike {st st' : Styled} (hst : SameEffect ctx.classes ctx'.classes st st') (rh : Int) {rows rows' : List TableRow}
    (h : AlikeRows (fun _ => SameEffect ctx.classes ctx'.classes) T rows rows') :
    renderTable eng ctx' c st' rh rows' = renderTable eng ctx c st rh rows := by
  simp only [renderTable]
  congr 1
  funext s
  have ht := transformTable_like (m := textHeightFnc eng ctx) (m' := textHeightFnc eng ctx')
    making_same
    (fun sty sty' iss iss' w s he hi => by rw [← he, textHeightFnc_alike hT k hi]) (Page.mk (eng.printableArea s.eng)) s.curr (hst.1 _)
    (by rw [hst.1]) h s
  revert ht
  cases transformTable (textHeightFnc eng ctx) ctx.classes (Page.mk (eng.printableArea s.eng)) s.curr st rows s <;>
    cases transformTable (textHeightFnc eng ctx') ctx'.classes (Page.mk (eng.printableArea s.eng)) s.curr st' rows' s <;> intro ht
  · rfl
  · exact ht.elim
  · exact ht.elim
  · rename_i a b
    obtain ⟨t, s1⟩ := a
    obtain ⟨t', s2⟩ := b
    obtain ⟨h1, rfl⟩ := ht
    have h2 := h1.columnCount
    simp only at h1 h2
    simp only [h2, tableOps_alike hT k c h1, renderLaid_like _ h1]

theorem processInstr_alike {i i' : Instr} (h : Alike (fun _ => SameEffect ctx.classes ctx'.classes) T i i') :
    processInstr eng ctx' c i' = processInstr eng ctx c i := by
  cases h with
  | font hst => simp only [processInstr, ← hst.1]
  | box hst hi => simp only [processInstr, renderTextBox_alike hT k c hst hi]
  | text hst hi => simp only [processInstr, renderText_alike hT k c hst hi]
  | table rh hst hr => simp only [processInstr, renderTable_alike hT k c hst rh hr]
  | image src hst => simp only [processInstr, renderImage_alike (eng := eng) k hst]
  | grid hst hr hp =>
    simp only [processInstr, renderGridM]
    rename_i rows rows' _ _
    have : rows'.map (·.2) = rows.map (·.2) := by
      clear hp
      induction hr with
      | nil => rfl
      | cons h _ ih => simp [h.2, ih]
    rw [this]
  | _ => rfl

theorem processInstrs_alike : ∀ {iss iss' : List Instr}, A iss iss' → processInstrs eng ctx' c iss' = processInstrs eng ctx c iss
  | _, _, .nil => rfl
  | _, _, .cons h hr => by simp only [processInstrs, processInstr_alike hT k c h, processInstrs_alike hr]

theorem callsAt_alike : ∀ n, callsAt eng ctx' n = callsAt eng ctx n
  | 0 => rfl
  | n + 1 => by
      simp only [callsAt, callsAt_alike n]
      have : ∀ {α : Type} (op : E → Prog E α), runWith eng ctx' (callsAt eng ctx n) op = runWith eng ctx (callsAt eng ctx n) op := by
        intro α op
        funext s
        simp only [runWith, callback, processInstrs_alike hT k _ k.header, processInstrs_alike hT k _ k.footer]
      simp only [this]

theorem process_alike (n : Nat) : process eng ctx' n = process eng ctx n := by
  have : ∀ {α : Type} (c : Calls E) (op : E → Prog E α), runWith eng ctx' c op = runWith eng ctx c op := by
    intro α c op
    funext s
    simp only [runWith, callback, processInstrs_alike hT k _ k.header, processInstrs_alike hT k _ k.footer]
  simp only [process, callsAt_alike hT k, processInstrs_alike hT k _ k.body, this]

end
end Verif.Proofs
