import Verif.Proofs.Process
import Verif.Model.Write
/-
Running the processor with two ways `c`, `c'` to call the engine: where the first one returns in a state that is good, the second one returns the
same.  Good states come from good states only (an example: a condition on all that was written).
-/
namespace Verif.Proofs
open Verif.Go Verif.Model Verif.Spec

variable {E : Type} {eng : Engine E} {G : E → Prop} {α β : Type}

/-- Where `m` returns in a good state, `m'` returns the same; and the state before was good. -/
def Ag (G : E → Prop) (m m' : M E α) : Prop := ∀ s a s', m s = some (a, s') → G s'.eng → m' s = some (a, s') ∧ G s.eng

theorem Ag.pure (a : α) : Ag G (pure a : M E α) (pure a) := by
  intro s b s' h hg
  refine ⟨h, ?_⟩
  simp only [Pure.pure, StateT.pure, Option.some.injEq, Prod.mk.injEq] at h
  exact h.2 ▸ hg

theorem Ag.none : Ag G (fun _ => none : M E α) (fun _ => none) := by
  intro s a s' h; exact absurd h (by simp)

theorem Ag.bind {m m' : M E α} {k k' : α → M E β} (h : Ag G m m') (hk : ∀ a, Ag G (k a) (k' a)) : Ag G (m >>= k) (m' >>= k') := by
  intro s b s' hr hg
  obtain ⟨a, s1, h1, h2⟩ := bind_some hr
  obtain ⟨h3, h4⟩ := hk a s1 b s' h2 hg
  obtain ⟨h5, h6⟩ := h s a s1 h1 h4
  exact ⟨by rw [bind_eq, h5]; exact h3, h6⟩

theorem Ag.get : Ag G (get : M E (PState E)) get := by
  intro s a s' h hg
  refine ⟨h, ?_⟩
  simp only [MonadState.get, getThe, MonadStateOf.get, StateT.get, Pure.pure, Option.some.injEq, Prod.mk.injEq] at h
  exact h.2 ▸ hg

theorem Ag.upd {f : E → E} (h : ∀ e, G (f e) → G e) : Ag G (upd f) (upd f) := by
  intro s a s' hr hg
  refine ⟨hr, ?_⟩
  simp only [Model.upd, Option.some.injEq, Prod.mk.injEq] at hr
  rw [← hr.2] at hg
  exact h _ hg

theorem Ag.ask (f : E → α) : Ag G (ask f) (ask f) := by
  intro s a s' hr hg
  refine ⟨hr, ?_⟩
  simp only [Model.ask, Option.some.injEq, Prod.mk.injEq] at hr
  exact hr.2 ▸ hg

theorem Ag.total {f : PState E → α × PState E} (h : ∀ s, G (f s).2.eng → G s.eng) : Ag G (total f) (total f) := by
  intro s a s' hr hg
  refine ⟨hr, ?_⟩
  simp only [Model.total, Option.some.injEq] at hr
  have := h s
  rw [hr] at this
  exact this hg

theorem Ag.ite {p : Prop} [Decidable p] {m m' k k' : M E α} (h1 : p → Ag G m m') (h2 : ¬ p → Ag G k k') :
    Ag G (if p then m else k) (if p then m' else k') := by
  split
  · exact h1 ‹_›
  · exact h2 ‹_›

/-- What good states have to go with. -/
structure Back (eng : Engine E) (G : E → Prop) (c c' : Calls E) : Prop where
  setX : ∀ x e, G (eng.setX x e) → G e
  setY : ∀ y e, G (eng.setY y e) → G e
  lineFeed : ∀ n e, G (eng.lineFeed n e) → G e
  font : ∀ f e, G (eng.changeFont f e) → G e
  color : ∀ col e, G (eng.setTextColor col e) → G e
  image : ∀ src x y w h e, G (eng.putImage src x y w h e) → G e
  draw : ∀ cmd e, G (eng.draw cmd e) → G e
  write : ∀ t, Ag G (c.writeText t) (c'.writeText t)
  add : Ag G c.addPage c'.addPage

section
variable {c c' : Calls E} {ctx : Ctx}

/-! ### Measuring -/

theorem linesLoop_back (h : Back eng G c c') {cs : Classes} {width : ℚ} {sty : Styles} : ∀ (iss : List Instr) (acc : List TextLine × TextLine)
    (s : PState E), G (linesLoop eng cs width sty iss acc s).2.eng → G s.eng := by
  intro iss
  induction iss with
  | nil => intro acc s hs; exact hs
  | cons is iss ih =>
    intro acc s hs
    cases is with
    | textBlock t =>
      simp only [linesLoop, textOf] at hs
      split at hs
      · exact ih _ _ hs
      · exact h.font _ _ (ih _ _ hs)
    | paragraph st t =>
      simp only [linesLoop, textOf] at hs
      split at hs
      · exact ih _ _ hs
      · exact h.font _ _ (ih _ _ hs)
    | lineBreak => exact ih _ _ hs
    | _ => exact ih _ _ hs

theorem linesLoopHyph_back (h : Back eng G c c') {hyph : Str → List Str} {cs : Classes} {width : ℚ} {sty : Styles} : ∀ (iss : List Instr)
    (acc : List TextLine × TextLine) (s : PState E), G (linesLoopHyph eng hyph cs width sty iss acc s).2.eng → G s.eng := by
  intro iss
  induction iss with
  | nil => intro acc s hs; exact hs
  | cons is iss ih =>
    intro acc s hs
    cases is with
    | textBlock t => exact h.font _ _ (ih _ _ hs)
    | paragraph st t => exact h.font _ _ (ih _ _ hs)
    | lineBreak => exact ih _ _ hs
    | _ => exact ih _ _ hs

theorem textLines_back (h : Back eng G c c') (cs : Classes) (iss : List Instr) (width : ℚ) (sty : Styles) (s : PState E)
    (hs : G (textLines eng cs iss width sty s).2.eng) : G s.eng := linesLoop_back h _ _ _ hs

theorem textLinesHyph_back (h : Back eng G c c') (hyph : Str → List Str) (cs : Classes) (iss : List Instr) (width : ℚ) (sty : Styles)
    (s : PState E) (hs : G (textLinesHyphenated eng hyph cs iss width sty s).2.eng) : G s.eng := linesLoopHyph_back h _ _ _ hs

theorem textHeight_back (h : Back eng G c c') (cs : Classes) (iss : List Instr) (width : ℚ) (sty : Styles) (s : PState E)
    (hs : G (textHeight eng cs iss width sty s).2.eng) : G s.eng := h.font _ _ (linesLoop_back h _ _ _ hs)

theorem textHeightFnc_back (h : Back eng G c c') (sty : Styles) (iss : List Instr) (width : ℚ) (s : PState E)
    (hs : G (textHeightFnc eng ctx sty iss width s).2.eng) : G s.eng := by
  unfold textHeightFnc at hs
  split at hs
  · exact h.font _ _ (linesLoopHyph_back h _ _ _ hs)
  · exact textHeight_back h _ _ _ _ _ hs

/-! ### Writing -/

theorem changeFontM_ag (h : Back eng G c c') (f : Font) : Ag G (changeFontM eng f) (changeFontM eng f) := by
  intro s a s' hr hg
  refine ⟨hr, ?_⟩
  simp only [changeFontM, Option.some.injEq, Prod.mk.injEq] at hr
  rw [← hr.2] at hg
  exact h.font _ _ hg

theorem resetStyles_ag (h : Back eng G c c') : Ag G (resetStyles eng) (resetStyles eng) := by
  intro s a s' hr hg
  refine ⟨hr, ?_⟩
  simp only [resetStyles, Option.some.injEq, Prod.mk.injEq] at hr
  rw [← hr.2] at hg
  exact h.font _ _ (h.color _ _ hg)

theorem drawBoxM_ag (h : Back eng G c c') (x0 y0 x1 y1 : ℚ) (sty : Styles) : Ag G (drawBoxM eng x0 y0 x1 y1 sty) (drawBoxM eng x0 y0 x1 y1 sty) := by
  refine Ag.upd fun e hs => ?_
  generalize drawBox x0 y0 x1 y1 sty = cmds at hs
  induction cmds generalizing e with
  | nil => exact hs
  | cons cmd cmds ih =>
    rw [List.foldl_cons] at hs
    exact h.draw cmd e (ih _ hs)

theorem writeItems_ag (h : Back eng G c c') : ∀ (items : List TextItem), Ag G (writeItems eng c items) (writeItems eng c' items)
  | [] => Ag.pure ()
  | i :: is => by
    unfold writeItems
    exact (changeFontM_ag h _).bind fun _ => (h.write _).bind fun _ => writeItems_ag h is

theorem writeSpaced_ag (h : Back eng G c c') (gap : ℚ) : ∀ (items : List TextItem), Ag G (writeSpaced eng c gap items) (writeSpaced eng c' gap items)
  | [] => Ag.pure ()
  | i :: is => by
    unfold writeSpaced
    exact (changeFontM_ag h _).bind fun _ => (h.write _).bind fun _ => (Ag.ask _).bind fun xy =>
      (Ag.upd (h.setX _)).bind fun _ => writeSpaced_ag h gap is

theorem alignLine_ag (h : Back eng G c c') (ha : Str) (x w : ℚ) (l : TextLine) : Ag G (alignLine eng ha x w l) (alignLine eng ha x w l) := by
  unfold alignLine
  exact Ag.ite (fun _ => Ag.upd (h.setX _)) fun _ => Ag.ite (fun _ => Ag.upd (h.setX _)) fun _ => Ag.ite (fun _ => Ag.upd (h.setX _)) fun _ => Ag.pure ()

theorem writeLines_ag (h : Back eng G c c') (sty : Styles) (x w : ℚ) : ∀ (lines : List TextLine),
    Ag G (writeLines eng c sty x w lines) (writeLines eng c' sty x w lines)
  | [] => Ag.pure ()
  | l :: ls => by
    unfold writeLines
    exact (alignLine_ag h _ _ _ _).bind fun _ => (writeItems_ag h _).bind fun _ =>
      (Ag.upd (h.lineFeed _)).bind fun _ => writeLines_ag h sty x w ls

theorem writeHyphLines_ag (h : Back eng G c c') (sty : Styles) (x w : ℚ) : ∀ (lines : List TextLine),
    Ag G (writeHyphLines eng c sty x w lines) (writeHyphLines eng c' sty x w lines)
  | [] => Ag.pure ()
  | l :: ls => by
    unfold writeHyphLines writeHyphLine
    exact (Ag.upd (h.setX _)).bind fun _ => (Ag.ite (fun _ => writeItems_ag h _) fun _ => writeSpaced_ag h _ _).bind fun _ =>
      (Ag.upd (h.lineFeed _)).bind fun _ => writeHyphLines_ag h sty x w ls

theorem writeTextFnc_ag (h : Back eng G c c') (iss : List Instr) (width : ℚ) (sty : Styles) :
    Ag G (writeTextFnc eng ctx c iss width sty) (writeTextFnc eng ctx c' iss width sty) := by
  unfold writeTextFnc
  refine Ag.ite (fun _ => ?_) fun _ => ?_
  · unfold writeTextHyphenated
    exact (Ag.upd (h.font _)).bind fun _ => (Ag.upd (h.color _)).bind fun _ =>
      (Ag.total (textLinesHyph_back h _ _ _ _ _)).bind fun lines => (Ag.ask _).bind fun xy => writeHyphLines_ag h _ _ _ _
  · unfold Model.writeText
    exact (Ag.upd (h.font _)).bind fun _ => (Ag.upd (h.color _)).bind fun _ =>
      (Ag.total (textLines_back h _ _ _ _)).bind fun lines => (Ag.ask _).bind fun xy => writeLines_ag h _ _ _ _

theorem renderText_ag (h : Back eng G c c') (st : Styled) (iss : List Instr) :
    Ag G (renderText eng ctx c st iss) (renderText eng ctx c' st iss) := by
  unfold renderText
  exact Ag.ite (fun _ => Ag.pure ()) fun _ => Ag.get.bind fun _ => (Ag.ask _).bind fun _ => (writeTextFnc_ag h _ _ _).bind fun _ => resetStyles_ag h

theorem boxHeight_ag (h : Back eng G c c') (sty : Styles) (iss : List Instr) (width : ℚ) :
    Ag G (boxHeight eng ctx sty iss width) (boxHeight eng ctx sty iss width) := by
  unfold boxHeight
  exact Ag.ite (fun _ => Ag.ite (fun _ => Ag.total fun s hs => textHeightFnc_back h _ _ _ _ hs) fun _ => Ag.ask _) fun _ => Ag.pure _

theorem boxStart_ag (h : Back eng G c c') (height : ℚ) : Ag G (boxStart eng c height) (boxStart eng c' height) := by
  unfold boxStart
  exact Ag.get.bind fun s => Ag.ite (fun _ => h.add.bind fun _ => Ag.ask _) fun _ => Ag.pure _

theorem renderTextBox_ag (h : Back eng G c c') (st : Styled) (iss : List Instr) (pa : Area) :
    Ag G (renderTextBox eng ctx c st iss pa) (renderTextBox eng ctx c' st iss pa) := by
  unfold renderTextBox
  exact Ag.get.bind fun s => (boxHeight_ag h _ _ _).bind fun _ => (boxStart_ag h _).bind fun _ => (drawBoxM_ag h _ _ _ _ _).bind fun _ =>
    (Ag.upd (h.setY _)).bind fun _ => (Ag.upd (h.setX _)).bind fun _ =>
    Ag.ite (fun _ => (writeTextFnc_ag h _ _ _).bind fun _ => (Ag.upd (h.setY _)).bind fun _ => resetStyles_ag h)
      fun _ => (Ag.pure _).bind fun _ => (Ag.upd (h.setY _)).bind fun _ => resetStyles_ag h

theorem textBoxHeight_ag (h : Back eng G c c') (st : Styled) (iss : List Instr) (pa : Area) :
    Ag G (textBoxHeight eng ctx st iss pa) (textBoxHeight eng ctx st iss pa) := by
  unfold textBoxHeight
  exact Ag.get.bind fun s => (boxHeight_ag h _ _ _).bind fun _ => (resetStyles_ag h).bind fun _ => Ag.pure _

theorem renderImage_ag (h : Back eng G c c') (st : Styled) (source : Str) (pa : Area) :
    Ag G (renderImage eng ctx st source pa) (renderImage eng ctx st source pa) := by
  unfold renderImage
  simp only
  split
  · exact Ag.pure ()
  · intro s a s' hr hg
    refine ⟨hr, ?_⟩
    simp only [Option.some.injEq, Prod.mk.injEq] at hr
    rw [← hr.2] at hg
    exact h.image _ _ _ _ _ _ hg

theorem renderCellItems_ag (h : Back eng G c c') (v : Str) (pa : Area) : ∀ (iss : List Instr),
    Ag G (renderCellItems eng ctx c v pa iss) (renderCellItems eng ctx c' v pa iss) := by
  intro iss
  induction iss with
  | nil => exact Ag.pure ()
  | cons is iss ih =>
    cases is with
    | box st b =>
      exact (textBoxHeight_ag h _ _ _).bind fun _ => (Ag.upd (h.setY _)).bind fun _ => (renderTextBox_ag h _ _ _).bind fun _ => ih
    | image st src => exact (Ag.upd (h.setY _)).bind fun _ => (renderImage_ag h _ _ _).bind fun _ => ih
    | _ => exact ih

theorem renderCell_ag (h : Back eng G c c') (pa : Area) (sty : Styles) (iss : List Instr) :
    Ag G (renderCell eng ctx c pa sty iss) (renderCell eng ctx c' pa sty iss) := by
  have ht : Ag G (renderCellText eng ctx c pa sty iss) (renderCellText eng ctx c' pa sty iss) :=
    (Ag.total (textHeight_back h _ _ _ _)).bind fun _ => (Ag.upd (h.setY _)).bind fun _ => (Ag.upd (h.setX _)).bind fun _ => writeTextFnc_ag h _ _ _
  unfold renderCell
  exact (drawBoxM_ag h _ _ _ _ _).bind fun _ => Ag.ite (fun _ => ht.bind fun _ => (Ag.upd (h.setX _)).bind fun _ => renderCellItems_ag h _ _ _)
    fun _ => (Ag.pure _).bind fun _ => (Ag.upd (h.setX _)).bind fun _ => renderCellItems_ag h _ _ _

/-! ### Tables -/

theorem minHeightsRow_back {m : Measure (PState E)} (hm : ∀ sty iss w s, G (m sty iss w s).2.eng → G s.eng) : ∀ (ids : List Nat) (t : Tab) (s : PState E),
    G (minHeightsRow m ids t s).2.eng → G s.eng
  | [], _, _, hs => hs
  | id :: ids, t, s, hs => by
    have h1 : G (assignCellMinHeight m id t s).2.eng := minHeightsRow_back hm ids _ _ hs
    unfold assignCellMinHeight at h1
    simp only at h1
    split at h1
    · exact h1
    · split at h1
      · exact h1
      · exact hm _ _ _ _ h1

theorem minHeights_back {m : Measure (PState E)} (hm : ∀ sty iss w s, G (m sty iss w s).2.eng → G s.eng) : ∀ (rs : List TRow) (t : Tab) (s : PState E),
    G (minHeights m rs t s).2.eng → G s.eng
  | [], _, _, hs => hs
  | r :: rs, t, s, hs => minHeightsRow_back hm r.cells t s (minHeights_back hm rs _ _ hs)

theorem transformTable_back {m : Measure (PState E)} (hm : ∀ sty iss w s, G (m sty iss w s).2.eng → G s.eng) {cs : Classes} {page : Page} {curr : Styles}
    {st : Styled} {rows : List TableRow} {s s' : PState E} {t : Tab} (h : transformTable m cs page curr st rows s = some (t, s')) (hs : G s'.eng) :
    G s.eng := by
  unfold transformTable at h
  simp only at h
  split at h
  · exact absurd h (by simp)
  · split at h
    · exact absurd h (by simp)
    · simp only [Option.some.injEq] at h
      have : s' = (minHeights m _ _ s).2 := (congrArg Prod.snd h).symm
      rw [this] at hs
      exact minHeights_back hm _ _ _ hs

/-- The same for the operations of a table. -/
structure BackOps (ops ops' : TableOps (PState E)) (G : E → Prop) : Prop where
  getXY : ops'.getXY = ops.getXY
  prevent : ops'.prevent = ops.prevent
  setX : ops'.setX = ops.setX
  setY : ops'.setY = ops.setY
  setX_back : ∀ x s, G (ops.setX x s).eng → G s.eng
  setY_back : ∀ y s, G (ops.setY y s).eng → G s.eng
  cell : ∀ pa id s s', ops.renderCell pa id s = some s' → G s'.eng → ops'.renderCell pa id s = some s' ∧ G s.eng
  add : ∀ s s', ops.addPage s = some s' → G s'.eng → ops'.addPage s = some s' ∧ G s.eng

theorem renderRowCells_ag {ops ops' : TableOps (PState E)} (h : BackOps ops ops' G) {t : Tab} {y : ℚ} : ∀ (ids : List Nat) (x : ℚ) (s s' : PState E),
    renderRowCells ops t y x ids s = some s' → G s'.eng → renderRowCells ops' t y x ids s = some s' ∧ G s.eng
  | [], x, s, s', hr, hg => by
    refine ⟨hr, ?_⟩
    simp only [renderRowCells, Option.some.injEq] at hr
    exact hr ▸ hg
  | id :: ids, x, s, s', hr, hg => by
    unfold renderRowCells at hr ⊢
    simp only at hr ⊢
    split at hr
    · rename_i hc
      rw [if_pos hc]
      exact renderRowCells_ag h ids _ _ _ hr hg
    · rename_i hc
      rw [if_neg hc]
      cases hcell : ops.renderCell { x0 := x, y0 := y, x1 := x + (t.dim id).1, y1 := y + (t.dim id).2 } id s with
      | none => rw [hcell] at hr; exact absurd hr (by simp)
      | some s1 =>
        rw [hcell] at hr
        obtain ⟨h1, h2⟩ := renderRowCells_ag h ids _ _ _ hr hg
        obtain ⟨h3, h4⟩ := h.cell _ _ _ _ hcell h2
        rw [h3]
        exact ⟨h1, h4⟩

theorem renderRow_ag {ops ops' : TableOps (PState E)} (h : BackOps ops ops' G) {t : Tab} {x0 y : ℚ} {row : TRow} {s : PState E} {q : ℚ × PState E}
    (hr : renderRow ops t x0 row y s = some q) (hg : G q.2.eng) : renderRow ops' t x0 row y s = some q ∧ G s.eng := by
  unfold renderRow at hr ⊢
  cases h1 : renderRowCells ops t y x0 row.cells s with
  | none => rw [h1] at hr; exact absurd hr (by simp)
  | some s1 =>
    rw [h1] at hr
    have h2 : G s1.eng := by
      simp only [Option.some.injEq] at hr
      rw [← hr] at hg
      exact h.setX_back _ _ hg
    obtain ⟨h3, h4⟩ := renderRowCells_ag h _ _ _ _ h1 h2
    rw [h3, h.setX]
    exact ⟨hr, h4⟩

theorem renderHeader_ag {ops ops' : TableOps (PState E)} (h : BackOps ops ops' G) {t : Tab} {x0 : ℚ} : ∀ (rows : List TRow) (y : ℚ) (s : PState E)
    (q : ℚ × PState E), renderHeader ops t x0 rows y s = some q → G q.2.eng → renderHeader ops' t x0 rows y s = some q ∧ G s.eng
  | [], y, s, q, hr, hg => by
    refine ⟨hr, ?_⟩
    simp only [renderHeader, Option.some.injEq] at hr
    rw [← hr] at hg
    exact hg
  | r :: rs, y, s, q, hr, hg => by
    unfold renderHeader at hr ⊢
    cases h1 : renderRow ops t x0 r y s with
    | none => rw [h1] at hr; exact absurd hr (by simp)
    | some q1 =>
      rw [h1] at hr
      obtain ⟨h2, h3⟩ := renderHeader_ag h rs _ _ _ hr hg
      obtain ⟨h4, h5⟩ := renderRow_ag h h1 h3
      rw [h4]
      exact ⟨h2, h5⟩

theorem renderRows_ag {ops ops' : TableOps (PState E)} (h : BackOps ops ops' G) {t : Tab} {rh : Int} {bottom x0 : ℚ} : ∀ (rows : List TRow) (i : Nat)
    (y : ℚ) (s : PState E) (q : ℚ × PState E), renderRows ops t rh bottom x0 i rows y s = some q → G q.2.eng →
    renderRows ops' t rh bottom x0 i rows y s = some q ∧ G s.eng
  | [], i, y, s, q, hr, hg => by
    refine ⟨hr, ?_⟩
    simp only [renderRows, Option.some.injEq] at hr
    rw [← hr] at hg
    exact hg
  | r :: rs, i, y, s, q, hr, hg => by
    have fin : ∀ (y2 : ℚ) (s2 : PState E) (q2 : ℚ × PState E), renderRow ops t x0 r y2 s2 = some q2 →
        renderRows ops t rh bottom x0 (i + 1) rs q2.1 q2.2 = some q → renderRow ops' t x0 r y2 s2 = some q2 ∧
        renderRows ops' t rh bottom x0 (i + 1) rs q2.1 q2.2 = some q ∧ G s2.eng := by
      intro y2 s2 q2 h1 hr
      obtain ⟨h2, h3⟩ := renderRows_ag h rs _ _ _ _ hr hg
      obtain ⟨h4, h5⟩ := renderRow_ag h h1 h3
      exact ⟨h4, h2, h5⟩
    unfold renderRows at hr ⊢
    simp only [h.prevent, h.getXY] at hr ⊢
    by_cases hc : (!ops.prevent s) = true ∧ y + t.maxCellHeight r > bottom
    · simp only [if_pos hc] at hr ⊢
      cases h1 : ops.addPage s with
      | none => rw [h1] at hr; exact absurd hr (by simp)
      | some s1 =>
        simp only [h1] at hr
        by_cases hh : i > 0 ∧ rh > 0
        · simp only [if_pos hh] at hr ⊢
          cases h4 : renderHeader ops t x0 (t.rows.take rh.toNat) (ops.getXY s1).2 s1 with
          | none => rw [h4] at hr; exact absurd hr (by simp)
          | some q1 =>
            simp only [h4] at hr
            cases hq : renderRow ops t x0 r q1.1 q1.2 with
            | none => rw [hq] at hr; exact absurd hr (by simp)
            | some q2 =>
              rw [hq] at hr
              obtain ⟨g1, g2, g3⟩ := fin q1.1 q1.2 q2 hq hr
              obtain ⟨h5, h6⟩ := renderHeader_ag h _ _ _ _ h4 g3
              obtain ⟨h7, h8⟩ := h.add s s1 h1 h6
              simp only [h7, h5, g1]
              exact ⟨g2, h8⟩
        · simp only [if_neg hh] at hr ⊢
          cases hq : renderRow ops t x0 r (ops.getXY s1).2 s1 with
          | none => rw [hq] at hr; exact absurd hr (by simp)
          | some q2 =>
            rw [hq] at hr
            obtain ⟨g1, g2, g3⟩ := fin (ops.getXY s1).2 s1 q2 hq hr
            obtain ⟨h7, h8⟩ := h.add s s1 h1 g3
            simp only [h7, g1]
            exact ⟨g2, h8⟩
    · simp only [if_neg hc] at hr ⊢
      cases hq : renderRow ops t x0 r y s with
      | none => rw [hq] at hr; exact absurd hr (by simp)
      | some q2 =>
        rw [hq] at hr
        obtain ⟨g1, g2, g3⟩ := fin y s q2 hq hr
        rw [g1]
        exact ⟨g2, g3⟩

theorem renderLaid_ag {ops ops' : TableOps (PState E)} (h : BackOps ops ops' G) {t : Tab} {rh : Int} {bottom : ℚ} {s s' : PState E}
    (hr : renderLaid ops t rh bottom s = some s') (hg : G s'.eng) : renderLaid ops' t rh bottom s = some s' ∧ G s.eng := by
  have fin : ∀ (x0 y1 : ℚ) (s1 : PState E) (q : ℚ × PState E), renderRows ops t rh bottom x0 0 t.rows y1 s1 = some q →
      ops.setY q.1 q.2 = s' → renderRows ops' t rh bottom x0 0 t.rows y1 s1 = some q ∧ G s1.eng := by
    intro x0 y1 s1 q h1 hr
    exact renderRows_ag h _ _ _ _ _ h1 (h.setY_back q.1 q.2 (by rw [hr]; exact hg))
  unfold renderLaid at hr ⊢
  simp only [h.prevent, h.getXY, h.setY] at hr ⊢
  by_cases hc : (!ops.prevent s) = true ∧ (ops.getXY s).2 + headHeight t rh > bottom
  · simp only [if_pos hc] at hr ⊢
    cases h1 : ops.addPage s with
    | none => rw [h1] at hr; exact absurd hr (by simp)
    | some s1 =>
      simp only [h1] at hr
      cases hq : renderRows ops t rh bottom (ops.getXY s).1 0 t.rows (ops.getXY s1).2 s1 with
      | none => rw [hq] at hr; exact absurd hr (by simp)
      | some q2 =>
        rw [hq] at hr
        obtain ⟨g1, g2⟩ := fin _ (ops.getXY s1).2 s1 q2 hq (by simpa using hr)
        obtain ⟨h2, h3⟩ := h.add s s1 h1 g2
        simp only [h2, g1]
        exact ⟨hr, h3⟩
  · simp only [if_neg hc] at hr ⊢
    cases hq : renderRows ops t rh bottom (ops.getXY s).1 0 t.rows (ops.getXY s).2 s with
    | none => rw [hq] at hr; exact absurd hr (by simp)
    | some q2 =>
      rw [hq] at hr
      obtain ⟨g1, g2⟩ := fin _ (ops.getXY s).2 s q2 hq (by simpa using hr)
      rw [g1]
      exact ⟨hr, g2⟩

theorem backOps (h : Back eng G c c') (t : Tab) : BackOps (tableOps eng ctx c t) (tableOps eng ctx c' t) G where
  getXY := rfl
  prevent := rfl
  setX := rfl
  setY := rfl
  setX_back := fun x s hs => h.setX x s.eng hs
  setY_back := fun y s hs => h.setY y s.eng hs
  cell pa id s s' hr hg := by
    obtain ⟨q, hq, e⟩ := Option.map_eq_some_iff.mp hr
    obtain ⟨h1, h2⟩ := renderCell_ag h pa _ _ s q.1 q.2 hq (by rw [e]; exact hg)
    exact ⟨Option.map_eq_some_iff.mpr ⟨q, h1, e⟩, h2⟩
  add := by
    intro s s' hr hg
    obtain ⟨q, hq, e⟩ := Option.map_eq_some_iff.mp hr
    obtain ⟨h1, h2⟩ := h.add s q.1 q.2 hq (by rw [e]; exact hg)
    exact ⟨Option.map_eq_some_iff.mpr ⟨q, h1, e⟩, h2⟩

theorem renderTable_ag (h : Back eng G c c') (st : Styled) (rh : Int) (rows : List TableRow) :
    Ag G (renderTable eng ctx c st rh rows) (renderTable eng ctx c' st rh rows) := by
  intro s a s' hr hg
  unfold renderTable at hr ⊢
  rw [bind_eq] at hr ⊢
  simp only [MonadState.get, getThe, MonadStateOf.get, StateT.get, Pure.pure, Option.bind_some] at hr ⊢
  cases ht : transformTable (textHeightFnc eng ctx) ctx.classes (Page.mk (eng.printableArea s.eng)) s.curr st rows s with
  | none => rw [ht] at hr; exact absurd hr (by simp)
  | some q =>
    obtain ⟨t, s1⟩ := q
    simp only [ht] at hr ⊢
    rw [bind_eq] at hr ⊢
    simp only [set, StateT.set, Pure.pure, Option.bind_some] at hr ⊢
    have key : Ag G (if t.columnCount = 0 then resetStyles eng else do
        let pa ← ask eng.printableArea
        (fun s => (renderLaid (tableOps eng ctx c t) t rh pa.y1 s).map fun s' => ((), s'))
        resetStyles eng) (if t.columnCount = 0 then resetStyles eng else do
        let pa ← ask eng.printableArea
        (fun s => (renderLaid (tableOps eng ctx c' t) t rh pa.y1 s).map fun s' => ((), s'))
        resetStyles eng) := by
      refine Ag.ite (fun _ => resetStyles_ag h) fun _ => (Ag.ask _).bind fun pa => Ag.bind ?_ fun _ => resetStyles_ag h
      intro s2 b s3 hr hg
      obtain ⟨s4, h4, e⟩ := Option.map_eq_some_iff.mp hr
      simp only [Prod.mk.injEq, true_and] at e
      obtain ⟨h5, h6⟩ := renderLaid_ag (backOps h t) h4 (by rw [e]; exact hg)
      exact ⟨by simp only [h5, Option.map_some, e], h6⟩
    obtain ⟨h1, h2⟩ := key s1 a s' hr hg
    exact ⟨h1, transformTable_back (fun sty iss w s hs => textHeightFnc_back h sty iss w s hs) ht h2⟩

/-! ### Instructions -/

theorem processInstr_ag (h : Back eng G c c') (i : Instr) : Ag G (processInstr eng ctx c i) (processInstr eng ctx c' i) := by
  cases i with
  | font st => exact Ag.get.bind fun s => changeFontM_ag h _
  | lineFeed n => exact Ag.upd (h.lineFeed _)
  | setX x => exact Ag.upd (h.setX _)
  | setY y => exact Ag.upd (h.setY _)
  | box st iss => exact (Ag.ask _).bind fun pa => renderTextBox_ag h _ _ _
  | text st iss => exact renderText_ag h _ _
  | table st rh rows => exact renderTable_ag h _ _ _
  | image st src => exact (Ag.ask _).bind fun pa => renderImage_ag h _ _ _
  | grid st rows parts =>
    simp only [processInstr, renderGridM]
    split
    · exact Ag.none
    · exact Ag.pure ()
  | pageBreak => exact h.add
  | _ => exact Ag.pure ()

theorem processInstrs_ag (h : Back eng G c c') : ∀ (iss : List Instr), Ag G (processInstrs eng ctx c iss) (processInstrs eng ctx c' iss)
  | [] => Ag.pure ()
  | i :: is => by
    unfold processInstrs
    exact (processInstr_ag h i).bind fun _ => processInstrs_ag h is

theorem callback_ag (h : Back eng G c c') (iss : List Instr) : Ag G (callback eng ctx c iss) (callback eng ctx c' iss) := by
  intro s a s' hr hg
  rw [callback_eq] at hr ⊢
  obtain ⟨q, hq, he⟩ := Option.map_eq_some_iff.mp hr
  have hq' : G q.2.eng := by
    simp only [Prod.mk.injEq, true_and] at he
    rw [← he] at hg
    exact h.setX _ _ (h.setY _ _ hg)
  obtain ⟨h2, h3⟩ := processInstrs_ag h iss _ q.1 q.2 hq hq'
  exact ⟨Option.map_eq_some_iff.mpr ⟨q, h2, he⟩, h3⟩

end

/-! ### Engine calls -/

/-- Going on from `e`, a good state later means a good state now. -/
def ProgBack (G : E → Prop) (e : E) : Prog E α → Prop
  | .done e' _ => G e' → G e
  | .header e' k => (G e' → G e) ∧ ∀ e2, ProgBack G e2 (k e2)
  | .footer e' k => (G e' → G e) ∧ ∀ e2, ProgBack G e2 (k e2)

theorem runProg_ag {hdr hdr' ftr ftr' : M E Unit} (hh : Ag G hdr hdr') (hf : Ag G ftr ftr') : ∀ (pr : Prog E α) (e : E), ProgBack G e pr →
    ∀ s a s', runProg hdr ftr pr s = some (a, s') → G s'.eng → runProg hdr' ftr' pr s = some (a, s') ∧ G e
  | .done e' a', e, hp => by
    intro s a s' hr hg
    refine ⟨hr, ?_⟩
    simp only [runProg, Option.some.injEq, Prod.mk.injEq] at hr
    rw [← hr.2] at hg
    exact hp hg
  | .header e' k, e, hp => by
    intro s a s' hr hg
    unfold runProg at hr ⊢
    cases h1 : hdr { s with eng := e' } with
    | none => rw [h1] at hr; exact absurd hr (by simp)
    | some q =>
      rw [h1] at hr
      obtain ⟨h2, h3⟩ := runProg_ag hh hf (k q.2.eng) q.2.eng (hp.2 _) q.2 a s' hr hg
      obtain ⟨h4, h5⟩ := hh _ q.1 q.2 h1 h3
      rw [h4]
      exact ⟨h2, hp.1 h5⟩
  | .footer e' k, e, hp => by
    intro s a s' hr hg
    unfold runProg at hr ⊢
    cases h1 : ftr { s with eng := e' } with
    | none => rw [h1] at hr; exact absurd hr (by simp)
    | some q =>
      rw [h1] at hr
      obtain ⟨h2, h3⟩ := runProg_ag hh hf (k q.2.eng) q.2.eng (hp.2 _) q.2 a s' hr hg
      obtain ⟨h4, h5⟩ := hf _ q.1 q.2 h1 h3
      rw [h4]
      exact ⟨h2, hp.1 h5⟩

end Verif.Proofs
