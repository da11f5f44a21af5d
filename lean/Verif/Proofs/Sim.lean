import Verif.Spec.Joined
import Verif.Proofs.Laid
import Verif.Proofs.Origin
/-
Running the processor with two engines whose states are related: whatever it does with the first one, it does with the second one.
(Used for C108.)
-/
namespace Verif.Proofs
open Verif.Go Verif.Model Verif.Spec

variable {E E' : Type} {eng : Engine E} {eng' : Engine E'} {Q : E → E' → Prop} {T : Str → Prop} {α β : Type}

/-- Related states of the processor. -/
def PRel (Q : E → E' → Prop) (s : PState E) (u : PState E') : Prop := Q s.eng u.eng ∧ u.curr = s.curr ∧ u.prevent = s.prevent

/-- Whatever `m` returns, `m'` returns in a related state. -/
def Sim (Q : E → E' → Prop) (m : M E α) (m' : M E' α) : Prop :=
  ∀ s u, PRel Q s u → ∀ a s', m s = some (a, s') → ∃ u', m' u = some (a, u') ∧ PRel Q s' u'

theorem Sim.pure (a : α) : Sim Q (pure a : M E α) (pure a) := by
  intro s u hs b s' h
  simp only [Pure.pure, StateT.pure, Option.some.injEq, Prod.mk.injEq] at h
  exact ⟨u, by rw [← h.1]; rfl, h.2 ▸ hs⟩

theorem Sim.none {m' : M E' α} : Sim Q (fun _ => none : M E α) m' := by
  intro s u _ a s' h; exact absurd h (by simp)

theorem Sim.bind {m : M E α} {m' : M E' α} {k : α → M E β} {k' : α → M E' β} (h : Sim Q m m') (hk : ∀ a, Sim Q (k a) (k' a)) :
    Sim Q (m >>= k) (m' >>= k') := by
  intro s u hs b s' hr
  obtain ⟨a, s1, h1, h2⟩ := bind_some hr
  obtain ⟨u1, h3, h4⟩ := h s u hs a s1 h1
  obtain ⟨u2, h5, h6⟩ := hk a s1 u1 h4 b s' h2
  exact ⟨u2, by rw [bind_eq, h3]; exact h5, h6⟩

theorem Sim.get {k : PState E → M E β} {k' : PState E' → M E' β} (hk : ∀ s u, PRel Q s u → Sim Q (k s) (k' u)) :
    Sim Q (get >>= k) (get >>= k') := by
  intro s u hs b s' hr
  obtain ⟨a, s1, h1, h2⟩ := bind_some hr
  simp only [MonadState.get, getThe, MonadStateOf.get, StateT.get, Pure.pure, Option.some.injEq, Prod.mk.injEq] at h1
  obtain ⟨rfl, rfl⟩ := h1
  exact hk _ _ hs _ _ hs b s' h2

theorem Sim.upd {f : E → E} {f' : E' → E'} (h : ∀ e e', Q e e' → Q (f e) (f' e')) : Sim Q (upd f) (upd f') := by
  intro s u hs a s' hr
  simp only [Model.upd, Option.some.injEq, Prod.mk.injEq] at hr
  rw [← hr.2]
  exact ⟨_, rfl, h _ _ hs.1, hs.2.1, hs.2.2⟩

theorem Sim.ask {f : E → α} {f' : E' → α} (h : ∀ e e', Q e e' → f' e' = f e) : Sim Q (ask f) (ask f') := by
  intro s u hs a s' hr
  simp only [Model.ask, Option.some.injEq, Prod.mk.injEq] at hr
  refine ⟨u, ?_, hr.2 ▸ hs⟩
  simp only [Model.ask, h _ _ hs.1, hr.1]

theorem Sim.total {f : PState E → α × PState E} {f' : PState E' → α × PState E'}
    (h : ∀ s u, PRel Q s u → (f' u).1 = (f s).1 ∧ PRel Q (f s).2 (f' u).2) : Sim Q (total f) (total f') := by
  intro s u hs a s' hr
  simp only [Model.total, Option.some.injEq] at hr
  obtain ⟨h1, h2⟩ := h s u hs
  rw [hr] at h1 h2
  exact ⟨(f' u).2, congrArg some (Prod.ext h1 rfl), h2⟩

theorem Sim.ite {p : Prop} [Decidable p] {m k : M E α} {m' k' : M E' α} (h1 : p → Sim Q m m') (h2 : ¬ p → Sim Q k k') :
    Sim Q (if p then m else k) (if p then m' else k') := by
  split
  · exact h1 ‹_›
  · exact h2 ‹_›

/-- What has to hold of the engines. -/
structure Two (eng : Engine E) (eng' : Engine E') (Q : E → E' → Prop) (T : Str → Prop) (c : Calls E) (c' : Calls E') : Prop where
  getXY : ∀ e e', Q e e' → eng'.getXY e' = eng.getXY e
  area : ∀ e e', Q e e' → eng'.printableArea e' = eng.printableArea e
  height : ∀ e e', Q e e' → eng'.pageHeight e' = eng.pageHeight e
  margins : ∀ e e', Q e e' → eng'.margins e' = eng.margins e
  fontHeight : ∀ e e', Q e e' → eng'.fontHeight e' = eng.fontHeight e
  textWidth : ∀ t e e', Q e e' → eng'.textWidth t e' = eng.textWidth t e
  norm : ∀ t e e', T t → Q e e' → norm eng' e' t = norm eng e t
  setX : ∀ x e e', Q e e' → Q (eng.setX x e) (eng'.setX x e')
  setY : ∀ y e e', Q e e' → Q (eng.setY y e) (eng'.setY y e')
  lineFeed : ∀ n e e', Q e e' → Q (eng.lineFeed n e) (eng'.lineFeed n e')
  font : ∀ f e e', Q e e' → Q (eng.changeFont f e) (eng'.changeFont f e')
  color : ∀ col e e', Q e e' → Q (eng.setTextColor col e) (eng'.setTextColor col e')
  image : ∀ src x y w h e e', Q e e' → Q (eng.putImage src x y w h e) (eng'.putImage src x y w h e')
  draw : ∀ cmd e e', Q e e' → Q (eng.draw cmd e) (eng'.draw cmd e')
  write : ∀ t, Sim Q (c.writeText t) (c'.writeText t)
  add : Sim Q c.addPage c'.addPage

/-- All texts of the instructions are fine. -/
def TextsOk (T : Str → Prop) (iss : List Instr) : Prop := ∀ i ∈ iss, ∀ t, HasText t i → T t

theorem textsOk_tail {i : Instr} {iss : List Instr} (h : TextsOk T (i :: iss)) : TextsOk T iss := fun j hj => h j (List.mem_cons_of_mem _ hj)

theorem textsOk_head {i : Instr} {iss : List Instr} (h : TextsOk T (i :: iss)) {t : Str} (ht : HasText t i) : T t := h i (by simp) t ht

section
variable {c : Calls E} {c' : Calls E'} {ctx : Ctx}

/-! ### Measuring -/

theorem changeFont_two (h : Two eng eng' Q T c c') (f : Font) {s : PState E} {u : PState E'} (hs : PRel Q s u) :
    PRel Q (Model.changeFont eng f s) (Model.changeFont eng' f u) :=
  ⟨h.font _ _ _ hs.1, by simp only [Model.changeFont, hs.2.1], hs.2.2⟩

theorem linesLoop_two (h : Two eng eng' Q T c c') {cs : Classes} {width : ℚ} {sty : Styles} : ∀ (iss : List Instr), TextsOk T iss →
    ∀ (acc : List TextLine × TextLine) (s : PState E) (u : PState E'), PRel Q s u →
    (linesLoop eng' cs width sty iss acc u).1 = (linesLoop eng cs width sty iss acc s).1 ∧
    PRel Q (linesLoop eng cs width sty iss acc s).2 (linesLoop eng' cs width sty iss acc u).2 := by
  intro iss
  induction iss with
  | nil => intro _ acc s u hs; exact ⟨rfl, hs⟩
  | cons is iss ih =>
    intro hT acc s u hs
    have ih := ih (textsOk_tail hT)
    have key : ∀ (t : Str) (isty : Styles), T t →
        (if norm eng' u.eng t = [] then linesLoop eng' cs width sty iss acc u else linesLoop eng' cs width sty iss ((split 32 (norm eng' u.eng t)).foldl
          (wrapWord (fun w => eng'.textWidth w (Model.changeFont eng' isty.font u).eng) width isty) acc) (Model.changeFont eng' isty.font u)).1 =
        (if norm eng s.eng t = [] then linesLoop eng cs width sty iss acc s else linesLoop eng cs width sty iss ((split 32 (norm eng s.eng t)).foldl
          (wrapWord (fun w => eng.textWidth w (Model.changeFont eng isty.font s).eng) width isty) acc) (Model.changeFont eng isty.font s)).1 ∧
        PRel Q (if norm eng s.eng t = [] then linesLoop eng cs width sty iss acc s else linesLoop eng cs width sty iss ((split 32 (norm eng s.eng t)).foldl
          (wrapWord (fun w => eng.textWidth w (Model.changeFont eng isty.font s).eng) width isty) acc) (Model.changeFont eng isty.font s)).2
        (if norm eng' u.eng t = [] then linesLoop eng' cs width sty iss acc u else linesLoop eng' cs width sty iss ((split 32 (norm eng' u.eng t)).foldl
          (wrapWord (fun w => eng'.textWidth w (Model.changeFont eng' isty.font u).eng) width isty) acc) (Model.changeFont eng' isty.font u)).2 := by
      intro t isty ht
      have hf := changeFont_two h isty.font hs
      have hw : (fun w => eng'.textWidth w (Model.changeFont eng' isty.font u).eng) = fun w => eng.textWidth w (Model.changeFont eng isty.font s).eng :=
        funext fun w => h.textWidth w _ _ hf.1
      rw [h.norm t _ _ ht hs.1, hw]
      split
      · exact ih acc s u hs
      · exact ih _ _ _ hf
    cases is with
    | textBlock t => exact key t sty (textsOk_head hT .textBlock)
    | paragraph st t => exact key t (st.mutatedStyles cs sty) (textsOk_head hT .paragraph)
    | lineBreak => exact ih _ _ _ hs
    | _ => exact ih _ _ _ hs

theorem linesLoopHyph_two (h : Two eng eng' Q T c c') {hyph : Str → List Str} {cs : Classes} {width : ℚ} {sty : Styles} : ∀ (iss : List Instr),
    TextsOk T iss → ∀ (acc : List TextLine × TextLine) (s : PState E) (u : PState E'), PRel Q s u →
    (linesLoopHyph eng' hyph cs width sty iss acc u).1 = (linesLoopHyph eng hyph cs width sty iss acc s).1 ∧
    PRel Q (linesLoopHyph eng hyph cs width sty iss acc s).2 (linesLoopHyph eng' hyph cs width sty iss acc u).2 := by
  intro iss
  induction iss with
  | nil => intro _ acc s u hs; exact ⟨rfl, hs⟩
  | cons is iss ih =>
    intro hT acc s u hs
    have ih := ih (textsOk_tail hT)
    have key : ∀ (t : Str) (isty : Styles), T t →
        (linesLoopHyph eng' hyph cs width sty iss ((split 32 (norm eng' u.eng t)).foldl
          (wrapWordHyph hyph (fun w => eng'.textWidth w (Model.changeFont eng' isty.font u).eng) width isty) acc) (Model.changeFont eng' isty.font u)).1 =
        (linesLoopHyph eng hyph cs width sty iss ((split 32 (norm eng s.eng t)).foldl
          (wrapWordHyph hyph (fun w => eng.textWidth w (Model.changeFont eng isty.font s).eng) width isty) acc) (Model.changeFont eng isty.font s)).1 ∧
        PRel Q (linesLoopHyph eng hyph cs width sty iss ((split 32 (norm eng s.eng t)).foldl
          (wrapWordHyph hyph (fun w => eng.textWidth w (Model.changeFont eng isty.font s).eng) width isty) acc) (Model.changeFont eng isty.font s)).2
        (linesLoopHyph eng' hyph cs width sty iss ((split 32 (norm eng' u.eng t)).foldl
          (wrapWordHyph hyph (fun w => eng'.textWidth w (Model.changeFont eng' isty.font u).eng) width isty) acc) (Model.changeFont eng' isty.font u)).2 := by
      intro t isty ht
      have hf := changeFont_two h isty.font hs
      have hw : (fun w => eng'.textWidth w (Model.changeFont eng' isty.font u).eng) = fun w => eng.textWidth w (Model.changeFont eng isty.font s).eng :=
        funext fun w => h.textWidth w _ _ hf.1
      rw [h.norm t _ _ ht hs.1, hw]
      exact ih _ _ _ hf
    cases is with
    | textBlock t => exact key t sty (textsOk_head hT .textBlock)
    | paragraph st t => exact key t (st.mutatedStyles cs sty) (textsOk_head hT .paragraph)
    | lineBreak => exact ih _ _ _ hs
    | _ => exact ih _ _ _ hs

theorem textLines_two (h : Two eng eng' Q T c c') (cs : Classes) {iss : List Instr} (hT : TextsOk T iss) (width : ℚ) (sty : Styles) (s : PState E)
    (u : PState E') (hs : PRel Q s u) : (textLines eng' cs iss width sty u).1 = (textLines eng cs iss width sty s).1 ∧
    PRel Q (textLines eng cs iss width sty s).2 (textLines eng' cs iss width sty u).2 := by
  obtain ⟨h1, h2⟩ := linesLoop_two h (cs := cs) (width := width) (sty := sty) iss hT ([], TextLine.empty) s u hs
  exact ⟨congrArg closeLines h1, h2⟩

theorem textLinesHyph_two (h : Two eng eng' Q T c c') (hyph : Str → List Str) (cs : Classes) {iss : List Instr} (hT : TextsOk T iss) (width : ℚ)
    (sty : Styles) (s : PState E) (u : PState E') (hs : PRel Q s u) :
    (textLinesHyphenated eng' hyph cs iss width sty u).1 = (textLinesHyphenated eng hyph cs iss width sty s).1 ∧
    PRel Q (textLinesHyphenated eng hyph cs iss width sty s).2 (textLinesHyphenated eng' hyph cs iss width sty u).2 := by
  obtain ⟨h1, h2⟩ := linesLoopHyph_two h (hyph := hyph) (cs := cs) (width := width) (sty := sty) iss hT ([], TextLine.empty) s u hs
  exact ⟨congrArg closeLinesHyph h1, h2⟩

theorem textHeight_two (h : Two eng eng' Q T c c') (cs : Classes) {iss : List Instr} (hT : TextsOk T iss) (width : ℚ) (sty : Styles) (s : PState E)
    (u : PState E') (hs : PRel Q s u) : (textHeight eng' cs iss width sty u).1 = (textHeight eng cs iss width sty s).1 ∧
    PRel Q (textHeight eng cs iss width sty s).2 (textHeight eng' cs iss width sty u).2 := by
  have h0 : PRel Q { s with eng := eng.changeFont sty.font s.eng } { u with eng := eng'.changeFont sty.font u.eng } := ⟨h.font _ _ _ hs.1, hs.2⟩
  obtain ⟨h1, h2⟩ := textLines_two h cs hT width sty _ _ h0
  exact ⟨congrArg₂ (fun (l : List TextLine) f => linesHeight l.length f sty.dim.lineSpacing) h1 (h.fontHeight _ _ h2.1), h2⟩

theorem textHeightFnc_two (h : Two eng eng' Q T c c') (sty : Styles) (iss : List Instr) (hT : TextsOk T iss) (width : ℚ) (s : PState E)
    (u : PState E') (hs : PRel Q s u) : (textHeightFnc eng' ctx sty iss width u).1 = (textHeightFnc eng ctx sty iss width s).1 ∧
    PRel Q (textHeightFnc eng ctx sty iss width s).2 (textHeightFnc eng' ctx sty iss width u).2 := by
  unfold textHeightFnc
  split
  · have h0 : PRel Q { s with eng := eng.changeFont sty.font s.eng } { u with eng := eng'.changeFont sty.font u.eng } := ⟨h.font _ _ _ hs.1, hs.2⟩
    obtain ⟨h1, h2⟩ := textLinesHyph_two h ctx.hyphenate ctx.classes hT width sty _ _ h0
    exact ⟨congrArg₂ (fun (l : List TextLine) f => linesHeight l.length f sty.dim.lineSpacing) h1 (h.fontHeight _ _ h2.1), h2⟩
  · exact textHeight_two h _ hT _ _ _ _ hs

/-! ### Writing -/

theorem changeFontM_sim (h : Two eng eng' Q T c c') (f : Font) : Sim Q (changeFontM eng f) (changeFontM eng' f) := by
  intro s u hs a s' hr
  simp only [changeFontM, Option.some.injEq, Prod.mk.injEq] at hr
  rw [← hr.2]
  exact ⟨_, rfl, changeFont_two h f hs⟩

theorem resetStyles_sim (h : Two eng eng' Q T c c') : Sim Q (resetStyles eng) (resetStyles eng') := by
  intro s u hs a s' hr
  simp only [resetStyles, Option.some.injEq, Prod.mk.injEq] at hr
  rw [← hr.2]
  refine ⟨_, rfl, ?_, hs.2⟩
  rw [hs.2.1]
  exact h.color _ _ _ (h.font _ _ _ hs.1)

theorem drawBoxM_sim (h : Two eng eng' Q T c c') (x0 y0 x1 y1 : ℚ) (sty : Styles) : Sim Q (drawBoxM eng x0 y0 x1 y1 sty) (drawBoxM eng' x0 y0 x1 y1 sty) := by
  refine Sim.upd ?_
  generalize drawBox x0 y0 x1 y1 sty = cmds
  induction cmds with
  | nil => exact fun _ _ hs => hs
  | cons cmd cmds ih =>
    intro e e' hs
    rw [List.foldl_cons, List.foldl_cons]
    exact ih _ _ (h.draw cmd _ _ hs)

theorem writeItems_sim (h : Two eng eng' Q T c c') : ∀ (items : List TextItem), Sim Q (writeItems eng c items) (writeItems eng' c' items)
  | [] => Sim.pure ()
  | i :: is => by
    unfold writeItems
    exact (changeFontM_sim h _).bind fun _ => (h.write _).bind fun _ => writeItems_sim h is

theorem writeSpaced_sim (h : Two eng eng' Q T c c') (gap : ℚ) : ∀ (items : List TextItem), Sim Q (writeSpaced eng c gap items) (writeSpaced eng' c' gap items)
  | [] => Sim.pure ()
  | i :: is => by
    unfold writeSpaced
    exact (changeFontM_sim h _).bind fun _ => (h.write _).bind fun _ => (Sim.ask h.getXY).bind fun xy =>
      (Sim.upd (h.setX _)).bind fun _ => writeSpaced_sim h gap is

theorem alignLine_sim (h : Two eng eng' Q T c c') (ha : Str) (x w : ℚ) (l : TextLine) : Sim Q (alignLine eng ha x w l) (alignLine eng' ha x w l) := by
  unfold alignLine
  exact Sim.ite (fun _ => Sim.upd (h.setX _)) fun _ => Sim.ite (fun _ => Sim.upd (h.setX _)) fun _ => Sim.ite (fun _ => Sim.upd (h.setX _)) fun _ => Sim.pure ()

theorem writeLines_sim (h : Two eng eng' Q T c c') (sty : Styles) (x w : ℚ) : ∀ (lines : List TextLine),
    Sim Q (writeLines eng c sty x w lines) (writeLines eng' c' sty x w lines)
  | [] => Sim.pure ()
  | l :: ls => by
    unfold writeLines
    exact (alignLine_sim h _ _ _ _).bind fun _ => (writeItems_sim h _).bind fun _ =>
      (Sim.upd (h.lineFeed _)).bind fun _ => writeLines_sim h sty x w ls

theorem writeHyphLines_sim (h : Two eng eng' Q T c c') (sty : Styles) (x w : ℚ) : ∀ (lines : List TextLine),
    Sim Q (writeHyphLines eng c sty x w lines) (writeHyphLines eng' c' sty x w lines)
  | [] => Sim.pure ()
  | l :: ls => by
    unfold writeHyphLines writeHyphLine
    exact (Sim.upd (h.setX _)).bind fun _ => (Sim.ite (fun _ => writeItems_sim h _) fun _ => writeSpaced_sim h _ _).bind fun _ =>
      (Sim.upd (h.lineFeed _)).bind fun _ => writeHyphLines_sim h sty x w ls

theorem writeTextFnc_sim (h : Two eng eng' Q T c c') {iss : List Instr} (hT : TextsOk T iss) (width : ℚ) (sty : Styles) :
    Sim Q (writeTextFnc eng ctx c iss width sty) (writeTextFnc eng' ctx c' iss width sty) := by
  unfold writeTextFnc
  refine Sim.ite (fun _ => ?_) fun _ => ?_
  · unfold writeTextHyphenated
    exact (Sim.upd (h.font _)).bind fun _ => (Sim.upd (h.color _)).bind fun _ =>
      (Sim.total (textLinesHyph_two h _ _ hT _ _)).bind fun lines => (Sim.ask h.getXY).bind fun xy => writeHyphLines_sim h _ _ _ _
  · unfold Model.writeText
    exact (Sim.upd (h.font _)).bind fun _ => (Sim.upd (h.color _)).bind fun _ =>
      (Sim.total (textLines_two h _ hT _ _)).bind fun lines => (Sim.ask h.getXY).bind fun xy => writeLines_sim h _ _ _ _

theorem renderText_sim (h : Two eng eng' Q T c c') (st : Styled) {iss : List Instr} (hT : TextsOk T iss) :
    Sim Q (renderText eng ctx c st iss) (renderText eng' ctx c' st iss) := by
  unfold renderText
  refine Sim.ite (fun _ => Sim.pure ()) fun _ => Sim.get fun s u hs => ?_
  rw [hs.2.1]
  exact (Sim.ask h.area).bind fun _ => (writeTextFnc_sim h hT _ _).bind fun _ => resetStyles_sim h

theorem boxHeight_sim (h : Two eng eng' Q T c c') (sty : Styles) {iss : List Instr} (hT : TextsOk T iss) (width : ℚ) :
    Sim Q (boxHeight eng ctx sty iss width) (boxHeight eng' ctx sty iss width) := by
  unfold boxHeight
  exact Sim.ite (fun _ => Sim.ite (fun _ => Sim.total fun s u hs => textHeightFnc_two h _ _ hT _ _ _ hs) fun _ => Sim.ask h.fontHeight) fun _ => Sim.pure _

theorem boxStart_sim (h : Two eng eng' Q T c c') (height : ℚ) : Sim Q (boxStart eng c height) (boxStart eng' c' height) := by
  unfold boxStart
  refine Sim.get fun s u hs => ?_
  simp only [h.getXY _ _ hs.1, h.height _ _ hs.1, h.margins _ _ hs.1, hs.2.2]
  exact Sim.ite (fun _ => h.add.bind fun _ => Sim.ask h.getXY) fun _ => Sim.pure _

theorem renderTextBox_sim (h : Two eng eng' Q T c c') (st : Styled) {iss : List Instr} (hT : TextsOk T iss) (pa : Area) :
    Sim Q (renderTextBox eng ctx c st iss pa) (renderTextBox eng' ctx c' st iss pa) := by
  unfold renderTextBox
  refine Sim.get fun s u hs => ?_
  rw [hs.2.1]
  exact (boxHeight_sim h _ hT _).bind fun _ => (boxStart_sim h _).bind fun _ => (drawBoxM_sim h _ _ _ _ _).bind fun _ =>
    (Sim.upd (h.setY _)).bind fun _ => (Sim.upd (h.setX _)).bind fun _ =>
    Sim.ite (fun _ => (writeTextFnc_sim h hT _ _).bind fun _ => (Sim.upd (h.setY _)).bind fun _ => resetStyles_sim h)
      fun _ => (Sim.pure _).bind fun _ => (Sim.upd (h.setY _)).bind fun _ => resetStyles_sim h

theorem textBoxHeight_sim (h : Two eng eng' Q T c c') (st : Styled) {iss : List Instr} (hT : TextsOk T iss) (pa : Area) :
    Sim Q (textBoxHeight eng ctx st iss pa) (textBoxHeight eng' ctx st iss pa) := by
  unfold textBoxHeight
  refine Sim.get fun s u hs => ?_
  rw [hs.2.1]
  exact (boxHeight_sim h _ hT _).bind fun _ => (resetStyles_sim h).bind fun _ => Sim.pure _

theorem renderImage_sim (h : Two eng eng' Q T c c') (st : Styled) (source : Str) (pa : Area) :
    Sim Q (renderImage eng ctx st source pa) (renderImage eng' ctx st source pa) := by
  unfold renderImage
  simp only
  split
  · exact Sim.pure ()
  · intro s u hs a s' hr
    simp only [Option.some.injEq, Prod.mk.injEq] at hr
    rw [← hr.2]
    refine ⟨_, rfl, ?_, hs.2⟩
    rw [hs.2.1, h.getXY _ _ hs.1]
    exact h.image _ _ _ _ _ _ _ hs.1

theorem renderCellItems_sim (h : Two eng eng' Q T c c') (v : Str) (pa : Area) : ∀ (iss : List Instr), TextsOk T iss →
    Sim Q (renderCellItems eng ctx c v pa iss) (renderCellItems eng' ctx c' v pa iss) := by
  intro iss
  induction iss with
  | nil => intro _; exact Sim.pure ()
  | cons is iss ih =>
    intro hT
    have ih := ih (textsOk_tail hT)
    cases is with
    | box st b =>
      have hb : TextsOk T b := fun i hi t ht => textsOk_head hT (.box hi ht)
      exact (textBoxHeight_sim h _ hb _).bind fun _ => (Sim.upd (h.setY _)).bind fun _ => (renderTextBox_sim h _ hb _).bind fun _ => ih
    | image st src => exact (Sim.upd (h.setY _)).bind fun _ => (renderImage_sim h _ _ _).bind fun _ => ih
    | _ => exact ih

theorem renderCell_sim (h : Two eng eng' Q T c c') (pa : Area) (sty : Styles) {iss : List Instr} (hT : TextsOk T iss) :
    Sim Q (renderCell eng ctx c pa sty iss) (renderCell eng' ctx c' pa sty iss) := by
  have ht : Sim Q (renderCellText eng ctx c pa sty iss) (renderCellText eng' ctx c' pa sty iss) :=
    (Sim.total (textHeight_two h _ hT _ _)).bind fun _ => (Sim.upd (h.setY _)).bind fun _ => (Sim.upd (h.setX _)).bind fun _ => writeTextFnc_sim h hT _ _
  unfold renderCell
  exact (drawBoxM_sim h _ _ _ _ _).bind fun _ => Sim.ite (fun _ => ht.bind fun _ => (Sim.upd (h.setX _)).bind fun _ => renderCellItems_sim h _ _ _ hT)
    fun _ => (Sim.pure _).bind fun _ => (Sim.upd (h.setX _)).bind fun _ => renderCellItems_sim h _ _ _ hT

/-! ### Tables -/

theorem makeTable_texts {cs : Classes} {tabSty : Styles} {st : Styled} {rh : Int} {rows : List TableRow} (hT : TextsOk T [.table st rh rows]) :
    ∀ x ∈ (makeTable cs tabSty rows).heap, TextsOk T x.iss := by
  refine makeRows_K (G := fun x => TextsOk T x.iss) rows 0 [] (by simp) ?_
  rintro ⟨rst, cells⟩ hr ir ⟨cst, cspan, rspan, iss⟩ hc ic i hi t ht
  exact textsOk_head hT (.cell hr hc hi ht)

theorem inv_texts {H0 : List TCell} {orig : List (List Nat)} {t : Tab} (hi : Inv H0 orig t) (hk : ∀ x ∈ H0, TextsOk T x.iss) (x : Nat) :
    TextsOk T (t.cell x).iss := by
  by_cases hx : x < H0.length
  · rw [(hi.authored x hx).2.1]
    refine hk _ ?_
    rw [List.getD_eq_getElem?_getD, List.getElem?_eq_getElem hx]
    exact List.getElem_mem hx
  · by_cases hl : x < t.heap.length
    · rw [(hi.made x (by omega) hl).2.2.2.1]
      intro i hi
      exact absurd hi (by simp)
    · have : t.cell x = TCell.new := by simp only [Tab.cell, List.getD_eq_getElem?_getD, List.getElem?_eq_none (Nat.le_of_not_lt hl), Option.getD_none]
      rw [this]
      intro i hi
      exact absurd hi (by simp [TCell.new])

variable {σ τ : Type} {R : σ → τ → Prop}

theorem assignCellMinHeight_two {m : Measure σ} {m' : Measure τ} {id : Nat} {t : Tab} (hT : TextsOk T (t.cell id).iss)
    (hm : ∀ sty iss w s u, TextsOk T iss → R s u → (m' sty iss w u).1 = (m sty iss w s).1 ∧ R (m sty iss w s).2 (m' sty iss w u).2) {s : σ} {u : τ}
    (hs : R s u) : (assignCellMinHeight m' id t u).1 = (assignCellMinHeight m id t s).1 ∧
    R (assignCellMinHeight m id t s).2 (assignCellMinHeight m' id t u).2 := by
  unfold assignCellMinHeight
  simp only
  split
  · exact ⟨rfl, hs⟩
  · split
    · exact ⟨rfl, hs⟩
    · obtain ⟨h1, h2⟩ := hm (t.cell id).styles (t.cell id).iss ((t.cell id).spansCols.foldl (fun w sc => w + (t.cell sc).width) (t.cell id).width
        - ((t.cell id).styles.box.padding.left + (t.cell id).styles.box.padding.right)) s u hT hs
      exact ⟨by rw [h1], h2⟩

theorem minHeightsRow_two {m : Measure σ} {m' : Measure τ} {H0 : List TCell} {orig : List (List Nat)} (hk : ∀ x ∈ H0, TextsOk T x.iss)
    (hm : ∀ sty iss w s u, TextsOk T iss → R s u → (m' sty iss w u).1 = (m sty iss w s).1 ∧ R (m sty iss w s).2 (m' sty iss w u).2) (r : Nat) :
    ∀ (ids : List Nat) (t : Tab) (s : σ) (u : τ), Inv H0 orig t → (∀ x ∈ ids, x ∈ rowAt t r) → R s u →
    (minHeightsRow m' ids t u).1 = (minHeightsRow m ids t s).1 ∧ R (minHeightsRow m ids t s).2 (minHeightsRow m' ids t u).2
  | [], _, _, _, _, _, hs => ⟨rfl, hs⟩
  | id :: ids, t, s, u, hi, hmem, hs => by
    obtain ⟨h1, h2⟩ := assignCellMinHeight_two (inv_texts hi hk id) hm hs
    obtain ⟨p1, _, _⟩ := assignCellMinHeight_spec m hi (hmem id (by simp)) s
    have := minHeightsRow_two hk hm r ids _ _ _ (hi.core p1.shape.1 (fun x => (p1.shape.2.2.2.2 x).1) p1.shape.2.2.2.1)
      (fun x hx => (p1.shape.2.2.2.1 r).symm ▸ hmem x (by simp [hx])) h2
    show (minHeightsRow m' ids (assignCellMinHeight m' id t u).1 _).1 = _ ∧ R _ (minHeightsRow m' ids (assignCellMinHeight m' id t u).1 _).2
    rw [h1]
    exact this

theorem minHeights_two {m : Measure σ} {m' : Measure τ} {H0 : List TCell} {orig : List (List Nat)} (hk : ∀ x ∈ H0, TextsOk T x.iss)
    (hm : ∀ sty iss w s u, TextsOk T iss → R s u → (m' sty iss w u).1 = (m sty iss w s).1 ∧ R (m sty iss w s).2 (m' sty iss w u).2) :
    ∀ (rs : List TRow) (t : Tab) (s : σ) (u : τ), Inv H0 orig t → (∀ r ∈ rs, r ∈ t.rows) → R s u →
    (minHeights m' rs t u).1 = (minHeights m rs t s).1 ∧ R (minHeights m rs t s).2 (minHeights m' rs t u).2
  | [], _, _, _, _, _, hs => ⟨rfl, hs⟩
  | r :: rs, t, s, u, hi, hmem, hs => by
    obtain ⟨i, _, hrow⟩ := hi.cell_mem (hmem r (by simp))
    obtain ⟨h1, h2⟩ := minHeightsRow_two hk hm i r.cells t s u hi (fun x hx => by rw [hrow]; exact hx) hs
    obtain ⟨p1, _, _⟩ := minHeightsRow_spec m i r.cells t s hi (fun x hx => by rw [hrow]; exact hx)
    have := minHeights_two hk hm rs _ _ _ (hi.core p1.shape.1 (fun x => (p1.shape.2.2.2.2 x).1) p1.shape.2.2.2.1)
      (fun r' hr' => by rw [p1.2.1]; exact hmem r' (by simp [hr'])) h2
    show (minHeights m' rs (minHeightsRow m' r.cells t u).1 _).1 = _ ∧ R _ (minHeights m' rs (minHeightsRow m' r.cells t u).1 _).2
    rw [h1]
    exact this

theorem transformTable_two {m : Measure σ} {m' : Measure τ} {cs : Classes}
    (hm : ∀ sty iss w s u, TextsOk T iss → R s u → (m' sty iss w u).1 = (m sty iss w s).1 ∧ R (m sty iss w s).2 (m' sty iss w u).2) {page : Page}
    {curr : Styles} {st : Styled} {rh : Int} {rows : List TableRow} (hT : TextsOk T [.table st rh rows]) {s s' : σ} {u : τ} {t : Tab}
    (h : transformTable m cs page curr st rows s = some (t, s')) (hs : R s u) :
    ∃ u', transformTable m' cs page curr st rows u = some (t, u') ∧ R s' u' ∧ ∀ x, TextsOk T (t.cell x).iss := by
  have hk := makeTable_texts (cs := cs) (tabSty := st.mutatedStyles cs curr) hT
  have hf := (makeTable_fresh cs (st.mutatedStyles cs curr) rows).1
  obtain ⟨t1, h1, hs1⟩ := processSpans_spec hf
  obtain ⟨t2, cws, h2, sh12, _⟩ := assignColumnWidths_spec hs1 (page.effectiveWidth (st.mutatedStyles cs curr).dim.width)
  have hs2 := hs1.shape sh12
  obtain ⟨sh23, _⟩ := assignHeights_spec m hs2.inv s
  have hs3 := hs2.shape sh23
  obtain ⟨g1, g2⟩ := minHeights_two hk hm t2.rows t2 s u hs2.inv (fun _ h => h) hs
  unfold transformTable at h ⊢
  simp only [h1, h2, Option.some.injEq] at h ⊢
  have e2 : s' = (minHeights m t2.rows t2 s).2 := (congrArg Prod.snd h).symm
  have e1 : t = (assignHeights m t2 s).1 := (congrArg Prod.fst h).symm
  rw [← e1] at hs3
  refine ⟨(minHeights m' t2.rows t2 u).2, ?_, e2 ▸ g2, inv_texts hs3.inv hk⟩
  rw [e1]
  show (setCellHeights (setRowHeights (minHeights m' t2.rows t2 u).1), _) = (setCellHeights (setRowHeights (minHeights m t2.rows t2 s).1), _)
  rw [g1]

theorem tableOps_sim (h : Two eng eng' Q T c c') {t : Tab} (hT : ∀ x, TextsOk T (t.cell x).iss) :
    SimOps (PRel Q) (tableOps eng ctx c t) (tableOps eng' ctx c' t) where
  getXY := fun s u hs => h.getXY _ _ hs.1
  prevent := fun s u hs => hs.2.2
  setX := fun x s u hs => ⟨h.setX x _ _ hs.1, hs.2⟩
  setY := fun y s u hs => ⟨h.setY y _ _ hs.1, hs.2⟩
  add := by
    intro s u s' hs hr
    obtain ⟨q, hq, e⟩ := Option.map_eq_some_iff.mp hr
    obtain ⟨u', h1, h2⟩ := h.add s u hs q.1 q.2 hq
    exact ⟨u', Option.map_eq_some_iff.mpr ⟨_, h1, rfl⟩, e ▸ h2⟩
  cell := by
    intro pa id s u s' hs hr
    obtain ⟨q, hq, e⟩ := Option.map_eq_some_iff.mp hr
    obtain ⟨u', h1, h2⟩ := renderCell_sim h pa _ (hT id) s u hs q.1 q.2 hq
    exact ⟨u', Option.map_eq_some_iff.mpr ⟨_, h1, rfl⟩, e ▸ h2⟩

theorem renderTable_sim (h : Two eng eng' Q T c c') (st : Styled) (rh : Int) (rows : List TableRow) (hT : TextsOk T [.table st rh rows]) :
    Sim Q (renderTable eng ctx c st rh rows) (renderTable eng' ctx c' st rh rows) := by
  intro s u hs a s' hr
  unfold renderTable at hr ⊢
  rw [bind_eq] at hr ⊢
  simp only [MonadState.get, getThe, MonadStateOf.get, StateT.get, Pure.pure, Option.bind_some] at hr ⊢
  rw [h.area _ _ hs.1, hs.2.1]
  cases ht : transformTable (textHeightFnc eng ctx) ctx.classes (Page.mk (eng.printableArea s.eng)) s.curr st rows s with
  | none => rw [ht] at hr; exact absurd hr (by simp)
  | some q =>
    obtain ⟨t, s1⟩ := q
    obtain ⟨u1, h1, h2, h3⟩ := transformTable_two (R := PRel Q) (m' := textHeightFnc eng' ctx) (fun sty iss w s u hT hs => textHeightFnc_two h sty iss hT w s u hs) hT ht hs
    simp only [ht] at hr
    simp only [h1]
    rw [bind_eq] at hr ⊢
    simp only [set, StateT.set, Pure.pure, Option.bind_some] at hr ⊢
    have key : Sim Q (if t.columnCount = 0 then resetStyles eng else do
        let pa ← ask eng.printableArea
        (fun s => (renderLaid (tableOps eng ctx c t) t rh pa.y1 s).map fun s' => ((), s') : M E Unit)
        resetStyles eng) (if t.columnCount = 0 then resetStyles eng' else do
        let pa ← ask eng'.printableArea
        (fun s => (renderLaid (tableOps eng' ctx c' t) t rh pa.y1 s).map fun s' => ((), s') : M E' Unit)
        resetStyles eng') := by
      refine Sim.ite (fun _ => resetStyles_sim h) fun _ => (Sim.ask h.area).bind fun pa => Sim.bind ?_ fun _ => resetStyles_sim h
      intro s u hs a s' hr
      obtain ⟨q, hq, e⟩ := Option.map_eq_some_iff.mp hr
      obtain ⟨u', g1, g2⟩ := renderLaid_sim (tableOps_sim (ctx := ctx) h h3) hs hq
      exact ⟨u', Option.map_eq_some_iff.mpr ⟨_, g1, rfl⟩, by rw [← (Prod.mk.inj e).2]; exact g2⟩
    exact key s1 u1 h2 a s' hr

/-! ### Instructions -/

theorem renderGridM_sim (rows : List (Styled × List Str)) : Sim Q (renderGridM rows : M E Unit) (renderGridM rows) := by
  unfold renderGridM
  split
  · exact Sim.none
  · exact Sim.pure ()

theorem processInstr_sim (h : Two eng eng' Q T c c') {i : Instr} (hT : TextsOk T [i]) : Sim Q (processInstr eng ctx c i) (processInstr eng' ctx c' i) := by
  cases i with
  | font st =>
    refine Sim.get fun s u hs => ?_
    rw [hs.2.1]
    exact changeFontM_sim h _
  | lineFeed k => exact Sim.upd (h.lineFeed _)
  | setX x => exact Sim.upd (h.setX _)
  | setY y => exact Sim.upd (h.setY _)
  | box st iss => exact (Sim.ask h.area).bind fun _ => renderTextBox_sim h st (fun i hi t ht => textsOk_head hT (.box hi ht)) _
  | text st iss => exact renderText_sim h st fun i hi t ht => textsOk_head hT (.text hi ht)
  | table st rh rows => exact renderTable_sim h st rh rows hT
  | image st src => exact (Sim.ask h.area).bind fun _ => renderImage_sim h _ _ _
  | grid st rows parts => exact renderGridM_sim rows
  | pageBreak => exact h.add
  | _ => exact Sim.pure ()

theorem processInstrs_sim (h : Two eng eng' Q T c c') : ∀ {iss : List Instr}, TextsOk T iss →
    Sim Q (processInstrs eng ctx c iss) (processInstrs eng' ctx c' iss)
  | [], _ => Sim.pure ()
  | i :: iss, hT => (processInstr_sim h fun j hj => hT j (by simp at hj; simp [hj])).bind fun _ => processInstrs_sim h (textsOk_tail hT)

/-! ### Header and footer -/

theorem callback_sim (h : Two eng eng' Q T c c') {iss : List Instr} (hT : TextsOk T iss) : Sim Q (callback eng ctx c iss) (callback eng' ctx c' iss) := by
  have hp : ∀ b, Sim Q (modify fun s => { s with prevent := b } : M E Unit) (modify fun s => { s with prevent := b }) := by
    intro b s u hs a s' hr
    simp only [modify, modifyGet, MonadStateOf.modifyGet, StateT.modifyGet, Pure.pure, Option.some.injEq, Prod.mk.injEq] at hr
    rw [← hr.2]
    exact ⟨_, rfl, hs.1, hs.2.1, rfl⟩
  unfold callback
  exact (Sim.ask h.getXY).bind fun xy => (hp true).bind fun _ => (processInstrs_sim h hT).bind fun _ => (Sim.upd (h.setX _)).bind fun _ =>
    (Sim.upd (h.setY _)).bind fun _ => hp false

/-- Related engine operations. -/
def ProgTwo (Q : E → E' → Prop) : Prog E α → Prog E' α → Prop
  | .done e a, .done e' a' => Q e e' ∧ a' = a
  | .header e k, .header e' k' => Q e e' ∧ ∀ e1 e1', Q e1 e1' → ProgTwo Q (k e1) (k' e1')
  | .footer e k, .footer e' k' => Q e e' ∧ ∀ e1 e1', Q e1 e1' → ProgTwo Q (k e1) (k' e1')
  | _, _ => False

theorem runProg_sim {hdr ftr : M E Unit} {hdr' ftr' : M E' Unit} (hh : Sim Q hdr hdr') (hf : Sim Q ftr ftr') : ∀ (pr : Prog E α) (pr' : Prog E' α),
    ProgTwo Q pr pr' → ∀ s u, u.curr = s.curr → u.prevent = s.prevent → ∀ a s', runProg hdr ftr pr s = some (a, s') →
    ∃ u', runProg hdr' ftr' pr' u = some (a, u') ∧ PRel Q s' u' := by
  intro pr
  induction pr with
  | done e a =>
    rintro (⟨e', a'⟩ | ⟨e', k'⟩ | ⟨e', k'⟩) hp s u hc hv b s' hr
    · simp only [runProg, Option.some.injEq, Prod.mk.injEq] at hr
      obtain ⟨h1, h2⟩ := hp
      rw [← hr.2, ← hr.1, h2]
      exact ⟨_, rfl, h1, hc, hv⟩
    · exact hp.elim
    · exact hp.elim
  | header e k ih =>
    rintro (⟨e', a'⟩ | ⟨e', k'⟩ | ⟨e', k'⟩) hp s u hc hv b s' hr
    · exact hp.elim
    · obtain ⟨h1, h2⟩ := hp
      simp only [runProg] at hr ⊢
      cases h3 : hdr { s with eng := e } with
      | none => rw [h3] at hr; exact absurd hr (by simp)
      | some q =>
        rw [h3] at hr
        obtain ⟨u1, h4, h5⟩ := hh { s with eng := e } { u with eng := e' } ⟨h1, hc, hv⟩ q.1 q.2 h3
        rw [h4]
        exact ih _ _ (h2 _ _ h5.1) _ _ h5.2.1 h5.2.2 _ _ hr
    · exact hp.elim
  | footer e k ih =>
    rintro (⟨e', a'⟩ | ⟨e', k'⟩ | ⟨e', k'⟩) hp s u hc hv b s' hr
    · exact hp.elim
    · exact hp.elim
    · obtain ⟨h1, h2⟩ := hp
      simp only [runProg] at hr ⊢
      cases h3 : ftr { s with eng := e } with
      | none => rw [h3] at hr; exact absurd hr (by simp)
      | some q =>
        rw [h3] at hr
        obtain ⟨u1, h4, h5⟩ := hf { s with eng := e } { u with eng := e' } ⟨h1, hc, hv⟩ q.1 q.2 h3
        rw [h4]
        exact ih _ _ (h2 _ _ h5.1) _ _ h5.2.1 h5.2.2 _ _ hr

theorem runWith_sim (h : Two eng eng' Q T c c') (hh : TextsOk T ctx.header) (hf : TextsOk T ctx.footer) {op : E → Prog E α} {op' : E' → Prog E' α}
    (ho : ∀ e e', Q e e' → ProgTwo Q (op e) (op' e')) : Sim Q (runWith eng ctx c op) (runWith eng' ctx c' op') := fun s u hs a s' hr =>
  runProg_sim (callback_sim h hh) (callback_sim h hf) _ _ (ho _ _ hs.1) s u hs.2.1 hs.2.2 a s' hr

/-- What has to hold of the engines, without reference to calls. -/
theorem callsAt_two (h : ∀ c c', (∀ t, Sim Q (c.writeText t) (c'.writeText t)) → Sim Q c.addPage c'.addPage → Two eng eng' Q T c c')
    (hh : TextsOk T ctx.header) (hf : TextsOk T ctx.footer) (ha : ∀ e e', Q e e' → ProgTwo Q (eng.addPage e) (eng'.addPage e'))
    (hw : ∀ t e e', Q e e' → ProgTwo Q (eng.writeText t e) (eng'.writeText t e')) : ∀ n, Two eng eng' Q T (callsAt eng ctx n) (callsAt eng' ctx n)
  | 0 => h _ _ (fun _ => Sim.none) Sim.none
  | n + 1 => h _ _ (fun t => runWith_sim (callsAt_two h hh hf ha hw n) hh hf (hw t)) (runWith_sim (callsAt_two h hh hf ha hw n) hh hf ha)

end
end Verif.Proofs
