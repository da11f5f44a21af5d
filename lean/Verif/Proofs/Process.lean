import Verif.Spec.Process
import Verif.Proofs.TextLines
import Verif.Props.Table
import Verif.Props.Grid
/-
Running the processor with two ways `c`, `c'` to call the engine: where the first one returns, the second one does, too, with the
same result, and an invariant is kept.  With `c = c'` this is just the invariant.
-/
namespace Verif.Proofs
open Verif.Go Verif.Model Verif.Spec

variable {E : Type} {eng : Engine E} {P : PState E → Prop} {α β : Type}

/-- `m'` returns what `m` returns, and `P` is kept. -/
def Le (P : PState E → Prop) (m m' : M E α) : Prop := ∀ s, P s → ∀ a s', m s = some (a, s') → m' s = some (a, s') ∧ P s'

theorem Le.eq {m m' : M E α} (h : Le P m m') (h' : Le P m' m) {s : PState E} (hs : P s) : m s = m' s := by
  cases hm : m s with
  | none =>
    cases hm' : m' s with
    | none => rfl
    | some r => rw [(h' s hs r.1 r.2 hm').1] at hm; exact absurd hm (by simp)
  | some r => exact ((h s hs r.1 r.2 hm).1).symm

theorem Le.pure (a : α) : Le P (pure a : M E α) (pure a) := by
  intro s hs b s' h
  simp only [Pure.pure, StateT.pure, Option.some.injEq, Prod.mk.injEq] at h
  exact ⟨by rw [← h.1, ← h.2]; rfl, h.2 ▸ hs⟩

theorem Le.none : Le P (fun _ => none : M E α) (fun _ => none) := by
  intro s _ a s' h; exact absurd h (by simp)

theorem Le.bindV {V : α → Prop} {m m' : M E α} {k k' : α → M E β} (h : Le P m m') (hV : ∀ s a s', P s → m s = some (a, s') → V a)
    (hk : ∀ a, V a → Le P (k a) (k' a)) : Le P (m >>= k) (m' >>= k') := by
  intro s hs b s' hr
  obtain ⟨a, s1, h1, h2⟩ := bind_some hr
  obtain ⟨h3, h4⟩ := h s hs a s1 h1
  obtain ⟨h5, h6⟩ := hk a (hV s a s1 hs h1) s1 h4 b s' h2
  exact ⟨by rw [bind_eq, h3]; exact h5, h6⟩

theorem Le.bind {m m' : M E α} {k k' : α → M E β} (h : Le P m m') (hk : ∀ a, Le P (k a) (k' a)) : Le P (m >>= k) (m' >>= k') :=
  h.bindV (V := fun _ => True) (fun _ _ _ _ _ => trivial) fun a _ => hk a

theorem Le.get : Le P (get : M E (PState E)) get := by
  intro s hs a s' h
  simp only [MonadState.get, getThe, MonadStateOf.get, StateT.get, Pure.pure, Option.some.injEq, Prod.mk.injEq] at h
  refine ⟨?_, h.2 ▸ hs⟩
  rw [← h.1, ← h.2]; rfl

theorem Le.upd {f : E → E} (h : ∀ s, P s → P { s with eng := f s.eng }) : Le P (upd f) (upd f) := by
  intro s hs a s' hr
  simp only [Model.upd, Option.some.injEq, Prod.mk.injEq] at hr
  exact ⟨by rw [← hr.2]; rfl, hr.2 ▸ h s hs⟩

theorem Le.ask (f : E → α) : Le P (ask f) (ask f) := by
  intro s hs a s' hr
  simp only [Model.ask, Option.some.injEq, Prod.mk.injEq] at hr
  exact ⟨by rw [← hr.1, ← hr.2]; rfl, hr.2 ▸ hs⟩

theorem Le.total {f : PState E → α × PState E} (h : ∀ s, P s → P (f s).2) : Le P (total f) (total f) := by
  intro s hs a s' hr
  refine ⟨hr, ?_⟩
  simp only [Model.total, Option.some.injEq] at hr
  have := h s hs
  rw [hr] at this
  exact this

theorem Le.ite {p : Prop} [Decidable p] {m m' k k' : M E α} (h1 : p → Le P m m') (h2 : ¬ p → Le P k k') :
    Le P (if p then m else k) (if p then m' else k') := by
  split
  · exact h1 ‹_›
  · exact h2 ‹_›

/-- What the invariant has to go with. -/
structure Rel (eng : Engine E) (P : PState E → Prop) (T : Str → Prop) (c c' : Calls E) : Prop where
  setX : ∀ x s, P s → P { s with eng := eng.setX x s.eng }
  setY : ∀ y s, P s → P { s with eng := eng.setY y s.eng }
  lineFeed : ∀ n s, P s → P { s with eng := eng.lineFeed n s.eng }
  font : ∀ f s, P s → P { s with eng := eng.changeFont f s.eng }
  changeFont : ∀ f s, P s → P (changeFont eng f s)
  color : ∀ col s, P s → P { s with eng := eng.setTextColor col s.eng }
  image : ∀ src x y w h s, P s → P { s with eng := eng.putImage src x y w h s.eng }
  draw : ∀ cmd s, P s → P { s with eng := eng.draw cmd s.eng }
  write : ∀ t, T t → Le P (c.writeText t) (c'.writeText t)
  add : (∀ s, P s → s.prevent = true) ∨ Le P c.addPage c'.addPage

/-- The texts that are written: the words of texts, and parts of words. -/
structure Texts (T : Str → Prop) (hyph : Str → List Str) : Prop where
  word : ∀ page text w, w ∈ split 32 (whitespaceRectified (replaceAll b!"{cp}" (itoa page) text)) →
    T w ∧ T (32 :: w) ∧ T (trimSpace w) ∧ ∀ i, 1 ≤ i → i < (hyph w).length →
      T (32 :: (((hyph w).take i).flatten ++ [45])) ∧ T (trimSpace (32 :: (((hyph w).take i).flatten ++ [45]))) ∧
      T ((hyph w).drop i).flatten ∧ T (trimSpace ((hyph w).drop i).flatten)

theorem Texts.all (hyph : Str → List Str) : Texts (fun _ => True) hyph := ⟨by simp⟩

section
variable {T : Str → Prop} {c c' : Calls E} {ctx : Ctx}

/-- The texts of a line. -/
def LineOk (T : Str → Prop) (l : TextLine) : Prop := ∀ i ∈ l.items, T i.text ∧ T (trimSpace i.text)

theorem lineOk_empty : LineOk T TextLine.empty := by intro i hi; simp [TextLine.empty] at hi

/-- The lines and the current line. -/
def AccOk (T : Str → Prop) (acc : List TextLine × TextLine) : Prop := (∀ l ∈ acc.1, LineOk T l) ∧ LineOk T acc.2

theorem accOk_snoc {ls : List TextLine} {l : TextLine} (h : ∀ l ∈ ls, LineOk T l) (hl : LineOk T l) : ∀ x ∈ ls ++ [l], LineOk T x := by
  intro x hx
  rcases List.mem_append.mp hx with hx | hx
  · exact h x hx
  · simp at hx; rw [hx]; exact hl

theorem wrapWord_ok {tw : Str → ℚ} {width : ℚ} {sty : Styles} {acc : List TextLine × TextLine} {w : Str} (ha : AccOk T acc)
    (h1 : T w) (h2 : T (32 :: w)) (h3 : T (trimSpace w)) : AccOk T (wrapWord tw width sty acc w) := by
  have key : ∀ a : List TextLine × TextLine, AccOk T a → AccOk T (a.1, { a.2 with
      items := a.2.items ++ [⟨sty, if a.2.items.length > 0 then 32 :: w else w⟩], width := a.2.width + tw (32 :: w) }) := by
    intro a ha
    refine ⟨ha.1, ?_⟩
    intro i hi
    rcases List.mem_append.mp hi with hi | hi
    · exact ha.2 i hi
    · simp at hi
      rw [hi]
      simp only
      split
      · exact ⟨h2, by rw [trimSpace_cons]; exact h3⟩
      · exact ⟨h1, h3⟩
  unfold wrapWord
  simp only
  split
  · exact key (acc.1 ++ [acc.2], TextLine.empty) ⟨accOk_snoc ha.1 ha.2, lineOk_empty⟩
  · exact key acc ha

theorem wrapWords_ok {tw : Str → ℚ} {width : ℚ} {sty : Styles} : ∀ (ws : List Str) (acc : List TextLine × TextLine), AccOk T acc →
    (∀ w ∈ ws, T w ∧ T (32 :: w) ∧ T (trimSpace w)) → AccOk T (ws.foldl (wrapWord tw width sty) acc) := by
  intro ws
  induction ws with
  | nil => intro acc ha _; exact ha
  | cons w ws ih =>
    intro acc ha h
    obtain ⟨h1, h2, h3⟩ := h w (by simp)
    exact ih _ (wrapWord_ok ha h1 h2 h3) fun v hv => h v (List.mem_cons_of_mem _ hv)

theorem linesLoop_ok (hT : Texts T ctx.hyphenate) {width : ℚ} {sty : Styles} : ∀ (iss : List Instr) (acc : List TextLine × TextLine)
    (s : PState E), AccOk T acc → AccOk T (linesLoop eng ctx.classes width sty iss acc s).1 := by
  intro iss
  induction iss with
  | nil => intro acc s ha; exact ha
  | cons is iss ih =>
    intro acc s ha
    have words : ∀ t tw isty, AccOk T ((split 32 (norm eng s.eng t)).foldl (wrapWord tw width isty) acc) := by
      intro t tw isty
      refine wrapWords_ok _ _ ha fun w hw => ?_
      obtain ⟨h1, h2, h3, _⟩ := hT.word (eng.currentPage s.eng) t w hw
      exact ⟨h1, h2, h3⟩
    cases is with
    | textBlock t =>
      simp only [linesLoop, textOf]
      split
      · exact ih _ _ ha
      · exact ih _ _ (words t _ _)
    | paragraph st t =>
      simp only [linesLoop, textOf]
      split
      · exact ih _ _ ha
      · exact ih _ _ (words t _ _)
    | lineBreak => exact ih _ _ ⟨accOk_snoc ha.1 ha.2, lineOk_empty⟩
    | _ => exact ih _ _ ha

theorem textLines_ok (hT : Texts T ctx.hyphenate) {iss : List Instr} {width : ℚ} {sty : Styles} (s : PState E) :
    ∀ l ∈ (textLines eng ctx.classes iss width sty s).1, LineOk T l := by
  have := linesLoop_ok (eng := eng) hT (width := width) (sty := sty) iss ([], TextLine.empty) s ⟨by simp, lineOk_empty⟩
  unfold textLines closeLines
  simp only
  split
  · exact accOk_snoc this.1 this.2
  · exact this.1

theorem wrapWordHyph_ok {hyph : Str → List Str} {tw : Str → ℚ} {width : ℚ} {sty : Styles} {acc : List TextLine × TextLine} {w : Str}
    (ha : AccOk T acc) (h1 : T w) (h2 : T (32 :: w)) (h3 : T (trimSpace w)) (h4 : ∀ i, 1 ≤ i → i < (hyph w).length →
      T (32 :: (((hyph w).take i).flatten ++ [45])) ∧ T (trimSpace (32 :: (((hyph w).take i).flatten ++ [45]))) ∧
      T ((hyph w).drop i).flatten ∧ T (trimSpace ((hyph w).drop i).flatten)) : AccOk T (wrapWordHyph hyph tw width sty acc w) := by
  have snoc : ∀ (l : TextLine) (t : Str) (wd pw : ℚ), LineOk T l → T t → T (trimSpace t) →
      LineOk T { l with items := l.items ++ [⟨sty, t⟩], width := wd, pureTextWidth := pw } := by
    intro l t wd pw hl ht ht' i hi
    rcases List.mem_append.mp hi with hi | hi
    · exact hl i hi
    · simp at hi; rw [hi]; exact ⟨ht, ht'⟩
  have text : ∀ l : TextLine, T (if l.items.length > 0 then 32 :: w else w) ∧ T (trimSpace (if l.items.length > 0 then 32 :: w else w)) := by
    intro l
    split
    · exact ⟨h2, by rw [trimSpace_cons]; exact h3⟩
    · exact ⟨h1, h3⟩
  unfold wrapWordHyph
  simp only
  by_cases hc : acc.2.width + tw (32 :: w) ≥ width
  · simp only [if_pos hc]
    cases ht : tryHyphenate hyph tw width w acc.2.width with
    | none =>
      simp only
      exact ⟨accOk_snoc ha.1 ha.2, snoc _ _ _ _ lineOk_empty (text _).1 (text _).2⟩
    | some r =>
      obtain ⟨s1, s2⟩ := r
      obtain ⟨i, hi1, hi2, e1, e2, _⟩ := tryHyphenate_some ht
      obtain ⟨g1, g2, g3, g4⟩ := h4 i hi1 hi2
      rw [← e1] at g1 g2
      rw [← e2] at g3 g4
      simp only [TextLine.empty, List.length_nil, Nat.lt_irrefl, if_false, gt_iff_lt]
      refine ⟨accOk_snoc ha.1 (snoc _ _ _ _ ha.2 g1 g2), ?_⟩
      exact snoc TextLine.empty s2 _ _ lineOk_empty g3 g4
  · simp only [if_neg hc]
    exact ⟨ha.1, snoc _ _ _ _ ha.2 (text _).1 (text _).2⟩

theorem markLast_ok : ∀ (ls : List TextLine), (∀ l ∈ ls, LineOk T l) → ∀ l ∈ markLast ls, LineOk T l
  | [], h => h
  | [l], h => by
    intro x hx
    simp only [markLast, List.mem_singleton] at hx
    rw [hx]
    exact h l (by simp)
  | l :: m :: ls, h => by
    intro x hx
    simp only [markLast] at hx
    rcases List.mem_cons.mp hx with rfl | hx
    · exact h _ (by simp)
    · exact markLast_ok (m :: ls) (fun y hy => h y (List.mem_cons_of_mem _ hy)) x hx

theorem linesLoopHyph_ok (hT : Texts T ctx.hyphenate) {width : ℚ} {sty : Styles} : ∀ (iss : List Instr) (acc : List TextLine × TextLine)
    (s : PState E), AccOk T acc → AccOk T (linesLoopHyph eng ctx.hyphenate ctx.classes width sty iss acc s).1 := by
  intro iss
  induction iss with
  | nil => intro acc s ha; exact ha
  | cons is iss ih =>
    intro acc s ha
    have words : ∀ t tw isty, AccOk T ((split 32 (norm eng s.eng t)).foldl (wrapWordHyph ctx.hyphenate tw width isty) acc) := by
      intro t tw isty
      have key : ∀ (ws : List Str) (acc : List TextLine × TextLine), AccOk T acc → (∀ w ∈ ws, w ∈ split 32 (norm eng s.eng t)) →
          AccOk T (ws.foldl (wrapWordHyph ctx.hyphenate tw width isty) acc) := by
        intro ws
        induction ws with
        | nil => intro acc ha _; exact ha
        | cons w ws ih =>
          intro acc ha h
          obtain ⟨h1, h2, h3, h4⟩ := hT.word (eng.currentPage s.eng) t w (h w (by simp))
          exact ih _ (wrapWordHyph_ok ha h1 h2 h3 h4) fun v hv => h v (List.mem_cons_of_mem _ hv)
      exact key _ _ ha fun w hw => hw
    cases is with
    | textBlock t => exact ih _ _ (words t _ _)
    | paragraph st t => exact ih _ _ (words t _ _)
    | lineBreak => exact ih _ _ ⟨accOk_snoc (markLast_ok _ ha.1) ha.2, lineOk_empty⟩
    | _ => exact ih _ _ ha

theorem textLinesHyph_ok (hT : Texts T ctx.hyphenate) {iss : List Instr} {width : ℚ} {sty : Styles} (s : PState E) :
    ∀ l ∈ (textLinesHyphenated eng ctx.hyphenate ctx.classes iss width sty s).1, LineOk T l := by
  have := linesLoopHyph_ok (eng := eng) hT (width := width) (sty := sty) iss ([], TextLine.empty) s ⟨by simp, lineOk_empty⟩
  unfold textLinesHyphenated closeLinesHyph
  simp only
  split
  · exact accOk_snoc this.1 this.2
  · exact this.1

/-! ### Measuring keeps the invariant -/

theorem linesLoop_inv (h : Rel eng P T c c') {cs : Classes} {width : ℚ} {sty : Styles} : ∀ (iss : List Instr) (acc : List TextLine × TextLine)
    (s : PState E), P s → P (linesLoop eng cs width sty iss acc s).2 := by
  intro iss
  induction iss with
  | nil => intro acc s hs; exact hs
  | cons is iss ih =>
    intro acc s hs
    cases is with
    | textBlock t =>
      simp only [linesLoop, textOf]
      split
      · exact ih _ _ hs
      · exact ih _ _ (h.changeFont _ _ hs)
    | paragraph st t =>
      simp only [linesLoop, textOf]
      split
      · exact ih _ _ hs
      · exact ih _ _ (h.changeFont _ _ hs)
    | _ => exact ih _ _ hs

theorem linesLoopHyph_inv (h : Rel eng P T c c') {hyph : Str → List Str} {cs : Classes} {width : ℚ} {sty : Styles} : ∀ (iss : List Instr)
    (acc : List TextLine × TextLine) (s : PState E), P s → P (linesLoopHyph eng hyph cs width sty iss acc s).2 := by
  intro iss
  induction iss with
  | nil => intro acc s hs; exact hs
  | cons is iss ih =>
    intro acc s hs
    cases is with
    | textBlock t => exact ih _ _ (h.changeFont _ _ hs)
    | paragraph st t => exact ih _ _ (h.changeFont _ _ hs)
    | _ => exact ih _ _ hs

theorem textLines_inv (h : Rel eng P T c c') (cs : Classes) (iss : List Instr) (width : ℚ) (sty : Styles) (s : PState E) (hs : P s) :
    P (textLines eng cs iss width sty s).2 := linesLoop_inv h _ _ _ hs

theorem textLinesHyph_inv (h : Rel eng P T c c') (hyph : Str → List Str) (cs : Classes) (iss : List Instr) (width : ℚ) (sty : Styles)
    (s : PState E) (hs : P s) : P (textLinesHyphenated eng hyph cs iss width sty s).2 := linesLoopHyph_inv h _ _ _ hs

theorem textHeight_inv (h : Rel eng P T c c') (cs : Classes) (iss : List Instr) (width : ℚ) (sty : Styles) (s : PState E) (hs : P s) :
    P (textHeight eng cs iss width sty s).2 := linesLoop_inv h _ _ _ (h.font _ _ hs)

theorem textHeightFnc_inv (h : Rel eng P T c c') (sty : Styles) (iss : List Instr) (width : ℚ) (s : PState E) (hs : P s) :
    P (textHeightFnc eng ctx sty iss width s).2 := by
  unfold textHeightFnc
  split
  · exact linesLoopHyph_inv h _ _ _ (h.font _ _ hs)
  · exact textHeight_inv h _ _ _ _ _ hs

/-! ### Writing -/

theorem changeFontM_le (h : Rel eng P T c c') (f : Font) : Le P (changeFontM eng f) (changeFontM eng f) := by
  intro s hs a s' hr
  refine ⟨hr, ?_⟩
  simp only [changeFontM, Option.some.injEq, Prod.mk.injEq] at hr
  exact hr.2 ▸ h.changeFont f s hs

theorem resetStyles_le (h : Rel eng P T c c') : Le P (resetStyles eng) (resetStyles eng) := by
  intro s hs a s' hr
  refine ⟨hr, ?_⟩
  simp only [resetStyles, Option.some.injEq, Prod.mk.injEq] at hr
  exact hr.2 ▸ h.color _ _ (h.font _ _ hs)

theorem drawBoxM_le (h : Rel eng P T c c') (x0 y0 x1 y1 : ℚ) (sty : Styles) : Le P (drawBoxM eng x0 y0 x1 y1 sty) (drawBoxM eng x0 y0 x1 y1 sty) := by
  refine Le.upd fun s hs => ?_
  generalize drawBox x0 y0 x1 y1 sty = cmds
  induction cmds generalizing s with
  | nil => exact hs
  | cons cmd cmds ih =>
    rw [List.foldl_cons]
    exact ih { s with eng := eng.draw cmd s.eng } (h.draw cmd s hs)

theorem writeItems_le (h : Rel eng P T c c') : ∀ (items : List TextItem), (∀ i ∈ items, T i.text) → Le P (writeItems eng c items) (writeItems eng c' items)
  | [], _ => Le.pure ()
  | i :: is, ht => by
    unfold writeItems
    exact (changeFontM_le h _).bind fun _ => (h.write _ (ht i (by simp))).bind fun _ => writeItems_le h is fun j hj => ht j (List.mem_cons_of_mem _ hj)

theorem writeSpaced_le (h : Rel eng P T c c') (gap : ℚ) : ∀ (items : List TextItem), (∀ i ∈ items, T (trimSpace i.text)) →
    Le P (writeSpaced eng c gap items) (writeSpaced eng c' gap items)
  | [], _ => Le.pure ()
  | i :: is, ht => by
    unfold writeSpaced
    exact (changeFontM_le h _).bind fun _ => (h.write _ (ht i (by simp))).bind fun _ => (Le.ask _).bind fun xy =>
      (Le.upd (h.setX _)).bind fun _ => writeSpaced_le h gap is fun j hj => ht j (List.mem_cons_of_mem _ hj)

theorem alignLine_le (h : Rel eng P T c c') (ha : Str) (x w : ℚ) (l : TextLine) : Le P (alignLine eng ha x w l) (alignLine eng ha x w l) := by
  unfold alignLine
  exact Le.ite (fun _ => Le.upd (h.setX _)) fun _ => Le.ite (fun _ => Le.upd (h.setX _)) fun _ => Le.ite (fun _ => Le.upd (h.setX _)) fun _ => Le.pure ()

theorem writeLines_le (h : Rel eng P T c c') (sty : Styles) (x w : ℚ) : ∀ (lines : List TextLine), (∀ l ∈ lines, LineOk T l) →
    Le P (writeLines eng c sty x w lines) (writeLines eng c' sty x w lines)
  | [], _ => Le.pure ()
  | l :: ls, ht => by
    unfold writeLines
    exact (alignLine_le h _ _ _ _).bind fun _ => (writeItems_le h _ fun i hi => (ht l (by simp) i hi).1).bind fun _ =>
      (Le.upd (h.lineFeed _)).bind fun _ => writeLines_le h sty x w ls fun m hm => ht m (List.mem_cons_of_mem _ hm)

theorem writeHyphLines_le (h : Rel eng P T c c') (sty : Styles) (x w : ℚ) : ∀ (lines : List TextLine), (∀ l ∈ lines, LineOk T l) →
    Le P (writeHyphLines eng c sty x w lines) (writeHyphLines eng c' sty x w lines)
  | [], _ => Le.pure ()
  | l :: ls, ht => by
    unfold writeHyphLines writeHyphLine
    exact (Le.upd (h.setX _)).bind fun _ => (Le.ite (fun _ => writeItems_le h _ fun i hi => (ht l (by simp) i hi).1)
      fun _ => writeSpaced_le h _ _ fun i hi => (ht l (by simp) i hi).2).bind fun _ =>
      (Le.upd (h.lineFeed _)).bind fun _ => writeHyphLines_le h sty x w ls fun m hm => ht m (List.mem_cons_of_mem _ hm)

theorem writeTextFnc_le (h : Rel eng P T c c') (hT : Texts T ctx.hyphenate) (iss : List Instr) (width : ℚ) (sty : Styles) :
    Le P (writeTextFnc eng ctx c iss width sty) (writeTextFnc eng ctx c' iss width sty) := by
  unfold writeTextFnc
  refine Le.ite (fun _ => ?_) fun _ => ?_
  · unfold writeTextHyphenated
    refine (Le.upd (h.font _)).bind fun _ => (Le.upd (h.color _)).bind fun _ =>
      (Le.total (textLinesHyph_inv h _ _ _ _ _)).bindV (V := fun lines => ∀ l ∈ lines, LineOk T l) ?_ fun lines hl =>
      (Le.ask _).bind fun xy => writeHyphLines_le h _ _ _ _ hl
    intro s a s' _ hr
    simp only [Model.total, Option.some.injEq] at hr
    have := textLinesHyph_ok (eng := eng) hT (iss := iss) (width := width) (sty := sty) s
    rw [hr] at this
    exact this
  · unfold Model.writeText
    refine (Le.upd (h.font _)).bind fun _ => (Le.upd (h.color _)).bind fun _ =>
      (Le.total (textLines_inv h _ _ _ _)).bindV (V := fun lines => ∀ l ∈ lines, LineOk T l) ?_ fun lines hl =>
      (Le.ask _).bind fun xy => writeLines_le h _ _ _ _ hl
    intro s a s' _ hr
    simp only [Model.total, Option.some.injEq] at hr
    have := textLines_ok (eng := eng) hT (iss := iss) (width := width) (sty := sty) s
    rw [hr] at this
    exact this

theorem renderText_le (h : Rel eng P T c c') (hT : Texts T ctx.hyphenate) (st : Styled) (iss : List Instr) :
    Le P (renderText eng ctx c st iss) (renderText eng ctx c' st iss) := by
  unfold renderText
  exact Le.ite (fun _ => Le.pure ()) fun _ => Le.get.bind fun _ => (Le.ask _).bind fun _ => (writeTextFnc_le h hT _ _ _).bind fun _ => resetStyles_le h

theorem boxHeight_le (h : Rel eng P T c c') (sty : Styles) (iss : List Instr) (width : ℚ) :
    Le P (boxHeight eng ctx sty iss width) (boxHeight eng ctx sty iss width) := by
  unfold boxHeight
  exact Le.ite (fun _ => Le.ite (fun _ => Le.total fun s hs => textHeightFnc_inv h _ _ _ _ hs) fun _ => Le.ask _) fun _ => Le.pure _

theorem boxStart_le (h : Rel eng P T c c') (height : ℚ) : Le P (boxStart eng c height) (boxStart eng c' height) := by
  rcases h.add with hp | ha
  · intro s hs a s' hr
    have e : ∀ c : Calls E, boxStart eng c height s = some (eng.getXY s.eng, s) := by
      intro c
      unfold boxStart
      rw [bind_eq]
      simp only [MonadState.get, getThe, MonadStateOf.get, StateT.get, Pure.pure, Option.bind_some]
      rw [if_neg (by rw [hp s hs]; simp)]
      rfl
    rw [e] at hr ⊢
    refine ⟨hr, ?_⟩
    simp only [Option.some.injEq, Prod.mk.injEq] at hr
    exact hr.2 ▸ hs
  · unfold boxStart
    exact Le.get.bind fun s => Le.ite (fun _ => ha.bind fun _ => Le.ask _) fun _ => Le.pure _

theorem renderTextBox_le (h : Rel eng P T c c') (hT : Texts T ctx.hyphenate) (st : Styled) (iss : List Instr) (pa : Area) :
    Le P (renderTextBox eng ctx c st iss pa) (renderTextBox eng ctx c' st iss pa) := by
  unfold renderTextBox
  exact Le.get.bind fun s => (boxHeight_le h _ _ _).bind fun _ => (boxStart_le h _).bind fun _ => (drawBoxM_le h _ _ _ _ _).bind fun _ =>
    (Le.upd (h.setY _)).bind fun _ => (Le.upd (h.setX _)).bind fun _ =>
    Le.ite (fun _ => (writeTextFnc_le h hT _ _ _).bind fun _ => (Le.upd (h.setY _)).bind fun _ => resetStyles_le h)
      fun _ => (Le.pure _).bind fun _ => (Le.upd (h.setY _)).bind fun _ => resetStyles_le h

theorem textBoxHeight_le (h : Rel eng P T c c') (st : Styled) (iss : List Instr) (pa : Area) :
    Le P (textBoxHeight eng ctx st iss pa) (textBoxHeight eng ctx st iss pa) := by
  unfold textBoxHeight
  exact Le.get.bind fun s => (boxHeight_le h _ _ _).bind fun _ => (resetStyles_le h).bind fun _ => Le.pure _

theorem renderImage_le (h : Rel eng P T c c') (st : Styled) (source : Str) (pa : Area) :
    Le P (renderImage eng ctx st source pa) (renderImage eng ctx st source pa) := by
  unfold renderImage
  simp only
  split
  · exact Le.pure ()
  · intro s hs a s' hr
    refine ⟨hr, ?_⟩
    simp only [Option.some.injEq, Prod.mk.injEq] at hr
    exact hr.2 ▸ h.image _ _ _ _ _ s hs

theorem renderCellItems_le (h : Rel eng P T c c') (hT : Texts T ctx.hyphenate) (v : Str) (pa : Area) : ∀ (iss : List Instr),
    Le P (renderCellItems eng ctx c v pa iss) (renderCellItems eng ctx c' v pa iss) := by
  intro iss
  induction iss with
  | nil => exact Le.pure ()
  | cons is iss ih =>
    cases is with
    | box st b =>
      exact (textBoxHeight_le h _ _ _).bind fun _ => (Le.upd (h.setY _)).bind fun _ => (renderTextBox_le h hT _ _ _).bind fun _ => ih
    | image st src => exact (Le.upd (h.setY _)).bind fun _ => (renderImage_le h _ _ _).bind fun _ => ih
    | _ => exact ih

theorem renderCell_le (h : Rel eng P T c c') (hT : Texts T ctx.hyphenate) (pa : Area) (sty : Styles) (iss : List Instr) :
    Le P (renderCell eng ctx c pa sty iss) (renderCell eng ctx c' pa sty iss) := by
  have ht : Le P (renderCellText eng ctx c pa sty iss) (renderCellText eng ctx c' pa sty iss) :=
    (Le.total (textHeight_inv h _ _ _ _)).bind fun _ => (Le.upd (h.setY _)).bind fun _ => (Le.upd (h.setX _)).bind fun _ => writeTextFnc_le h hT _ _ _
  unfold renderCell
  exact (drawBoxM_le h _ _ _ _ _).bind fun _ => Le.ite (fun _ => ht.bind fun _ => (Le.upd (h.setX _)).bind fun _ => renderCellItems_le h hT _ _ _)
    fun _ => (Le.pure _).bind fun _ => (Le.upd (h.setX _)).bind fun _ => renderCellItems_le h hT _ _ _

/-! ### Tables -/

theorem minHeightsRow_inv {m : Measure (PState E)} (hm : ∀ sty iss w s, P s → P (m sty iss w s).2) : ∀ (ids : List Nat) (t : Tab) (s : PState E),
    P s → P (minHeightsRow m ids t s).2
  | [], _, _, hs => hs
  | id :: ids, t, s, hs => by
    have h1 : P (assignCellMinHeight m id t s).2 := by
      unfold assignCellMinHeight
      simp only
      split
      · exact hs
      · split
        · exact hs
        · exact hm _ _ _ _ hs
    exact minHeightsRow_inv hm ids _ _ h1

theorem minHeights_inv {m : Measure (PState E)} (hm : ∀ sty iss w s, P s → P (m sty iss w s).2) : ∀ (rs : List TRow) (t : Tab) (s : PState E),
    P s → P (minHeights m rs t s).2
  | [], _, _, hs => hs
  | r :: rs, t, s, hs => minHeights_inv hm rs _ _ (minHeightsRow_inv hm r.cells t s hs)

theorem transformTable_inv {m : Measure (PState E)} (hm : ∀ sty iss w s, P s → P (m sty iss w s).2) {cs : Classes} {page : Page} {curr : Styles}
    {st : Styled} {rows : List TableRow} {s s' : PState E} {t : Tab} (h : transformTable m cs page curr st rows s = some (t, s')) (hs : P s) : P s' := by
  unfold transformTable at h
  simp only at h
  split at h
  · exact absurd h (by simp)
  · split at h
    · exact absurd h (by simp)
    · simp only [Option.some.injEq] at h
      have : s' = (minHeights m _ _ s).2 := (congrArg Prod.snd h).symm
      rw [this]
      exact minHeights_inv hm _ _ _ hs

/-- The same for the operations of a table. -/
structure RelOps (ops ops' : TableOps (PState E)) (P : PState E → Prop) : Prop where
  getXY : ops'.getXY = ops.getXY
  prevent : ops'.prevent = ops.prevent
  setX : ops'.setX = ops.setX
  setY : ops'.setY = ops.setY
  setX_inv : ∀ x s, P s → P (ops.setX x s)
  setY_inv : ∀ y s, P s → P (ops.setY y s)
  cell : ∀ pa id s s', P s → ops.renderCell pa id s = some s' → ops'.renderCell pa id s = some s' ∧ P s'
  add : (∀ s, P s → ops.prevent s = true) ∨ ∀ s s', P s → ops.addPage s = some s' → ops'.addPage s = some s' ∧ P s'

theorem renderRowCells_le {ops ops' : TableOps (PState E)} (h : RelOps ops ops' P) {t : Tab} {y : ℚ} : ∀ (ids : List Nat) (x : ℚ) (s s' : PState E),
    P s → renderRowCells ops t y x ids s = some s' → renderRowCells ops' t y x ids s = some s' ∧ P s'
  | [], x, s, s', hs, hr => by
    simp only [renderRowCells, Option.some.injEq] at hr
    exact ⟨by simp [renderRowCells, hr], hr ▸ hs⟩
  | id :: ids, x, s, s', hs, hr => by
    unfold renderRowCells at hr ⊢
    simp only at hr ⊢
    split at hr
    · rename_i hc
      rw [if_pos hc]
      exact renderRowCells_le h ids _ _ _ hs hr
    · rename_i hc
      rw [if_neg hc]
      cases hcell : ops.renderCell { x0 := x, y0 := y, x1 := x + (t.dim id).1, y1 := y + (t.dim id).2 } id s with
      | none => rw [hcell] at hr; exact absurd hr (by simp)
      | some s1 =>
        rw [hcell] at hr
        obtain ⟨h1, h2⟩ := h.cell _ _ _ _ hs hcell
        rw [h1]
        exact renderRowCells_le h ids _ _ _ h2 hr

theorem renderRow_le {ops ops' : TableOps (PState E)} (h : RelOps ops ops' P) {t : Tab} {x0 y y' : ℚ} {row : TRow} {s s' : PState E}
    (hs : P s) (hr : renderRow ops t x0 row y s = some (y', s')) : renderRow ops' t x0 row y s = some (y', s') ∧ P s' := by
  unfold renderRow at hr ⊢
  cases h1 : renderRowCells ops t y x0 row.cells s with
  | none => rw [h1] at hr; exact absurd hr (by simp)
  | some s1 =>
    rw [h1] at hr
    obtain ⟨h2, h3⟩ := renderRowCells_le h _ _ _ _ hs h1
    rw [h2, h.setX]
    refine ⟨hr, ?_⟩
    simp only [Option.some.injEq, Prod.mk.injEq] at hr
    exact hr.2 ▸ h.setX_inv _ _ h3

theorem renderHeader_le {ops ops' : TableOps (PState E)} (h : RelOps ops ops' P) {t : Tab} {x0 : ℚ} : ∀ (rows : List TRow) (y y' : ℚ) (s s' : PState E),
    P s → renderHeader ops t x0 rows y s = some (y', s') → renderHeader ops' t x0 rows y s = some (y', s') ∧ P s'
  | [], y, y', s, s', hs, hr => by
    simp only [renderHeader, Option.some.injEq, Prod.mk.injEq] at hr
    exact ⟨by simp [renderHeader, hr], hr.2 ▸ hs⟩
  | r :: rs, y, y', s, s', hs, hr => by
    unfold renderHeader at hr ⊢
    cases h1 : renderRow ops t x0 r y s with
    | none => rw [h1] at hr; exact absurd hr (by simp)
    | some q =>
      rw [h1] at hr
      obtain ⟨h2, h3⟩ := renderRow_le h hs (y' := q.1) (s' := q.2) h1
      rw [h2]
      exact renderHeader_le h rs _ _ _ _ h3 hr

theorem renderRows_le {ops ops' : TableOps (PState E)} (h : RelOps ops ops' P) {t : Tab} {rh : Int} {bottom x0 : ℚ} : ∀ (rows : List TRow) (i : Nat)
    (y y' : ℚ) (s s' : PState E), P s → renderRows ops t rh bottom x0 i rows y s = some (y', s') →
    renderRows ops' t rh bottom x0 i rows y s = some (y', s') ∧ P s'
  | [], i, y, y', s, s', hs, hr => by
    simp only [renderRows, Option.some.injEq, Prod.mk.injEq] at hr
    exact ⟨by simp [renderRows, hr], hr.2 ▸ hs⟩
  | r :: rs, i, y, y', s, s', hs, hr => by
    have fin : ∀ (y2 : ℚ) (s2 : PState E) (q : ℚ × PState E), P s2 → renderRow ops t x0 r y2 s2 = some q →
        renderRows ops t rh bottom x0 (i + 1) rs q.1 q.2 = some (y', s') → renderRow ops' t x0 r y2 s2 = some q ∧
        renderRows ops' t rh bottom x0 (i + 1) rs q.1 q.2 = some (y', s') ∧ P s' := by
      intro y2 s2 q hs2 h1 hr
      obtain ⟨h2, h3⟩ := renderRow_le h hs2 (y' := q.1) (s' := q.2) h1
      exact ⟨h2, renderRows_le h rs _ _ _ _ _ h3 hr⟩
    unfold renderRows at hr ⊢
    simp only [h.prevent, h.getXY] at hr ⊢
    by_cases hc : (!ops.prevent s) = true ∧ y + t.maxCellHeight r > bottom
    · simp only [if_pos hc] at hr ⊢
      rcases h.add with hp | ha
      · exact absurd hc.1 (by rw [hp s hs]; simp)
      · cases h1 : ops.addPage s with
        | none => rw [h1] at hr; exact absurd hr (by simp)
        | some s1 =>
          obtain ⟨h2, h3⟩ := ha s s1 hs h1
          simp only [h1] at hr
          simp only [h2]
          by_cases hh : i > 0 ∧ rh > 0
          · simp only [if_pos hh] at hr ⊢
            cases h4 : renderHeader ops t x0 (t.rows.take rh.toNat) (ops.getXY s1).2 s1 with
            | none => rw [h4] at hr; exact absurd hr (by simp)
            | some q =>
              obtain ⟨h5, h6⟩ := renderHeader_le h _ _ q.1 _ q.2 h3 h4
              simp only [h4] at hr
              simp only [h5]
              cases hq : renderRow ops t x0 r q.1 q.2 with
              | none => rw [hq] at hr; exact absurd hr (by simp)
              | some q2 =>
                rw [hq] at hr
                obtain ⟨g1, g2⟩ := fin q.1 q.2 q2 h6 hq hr
                rw [g1]
                exact g2
          · simp only [if_neg hh] at hr ⊢
            cases hq : renderRow ops t x0 r (ops.getXY s1).2 s1 with
            | none => rw [hq] at hr; exact absurd hr (by simp)
            | some q2 =>
              rw [hq] at hr
              obtain ⟨g1, g2⟩ := fin (ops.getXY s1).2 s1 q2 h3 hq hr
              rw [g1]
              exact g2
    · simp only [if_neg hc] at hr ⊢
      cases hq : renderRow ops t x0 r y s with
      | none => rw [hq] at hr; exact absurd hr (by simp)
      | some q2 =>
        rw [hq] at hr
        obtain ⟨g1, g2⟩ := fin y s q2 hs hq hr
        rw [g1]
        exact g2

theorem renderLaid_le {ops ops' : TableOps (PState E)} (h : RelOps ops ops' P) {t : Tab} {rh : Int} {bottom : ℚ} {s s' : PState E}
    (hs : P s) (hr : renderLaid ops t rh bottom s = some s') : renderLaid ops' t rh bottom s = some s' ∧ P s' := by
  have fin : ∀ (x0 y1 : ℚ) (s1 : PState E) (q : ℚ × PState E), P s1 → renderRows ops t rh bottom x0 0 t.rows y1 s1 = some q →
      ops.setY q.1 q.2 = s' → renderRows ops' t rh bottom x0 0 t.rows y1 s1 = some q ∧ P s' := by
    intro x0 y1 s1 q hs1 h1 hr
    obtain ⟨h2, h3⟩ := renderRows_le h _ _ _ q.1 _ q.2 hs1 h1
    exact ⟨h2, hr ▸ h.setY_inv _ _ h3⟩
  unfold renderLaid at hr ⊢
  simp only [h.prevent, h.getXY, h.setY] at hr ⊢
  by_cases hc : (!ops.prevent s) = true ∧ (ops.getXY s).2 + headHeight t rh > bottom
  · simp only [if_pos hc] at hr ⊢
    rcases h.add with hp | ha
    · exact absurd hc.1 (by rw [hp s hs]; simp)
    · cases h1 : ops.addPage s with
      | none => rw [h1] at hr; exact absurd hr (by simp)
      | some s1 =>
        obtain ⟨h2, h3⟩ := ha s s1 hs h1
        simp only [h1] at hr
        simp only [h2]
        cases hq : renderRows ops t rh bottom (ops.getXY s).1 0 t.rows (ops.getXY s1).2 s1 with
        | none => rw [hq] at hr; exact absurd hr (by simp)
        | some q2 =>
          rw [hq] at hr
          obtain ⟨g1, g2⟩ := fin _ (ops.getXY s1).2 s1 q2 h3 hq (by simpa using hr)
          rw [g1]
          exact ⟨hr, g2⟩
  · simp only [if_neg hc] at hr ⊢
    cases hq : renderRows ops t rh bottom (ops.getXY s).1 0 t.rows (ops.getXY s).2 s with
    | none => rw [hq] at hr; exact absurd hr (by simp)
    | some q2 =>
      rw [hq] at hr
      obtain ⟨g1, g2⟩ := fin _ (ops.getXY s).2 s q2 hs hq (by simpa using hr)
      rw [g1]
      exact ⟨hr, g2⟩

theorem relOps (h : Rel eng P T c c') (hT : Texts T ctx.hyphenate) (t : Tab) : RelOps (tableOps eng ctx c t) (tableOps eng ctx c' t) P where
  getXY := rfl
  prevent := rfl
  setX := rfl
  setY := rfl
  setX_inv := h.setX
  setY_inv := h.setY
  cell pa id s s' hs hr := by
    obtain ⟨q, hq, e⟩ := Option.map_eq_some_iff.mp hr
    obtain ⟨h1, h2⟩ := renderCell_le h hT pa _ _ s hs q.1 q.2 hq
    exact ⟨Option.map_eq_some_iff.mpr ⟨q, h1, e⟩, e ▸ h2⟩
  add := by
    rcases h.add with hp | ha
    · exact Or.inl hp
    · refine Or.inr fun s s' hs hr => ?_
      obtain ⟨q, hq, e⟩ := Option.map_eq_some_iff.mp hr
      obtain ⟨h1, h2⟩ := ha s hs q.1 q.2 hq
      exact ⟨Option.map_eq_some_iff.mpr ⟨q, h1, e⟩, e ▸ h2⟩

theorem renderTable_le (h : Rel eng P T c c') (hT : Texts T ctx.hyphenate) (st : Styled) (rh : Int) (rows : List TableRow) :
    Le P (renderTable eng ctx c st rh rows) (renderTable eng ctx c' st rh rows) := by
  intro s hs a s' hr
  unfold renderTable at hr ⊢
  rw [bind_eq] at hr ⊢
  simp only [MonadState.get, getThe, MonadStateOf.get, StateT.get, Pure.pure, Option.bind_some] at hr ⊢
  cases ht : transformTable (textHeightFnc eng ctx) ctx.classes (Page.mk (eng.printableArea s.eng)) s.curr st rows s with
  | none => rw [ht] at hr; exact absurd hr (by simp)
  | some q =>
    obtain ⟨t, s1⟩ := q
    have hs1 := transformTable_inv (P := P) (fun sty iss w s hs => textHeightFnc_inv h sty iss w s hs) ht hs
    simp only [ht] at hr ⊢
    rw [bind_eq] at hr ⊢
    simp only [set, StateT.set, Pure.pure, Option.bind_some] at hr ⊢
    refine (Le.ite (P := P) (fun _ => resetStyles_le h) fun _ => (Le.ask _).bind fun pa => Le.bind ?_ fun _ => resetStyles_le h) s1 hs1 a s' hr
    intro s2 hs2 b s3 hr
    obtain ⟨s4, h4, e⟩ := Option.map_eq_some_iff.mp hr
    simp only [Prod.mk.injEq, true_and] at e
    obtain ⟨h5, h6⟩ := renderLaid_le (relOps h hT t) hs2 h4
    refine ⟨?_, e ▸ h6⟩
    simp only [h5, Option.map_some, e]

/-! ### Instructions -/

theorem processInstr_le (h : Rel eng P T c c') (hT : Texts T ctx.hyphenate) (i : Instr) (hb : Le P c.addPage c'.addPage ∨ i ≠ .pageBreak) :
    Le P (processInstr eng ctx c i) (processInstr eng ctx c' i) := by
  cases i with
  | font st => exact Le.get.bind fun s => changeFontM_le h _
  | lineFeed n => exact Le.upd (h.lineFeed _)
  | setX x => exact Le.upd (h.setX _)
  | setY y => exact Le.upd (h.setY _)
  | box st iss => exact (Le.ask _).bind fun pa => renderTextBox_le h hT _ _ _
  | text st iss => exact renderText_le h hT _ _
  | table st rh rows => exact renderTable_le h hT _ _ _
  | image st src => exact (Le.ask _).bind fun pa => renderImage_le h _ _ _
  | grid st rows parts =>
    simp only [processInstr, renderGridM]
    split
    · exact Le.none
    · exact Le.pure ()
  | pageBreak =>
    rcases hb with hb | hb
    · exact hb
    · exact absurd rfl hb
  | _ => exact Le.pure ()

theorem processInstrs_le (h : Rel eng P T c c') (hT : Texts T ctx.hyphenate) : ∀ (iss : List Instr), (Le P c.addPage c'.addPage ∨ .pageBreak ∉ iss) →
    Le P (processInstrs eng ctx c iss) (processInstrs eng ctx c' iss)
  | [], _ => Le.pure ()
  | i :: is, hb => by
    unfold processInstrs
    refine (processInstr_le h hT i (hb.imp_right fun hn e => hn (by simp [e]))).bind fun _ =>
      processInstrs_le h hT is (hb.imp_right fun hn hm => hn (List.mem_cons_of_mem _ hm))

end

/-! ### Header and footer -/

/-- `m'` returns what `m` returns, from states with `P` to states with `P'`. -/
def LeT (P P' : PState E → Prop) (m m' : M E α) : Prop := ∀ s, P s → ∀ a s', m s = some (a, s') → m' s = some (a, s') ∧ P' s'

/-- What an engine operation goes through: `H` where it calls, `H'` where it is called back, `D` at the end. -/
def ProgOk (H H' D : E → Prop) : Prog E α → Prop
  | .done e _ => D e
  | .header e k => H e ∧ ∀ e', H' e' → ProgOk H H' D (k e')
  | .footer e k => H e ∧ ∀ e', H' e' → ProgOk H H' D (k e')

theorem progOk_of_callsIn {Q : E → Prop} : ∀ {pr : Prog E α}, CallsIn Q pr → ProgOk Q (fun _ => True) (fun _ => True) pr
  | .done _ _, _ => trivial
  | .header _ _, h => ⟨h.1, fun e' _ => progOk_of_callsIn (h.2 e')⟩
  | .footer _ _, h => ⟨h.1, fun e' _ => progOk_of_callsIn (h.2 e')⟩

/-- A condition on the engine and one on the rest. -/
def Body (D : E → Prop) (C : Styles → Bool → Prop) (s : PState E) : Prop := D s.eng ∧ C s.curr s.prevent

theorem runProg_le {H H' D : E → Prop} {C : Styles → Bool → Prop} {hdr hdr' ftr ftr' : M E Unit}
    (hh : LeT (Body H C) (Body H' C) hdr hdr') (hf : LeT (Body H C) (Body H' C) ftr ftr') : ∀ (pr : Prog E α), ProgOk H H' D pr →
    LeT (fun s => C s.curr s.prevent) (Body D C) (runProg hdr ftr pr) (runProg hdr' ftr' pr)
  | .done e a, hp => by
    intro s hs b s' hr
    simp only [runProg, Option.some.injEq, Prod.mk.injEq] at hr
    refine ⟨by simp [runProg, hr], ?_⟩
    rw [← hr.2]
    exact ⟨hp, hs⟩
  | .header e k, hp => by
    intro s hs b s' hr
    unfold runProg at hr ⊢
    cases h1 : hdr { s with eng := e } with
    | none => rw [h1] at hr; exact absurd hr (by simp)
    | some q =>
      obtain ⟨h2, h3⟩ := hh { s with eng := e } ⟨hp.1, hs⟩ q.1 q.2 h1
      rw [h1] at hr
      rw [h2]
      exact runProg_le hh hf (k q.2.eng) (hp.2 _ h3.1) q.2 h3.2 b s' hr
  | .footer e k, hp => by
    intro s hs b s' hr
    unfold runProg at hr ⊢
    cases h1 : ftr { s with eng := e } with
    | none => rw [h1] at hr; exact absurd hr (by simp)
    | some q =>
      obtain ⟨h2, h3⟩ := hf { s with eng := e } ⟨hp.1, hs⟩ q.1 q.2 h1
      rw [h1] at hr
      rw [h2]
      exact runProg_le hh hf (k q.2.eng) (hp.2 _ h3.1) q.2 h3.2 b s' hr

theorem callback_eq {ctx : Ctx} (c : Calls E) (iss : List Instr) (s : PState E) :
    callback eng ctx c iss s = (processInstrs eng ctx c iss { s with prevent := true }).map fun q =>
      ((), { q.2 with prevent := false, eng := eng.setY (eng.getXY s.eng).2 (eng.setX (eng.getXY s.eng).1 q.2.eng) }) := by
  unfold callback
  rw [bind_eq]
  simp only [ask, Option.bind_some]
  rw [bind_eq]
  simp only [modify, modifyGet, MonadStateOf.modifyGet, StateT.modifyGet, Pure.pure, Option.bind_some]
  rw [bind_eq]
  cases processInstrs eng ctx c iss { s with prevent := true } with
  | none => rfl
  | some q => rfl

theorem callback_le {T : Str → Prop} {c c' : Calls E} {ctx : Ctx} {P0 P1 : PState E → Prop} (h : Rel eng P T c c') (hT : Texts T ctx.hyphenate)
    (iss : List Instr) (hb : Le P c.addPage c'.addPage ∨ .pageBreak ∉ iss) (h0 : ∀ s, P0 s → P { s with prevent := true })
    (h1 : ∀ s0 s, P0 s0 → P s → P1 { s with prevent := false, eng := eng.setY (eng.getXY s0.eng).2 (eng.setX (eng.getXY s0.eng).1 s.eng) }) :
    LeT P0 P1 (callback eng ctx c iss) (callback eng ctx c' iss) := by
  intro s hs a s' hr
  rw [callback_eq] at hr ⊢
  obtain ⟨q, hq, he⟩ := Option.map_eq_some_iff.mp hr
  obtain ⟨h2, h3⟩ := processInstrs_le h hT iss hb _ (h0 s hs) q.1 q.2 hq
  refine ⟨Option.map_eq_some_iff.mpr ⟨q, h2, he⟩, ?_⟩
  simp only [Prod.mk.injEq, true_and] at he
  exact he ▸ h1 s q.2 hs h3


/-! ### Everything returns -/

/-- `m` returns. -/
def Ret (P : PState E → Prop) (m : M E α) : Prop := ∀ s, P s → ∃ a s', m s = some (a, s')

theorem Ret.pure (a : α) : Ret P (pure a : M E α) := fun s _ => ⟨a, s, rfl⟩
theorem Ret.get : Ret P (get : M E (PState E)) := fun s _ => ⟨s, s, rfl⟩
theorem Ret.upd {f : E → E} : Ret P (upd f) := fun _ _ => ⟨_, _, rfl⟩
theorem Ret.ask (f : E → α) : Ret P (ask f) := fun _ _ => ⟨_, _, rfl⟩
theorem Ret.total {f : PState E → α × PState E} : Ret P (total f) := fun _ _ => ⟨_, _, rfl⟩

theorem Ret.ite {p : Prop} [Decidable p] {m k : M E α} (h1 : p → Ret P m) (h2 : ¬ p → Ret P k) : Ret P (if p then m else k) := by
  split
  · exact h1 ‹_›
  · exact h2 ‹_›

theorem Ret.bind {m : M E α} {k : α → M E β} (h : Ret P m) (hl : Le P m m) (hk : ∀ a, Ret P (k a)) : Ret P (m >>= k) := by
  intro s hs
  obtain ⟨a, s1, h1⟩ := h s hs
  obtain ⟨_, hs1⟩ := hl s hs a s1 h1
  obtain ⟨b, s2, h2⟩ := hk a s1 hs1
  exact ⟨b, s2, by rw [bind_eq, h1]; exact h2⟩

/-- The engine calls return, where they are made. -/
structure Rets (P : PState E → Prop) (c : Calls E) : Prop where
  write : ∀ t, Ret P (c.writeText t)
  add : (∀ s, P s → s.prevent = true) ∨ Ret P c.addPage

section
variable {c : Calls E} {ctx : Ctx}

private abbrev RelT (eng : Engine E) (P : PState E → Prop) (c : Calls E) := Rel eng P (fun _ => True) c c

theorem writeItems_ret (h : RelT eng P c) (hr : Rets P c) : ∀ (items : List TextItem), Ret P (writeItems eng c items)
  | [] => Ret.pure ()
  | i :: is => by
    unfold writeItems
    exact Ret.bind (fun s _ => ⟨_, _, rfl⟩) (changeFontM_le h _) fun _ => Ret.bind (hr.write _) (h.write _ trivial) fun _ => writeItems_ret h hr is

theorem writeSpaced_ret (h : RelT eng P c) (hr : Rets P c) (gap : ℚ) : ∀ (items : List TextItem), Ret P (writeSpaced eng c gap items)
  | [] => Ret.pure ()
  | i :: is => by
    unfold writeSpaced
    exact Ret.bind (fun s _ => ⟨_, _, rfl⟩) (changeFontM_le h _) fun _ => Ret.bind (hr.write _) (h.write _ trivial) fun _ =>
      (Ret.ask _).bind (Le.ask _) fun xy => Ret.upd.bind (Le.upd (h.setX _)) fun _ => writeSpaced_ret h hr gap is

theorem alignLine_ret (ha : Str) (x w : ℚ) (l : TextLine) : Ret P (alignLine eng ha x w l) := by
  unfold alignLine
  exact Ret.ite (fun _ => Ret.upd) fun _ => Ret.ite (fun _ => Ret.upd) fun _ => Ret.ite (fun _ => Ret.upd) fun _ => Ret.pure ()

theorem writeLines_ret (h : RelT eng P c) (hr : Rets P c) (sty : Styles) (x w : ℚ) : ∀ (lines : List TextLine), Ret P (writeLines eng c sty x w lines)
  | [] => Ret.pure ()
  | l :: ls => by
    unfold writeLines
    exact (alignLine_ret _ _ _ _).bind (alignLine_le h _ _ _ _) fun _ =>
      (writeItems_ret h hr _).bind (writeItems_le h _ fun _ _ => trivial) fun _ => Ret.upd.bind (Le.upd (h.lineFeed _)) fun _ =>
      writeLines_ret h hr sty x w ls

theorem writeHyphLines_ret (h : RelT eng P c) (hr : Rets P c) (sty : Styles) (x w : ℚ) : ∀ (lines : List TextLine),
    Ret P (writeHyphLines eng c sty x w lines)
  | [] => Ret.pure ()
  | l :: ls => by
    unfold writeHyphLines writeHyphLine
    exact Ret.upd.bind (Le.upd (h.setX _)) fun _ => (Ret.ite (fun _ => writeItems_ret h hr _) fun _ => writeSpaced_ret h hr _ _).bind
      (Le.ite (fun _ => writeItems_le h _ fun _ _ => trivial) fun _ => writeSpaced_le h _ _ fun _ _ => trivial) fun _ =>
      Ret.upd.bind (Le.upd (h.lineFeed _)) fun _ => writeHyphLines_ret h hr sty x w ls

theorem writeTextFnc_ret (h : RelT eng P c) (hr : Rets P c) (iss : List Instr) (width : ℚ) (sty : Styles) : Ret P (writeTextFnc eng ctx c iss width sty) := by
  unfold writeTextFnc writeTextHyphenated Model.writeText
  refine Ret.ite (fun _ => ?_) fun _ => ?_
  · exact Ret.upd.bind (Le.upd (h.font _)) fun _ => Ret.upd.bind (Le.upd (h.color _)) fun _ =>
      Ret.total.bind (Le.total (textLinesHyph_inv h _ _ _ _ _)) fun _ => (Ret.ask _).bind (Le.ask _) fun _ => writeHyphLines_ret h hr _ _ _ _
  · exact Ret.upd.bind (Le.upd (h.font _)) fun _ => Ret.upd.bind (Le.upd (h.color _)) fun _ =>
      Ret.total.bind (Le.total (textLines_inv h _ _ _ _)) fun _ => (Ret.ask _).bind (Le.ask _) fun _ => writeLines_ret h hr _ _ _ _

theorem resetStyles_ret : Ret P (resetStyles eng) := fun _ _ => ⟨_, _, rfl⟩
theorem drawBoxM_ret (x0 y0 x1 y1 : ℚ) (sty : Styles) : Ret P (drawBoxM eng x0 y0 x1 y1 sty) := fun _ _ => ⟨_, _, rfl⟩

theorem renderText_ret (h : RelT eng P c) (hr : Rets P c) (st : Styled) (iss : List Instr) : Ret P (renderText eng ctx c st iss) := by
  unfold renderText
  exact Ret.ite (fun _ => Ret.pure ()) fun _ => Ret.get.bind Le.get fun _ => (Ret.ask _).bind (Le.ask _) fun _ =>
    (writeTextFnc_ret h hr _ _ _).bind (writeTextFnc_le h (Texts.all _) _ _ _) fun _ => resetStyles_ret

theorem boxHeight_ret (sty : Styles) (iss : List Instr) (width : ℚ) : Ret P (boxHeight eng ctx sty iss width) := by
  unfold boxHeight
  exact Ret.ite (fun _ => Ret.ite (fun _ => Ret.total) fun _ => Ret.ask _) fun _ => Ret.pure _

theorem boxStart_ret (h : RelT eng P c) (hr : Rets P c) (height : ℚ) : Ret P (boxStart eng c height) := by
  unfold boxStart
  rcases hr.add with hp | ha
  · intro s hs
    refine ⟨eng.getXY s.eng, s, ?_⟩
    rw [bind_eq]
    simp only [MonadState.get, getThe, MonadStateOf.get, StateT.get, Pure.pure, Option.bind_some]
    rw [if_neg (by rw [hp s hs]; simp)]
    rfl
  · rcases h.add with hp | hl
    · intro s hs
      refine ⟨eng.getXY s.eng, s, ?_⟩
      rw [bind_eq]
      simp only [MonadState.get, getThe, MonadStateOf.get, StateT.get, Pure.pure, Option.bind_some]
      rw [if_neg (by rw [hp s hs]; simp)]
      rfl
    · exact Ret.get.bind Le.get fun s => Ret.ite (fun _ => ha.bind hl fun _ => Ret.ask _) fun _ => Ret.pure _

theorem renderTextBox_ret (h : RelT eng P c) (hr : Rets P c) (st : Styled) (iss : List Instr) (pa : Area) :
    Ret P (renderTextBox eng ctx c st iss pa) := by
  have fin : ∀ y1, Ret P (do upd (eng.setY y1); resetStyles eng) := fun y1 => Ret.upd.bind (Le.upd (h.setY _)) fun _ => resetStyles_ret
  unfold renderTextBox
  exact Ret.get.bind Le.get fun s => (boxHeight_ret _ _ _).bind (boxHeight_le h _ _ _) fun _ => (boxStart_ret h hr _).bind (boxStart_le h _) fun _ =>
    (drawBoxM_ret _ _ _ _ _).bind (drawBoxM_le h _ _ _ _ _) fun _ => Ret.upd.bind (Le.upd (h.setY _)) fun _ => Ret.upd.bind (Le.upd (h.setX _)) fun _ =>
    Ret.ite (fun _ => (writeTextFnc_ret h hr _ _ _).bind (writeTextFnc_le h (Texts.all _) _ _ _) fun _ => fin _)
      fun _ => (Ret.pure _).bind (Le.pure _) fun _ => fin _

theorem textBoxHeight_ret (h : RelT eng P c) (st : Styled) (iss : List Instr) (pa : Area) : Ret P (textBoxHeight eng ctx st iss pa) := by
  unfold textBoxHeight
  exact Ret.get.bind Le.get fun s => (boxHeight_ret _ _ _).bind (boxHeight_le h _ _ _) fun _ => resetStyles_ret.bind (resetStyles_le h) fun _ => Ret.pure _

theorem renderImage_ret (st : Styled) (source : Str) (pa : Area) : Ret P (renderImage eng ctx st source pa) := by
  unfold renderImage
  simp only
  split
  · exact Ret.pure ()
  · exact fun _ _ => ⟨_, _, rfl⟩

theorem renderCellItems_ret (h : RelT eng P c) (hr : Rets P c) (v : Str) (pa : Area) : ∀ (iss : List Instr), Ret P (renderCellItems eng ctx c v pa iss) := by
  intro iss
  induction iss with
  | nil => exact Ret.pure ()
  | cons is iss ih =>
    cases is with
    | box st b =>
      exact (textBoxHeight_ret h _ _ _).bind (textBoxHeight_le h _ _ _) fun _ => Ret.upd.bind (Le.upd (h.setY _)) fun _ =>
        (renderTextBox_ret h hr _ _ _).bind (renderTextBox_le h (Texts.all _) _ _ _) fun _ => ih
    | image st src => exact Ret.upd.bind (Le.upd (h.setY _)) fun _ => (renderImage_ret _ _ _).bind (renderImage_le h _ _ _) fun _ => ih
    | _ => exact ih

theorem renderCell_ret (h : RelT eng P c) (hr : Rets P c) (pa : Area) (sty : Styles) (iss : List Instr) : Ret P (renderCell eng ctx c pa sty iss) := by
  have ht : Ret P (renderCellText eng ctx c pa sty iss) := Ret.total.bind (Le.total (textHeight_inv h _ _ _ _)) fun _ =>
    Ret.upd.bind (Le.upd (h.setY _)) fun _ => Ret.upd.bind (Le.upd (h.setX _)) fun _ => writeTextFnc_ret h hr _ _ _
  have hl : Le P (renderCellText eng ctx c pa sty iss) (renderCellText eng ctx c pa sty iss) :=
    (Le.total (textHeight_inv h _ _ _ _)).bind fun _ => (Le.upd (h.setY _)).bind fun _ => (Le.upd (h.setX _)).bind fun _ =>
    writeTextFnc_le h (Texts.all _) _ _ _
  have fin : Ret P (do upd (eng.setX (pa.withPadding sty.box.padding).x0); renderCellItems eng ctx c sty.align.v (pa.withPadding sty.box.padding) iss) :=
    Ret.upd.bind (Le.upd (h.setX _)) fun _ => renderCellItems_ret h hr _ _ _
  unfold renderCell
  exact (drawBoxM_ret _ _ _ _ _).bind (drawBoxM_le h _ _ _ _ _) fun _ => Ret.ite (fun _ => ht.bind hl fun _ => fin)
    fun _ => (Ret.pure ()).bind (Le.pure ()) fun _ => fin

/-- The operations of a table return. -/
structure RetOps (ops : TableOps (PState E)) (P : PState E → Prop) : Prop where
  cell : ∀ pa id s, P s → ∃ s', ops.renderCell pa id s = some s'
  add : (∀ s, P s → ops.prevent s = true) ∨ ∀ s, P s → ∃ s', ops.addPage s = some s'

theorem renderRowCells_ret {ops : TableOps (PState E)} (h : RelOps ops ops P) (hr : RetOps ops P) {t : Tab} {y : ℚ} : ∀ (ids : List Nat) (x : ℚ)
    (s : PState E), P s → ∃ s', renderRowCells ops t y x ids s = some s'
  | [], x, s, hs => ⟨s, rfl⟩
  | id :: ids, x, s, hs => by
    unfold renderRowCells
    simp only
    split
    · exact renderRowCells_ret h hr ids _ _ hs
    · obtain ⟨s1, h1⟩ := hr.cell { x0 := x, y0 := y, x1 := x + (t.dim id).1, y1 := y + (t.dim id).2 } id s hs
      rw [h1]
      exact renderRowCells_ret h hr ids _ _ (h.cell _ _ _ _ hs h1).2

theorem renderRow_ret {ops : TableOps (PState E)} (h : RelOps ops ops P) (hr : RetOps ops P) {t : Tab} {x0 y : ℚ} {row : TRow} {s : PState E}
    (hs : P s) : ∃ q, renderRow ops t x0 row y s = some q ∧ P q.2 := by
  unfold renderRow
  obtain ⟨s1, h1⟩ := renderRowCells_ret h hr (t := t) (y := y) row.cells x0 s hs
  rw [h1]
  exact ⟨_, rfl, h.setX_inv _ _ (renderRowCells_le h _ _ _ _ hs h1).2⟩

theorem renderHeader_ret {ops : TableOps (PState E)} (h : RelOps ops ops P) (hr : RetOps ops P) {t : Tab} {x0 : ℚ} : ∀ (rows : List TRow) (y : ℚ)
    (s : PState E), P s → ∃ q, renderHeader ops t x0 rows y s = some q ∧ P q.2
  | [], y, s, hs => ⟨(y, s), rfl, hs⟩
  | r :: rs, y, s, hs => by
    unfold renderHeader
    obtain ⟨q, h1, h2⟩ := renderRow_ret h hr (t := t) (x0 := x0) (y := y) (row := r) hs
    rw [h1]
    exact renderHeader_ret h hr rs _ _ h2

theorem renderRows_ret {ops : TableOps (PState E)} (h : RelOps ops ops P) (hr : RetOps ops P) {t : Tab} {rh : Int} {bottom x0 : ℚ} : ∀ (rows : List TRow)
    (i : Nat) (y : ℚ) (s : PState E), P s → ∃ q, renderRows ops t rh bottom x0 i rows y s = some q
  | [], i, y, s, hs => ⟨(y, s), rfl⟩
  | r :: rs, i, y, s, hs => by
    have fin : ∀ (y2 : ℚ) (s2 : PState E), P s2 → ∃ q q', renderRow ops t x0 r y2 s2 = some q ∧
        renderRows ops t rh bottom x0 (i + 1) rs q.1 q.2 = some q' := by
      intro y2 s2 hs2
      obtain ⟨q, h1, h2⟩ := renderRow_ret h hr (t := t) (x0 := x0) (y := y2) (row := r) hs2
      obtain ⟨q', h3⟩ := renderRows_ret h hr rs (i + 1) q.1 q.2 h2
      exact ⟨q, q', h1, h3⟩
    unfold renderRows
    by_cases hc : (!ops.prevent s) = true ∧ y + t.maxCellHeight r > bottom
    · simp only [if_pos hc]
      rcases hr.add with hp | ha
      · exact absurd hc.1 (by rw [hp s hs]; simp)
      rcases h.add with hp | hl
      · exact absurd hc.1 (by rw [hp s hs]; simp)
      obtain ⟨s1, h1⟩ := ha s hs
      have hs1 := (hl s s1 hs h1).2
      simp only [h1]
      by_cases hh : i > 0 ∧ rh > 0
      · simp only [if_pos hh]
        obtain ⟨q, h2, h3⟩ := renderHeader_ret h hr (t := t) (x0 := x0) (t.rows.take rh.toNat) (ops.getXY s1).2 s1 hs1
        simp only [h2]
        obtain ⟨q1, q2, g1, g2⟩ := fin q.1 q.2 h3
        exact ⟨q2, by rw [g1]; exact g2⟩
      · simp only [if_neg hh]
        obtain ⟨q1, q2, g1, g2⟩ := fin (ops.getXY s1).2 s1 hs1
        exact ⟨q2, by rw [g1]; exact g2⟩
    · simp only [if_neg hc]
      obtain ⟨q1, q2, g1, g2⟩ := fin y s hs
      exact ⟨q2, by rw [g1]; exact g2⟩

theorem renderLaid_ret {ops : TableOps (PState E)} (h : RelOps ops ops P) (hr : RetOps ops P) {t : Tab} {rh : Int} {bottom : ℚ} {s : PState E}
    (hs : P s) : ∃ s', renderLaid ops t rh bottom s = some s' := by
  unfold renderLaid
  by_cases hc : (!ops.prevent s) = true ∧ (ops.getXY s).2 + headHeight t rh > bottom
  · simp only [if_pos hc]
    rcases hr.add with hp | ha
    · exact absurd hc.1 (by rw [hp s hs]; simp)
    rcases h.add with hp | hl
    · exact absurd hc.1 (by rw [hp s hs]; simp)
    obtain ⟨s1, h1⟩ := ha s hs
    simp only [h1]
    obtain ⟨q, h2⟩ := renderRows_ret h hr (t := t) (rh := rh) (bottom := bottom) (x0 := (ops.getXY s).1) t.rows 0 (ops.getXY s1).2 s1 (hl s s1 hs h1).2
    exact ⟨_, by rw [h2]⟩
  · simp only [if_neg hc]
    obtain ⟨q, h2⟩ := renderRows_ret h hr (t := t) (rh := rh) (bottom := bottom) (x0 := (ops.getXY s).1) t.rows 0 (ops.getXY s).2 s hs
    exact ⟨_, by rw [h2]⟩

theorem renderTable_ret (h : RelT eng P c) (hr : Rets P c) (st : Styled) (rh : Int) (rows : List TableRow) :
    Ret P (renderTable eng ctx c st rh rows) := by
  intro s hs
  unfold renderTable
  rw [bind_eq]
  simp only [MonadState.get, getThe, MonadStateOf.get, StateT.get, Pure.pure, Option.bind_some]
  cases ht : transformTable (textHeightFnc eng ctx) ctx.classes (Page.mk (eng.printableArea s.eng)) s.curr st rows s with
  | none => exact absurd ht (Props.C21_no_panic _ _ _ _ _ _ _)
  | some q =>
    obtain ⟨t, s1⟩ := q
    have hs1 := transformTable_inv (P := P) (fun sty iss w s hs => textHeightFnc_inv h sty iss w s hs) ht hs
    simp only
    rw [bind_eq]
    simp only [set, StateT.set, Pure.pure, Option.bind_some]
    have hops := relOps (ctx := ctx) h (Texts.all _) t
    have hret : RetOps (tableOps eng ctx c t) P := by
      refine ⟨fun pa id s hs => ?_, hr.add.imp_right fun ha s hs => ?_⟩
      · obtain ⟨a, s', h1⟩ := renderCell_ret (ctx := ctx) h hr pa (t.cell id).styles (t.cell id).iss s hs
        exact ⟨s', by show Option.map _ _ = _; rw [h1]; rfl⟩
      · obtain ⟨a, s', h1⟩ := ha s hs
        exact ⟨s', by show Option.map _ _ = _; rw [h1]; rfl⟩
    refine (Ret.ite (P := P) (fun _ => resetStyles_ret) fun _ => (Ret.ask _).bind (Le.ask _) fun pa => ?_) s1 hs1
    intro s2 hs2
    obtain ⟨s3, h3⟩ := renderLaid_ret hops hret (t := t) (rh := rh) (bottom := pa.y1) hs2
    rw [bind_eq, h3]
    exact ⟨_, _, rfl⟩

theorem processInstr_ret (h : RelT eng P c) (hr : Rets P c) (i : Instr) (hb : Ret P c.addPage ∨ i ≠ .pageBreak) :
    Ret P (processInstr eng ctx c i) := by
  cases i with
  | font st => exact Ret.get.bind Le.get fun s => fun _ _ => ⟨_, _, rfl⟩
  | lineFeed n => exact Ret.upd
  | setX x => exact Ret.upd
  | setY y => exact Ret.upd
  | box st iss => exact (Ret.ask _).bind (Le.ask _) fun pa => renderTextBox_ret h hr _ _ _
  | text st iss => exact renderText_ret h hr _ _
  | table st rh rows => exact renderTable_ret h hr _ _ _
  | image st src => exact (Ret.ask _).bind (Le.ask _) fun pa => renderImage_ret _ _ _
  | grid st rows parts =>
    simp only [processInstr, renderGridM]
    split
    · rename_i hp; exact absurd hp (Props.C32_no_panic id (fun m => List.Perm.refl _) _)
    · exact Ret.pure ()
  | pageBreak =>
    rcases hb with hb | hb
    · exact hb
    · exact absurd rfl hb
  | _ => exact Ret.pure ()

theorem processInstrs_ret (h : RelT eng P c) (hr : Rets P c) : ∀ (iss : List Instr), ((Ret P c.addPage ∧ Le P c.addPage c.addPage) ∨ .pageBreak ∉ iss) →
    Ret P (processInstrs eng ctx c iss)
  | [], _ => Ret.pure ()
  | i :: is, hb => by
    unfold processInstrs
    refine (processInstr_ret h hr i (hb.imp (·.1) fun hn e => hn (by simp [e]))).bind
      (processInstr_le h (Texts.all _) i (hb.imp (·.2) fun hn e => hn (by simp [e]))) fun _ =>
      processInstrs_ret h hr is (hb.imp_right fun hn hm => hn (List.mem_cons_of_mem _ hm))

theorem callback_ret {P0 : PState E → Prop} (h : RelT eng P c) (hr : Rets P c) (iss : List Instr)
    (hb : (Ret P c.addPage ∧ Le P c.addPage c.addPage) ∨ .pageBreak ∉ iss) (h0 : ∀ s, P0 s → P { s with prevent := true }) :
    Ret P0 (callback eng ctx c iss) := by
  intro s hs
  obtain ⟨a, s1, h1⟩ := processInstrs_ret (ctx := ctx) h hr iss hb _ (h0 s hs)
  exact ⟨_, _, by rw [callback_eq, h1]; rfl⟩

theorem runProg_ret {Q : E → Prop} {hdr ftr : M E Unit} (hh : Ret (fun s => Q s.eng) hdr) (hf : Ret (fun s => Q s.eng) ftr) :
    ∀ (pr : Prog E α), CallsIn Q pr → Ret (fun _ => True) (runProg hdr ftr pr)
  | .done e a, _ => fun _ _ => ⟨_, _, rfl⟩
  | .header e k, hp => by
    intro s _
    unfold runProg
    obtain ⟨_, s1, h1⟩ := hh { s with eng := e } hp.1
    rw [h1]
    exact runProg_ret hh hf (k s1.eng) (hp.2 _) s1 trivial
  | .footer e k, hp => by
    intro s _
    unfold runProg
    obtain ⟨_, s1, h1⟩ := hf { s with eng := e } hp.1
    rw [h1]
    exact runProg_ret hh hf (k s1.eng) (hp.2 _) s1 trivial

end

end Verif.Proofs
