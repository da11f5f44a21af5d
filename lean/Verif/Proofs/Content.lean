import Verif.Spec.Content
import Verif.Proofs.Process
/-
What the processor puts into the document, function by function (for C73).
-/
namespace Verif.Proofs
open Verif.Go Verif.Model Verif.Spec

variable {E : Type} {eng : Engine E} {c : Calls E} {ctx : Ctx} {α β : Type}

theorem _root_.Verif.Spec.Did.append {s s1 s2 : PState E} {ps qs : List Put} (h : Did eng c s ps s1) (h' : Did eng c s1 qs s2) : Did eng c s (ps ++ qs) s2 := by
  induction h with
  | nil => exact h'
  | silent q _ ih => exact .silent q (ih h')
  | text q _ ih => exact .text q (ih h')
  | image src x y w h _ ih => exact .image src x y w h (ih h')
  | page q _ ih => exact .page q (ih h')

theorem _root_.Verif.Spec.Did.one {s s1 : PState E} (h : Silent eng s s1) : Did eng c s [] s1 := .silent h (.nil _)

theorem _root_.Verif.Spec.Did.then {s s1 s2 : PState E} {ps : List Put} (h : Did eng c s ps s1) (h' : Silent eng s1 s2) : Did eng c s ps s2 := by
  have := h.append (Did.one (c := c) h')
  rwa [List.append_nil] at this

/-- `mm` puts something with `R`. -/
def Puts (eng : Engine E) (c : Calls E) (R : List Put → Prop) (mm : M E α) : Prop :=
  ∀ s a s', mm s = some (a, s') → ∃ ps, R ps ∧ Did eng c s ps s'

/-- Nothing is put. -/
abbrev Nothing (eng : Engine E) (c : Calls E) (mm : M E α) : Prop := Puts eng c (· = []) mm

theorem Puts.mono {R R' : List Put → Prop} {mm : M E α} (h : Puts eng c R mm) (hR : ∀ ps, R ps → R' ps) : Puts eng c R' mm := by
  intro s a s' hr
  obtain ⟨ps, h1, h2⟩ := h s a s' hr
  exact ⟨ps, hR ps h1, h2⟩

theorem Puts.bind {R R' R'' : List Put → Prop} {mm : M E α} {k : α → M E β} (h : Puts eng c R mm) (hk : ∀ a, Puts eng c R' (k a))
    (hR : ∀ ps qs, R ps → R' qs → R'' (ps ++ qs)) : Puts eng c R'' (mm >>= k) := by
  intro s b s' hr
  obtain ⟨a, s1, h1, h2⟩ := bind_some hr
  obtain ⟨ps, h3, h4⟩ := h s a s1 h1
  obtain ⟨qs, h5, h6⟩ := hk a s1 b s' h2
  exact ⟨ps ++ qs, hR _ _ h3 h5, Did.append h4 h6⟩

theorem Puts.after {R : List Put → Prop} {mm : M E α} {k : α → M E β} (h : Nothing eng c mm) (hk : ∀ a, Puts eng c R (k a)) :
    Puts eng c R (mm >>= k) := h.bind hk (by rintro ps qs rfl hq; exact hq)

theorem Puts.before {R : List Put → Prop} {mm : M E α} {k : α → M E β} (h : Puts eng c R mm) (hk : ∀ a, Nothing eng c (k a)) :
    Puts eng c R (mm >>= k) := h.bind hk (by rintro ps qs hp rfl; rwa [List.append_nil])

theorem Puts.pure (a : α) : Nothing eng c (pure a : M E α) := by
  intro s b s' h
  simp only [Pure.pure, StateT.pure, Option.some.injEq, Prod.mk.injEq] at h
  exact ⟨[], rfl, h.2 ▸ .nil _⟩

theorem Puts.get : Nothing eng c (get : M E (PState E)) := by
  intro s a s' h
  simp only [MonadState.get, getThe, MonadStateOf.get, StateT.get, Pure.pure, Option.some.injEq, Prod.mk.injEq] at h
  exact ⟨[], rfl, h.2 ▸ .nil _⟩

theorem Puts.ask (f : E → α) : Nothing eng c (ask f) := by
  intro s a s' h
  simp only [Model.ask, Option.some.injEq, Prod.mk.injEq] at h
  exact ⟨[], rfl, h.2 ▸ .nil _⟩

theorem Puts.upd {f : E → E} (h : ∀ s, Silent eng s { s with eng := f s.eng }) : Nothing eng c (upd f) := by
  intro s a s' hr
  simp only [Model.upd, Option.some.injEq, Prod.mk.injEq] at hr
  exact ⟨[], rfl, hr.2 ▸ Did.one (h s)⟩

theorem Puts.total {f : PState E → α × PState E} (h : ∀ s, Did eng c s [] (f s).2) : Nothing eng c (total f) := by
  intro s a s' hr
  simp only [Model.total, Option.some.injEq] at hr
  have := h s
  rw [hr] at this
  exact ⟨[], rfl, this⟩

theorem Puts.ite {R : List Put → Prop} {p : Prop} [Decidable p] {mm k : M E α} (h1 : p → Puts eng c R mm) (h2 : ¬ p → Puts eng c R k) :
    Puts eng c R (if p then mm else k) := by
  split
  · exact h1 ‹_›
  · exact h2 ‹_›

/-! ### Nothing is put by measuring and drawing -/

theorem did_changeFont (f : Font) (s : PState E) : Did eng c s [] (changeFont eng f s) := Did.one (.fontKept f s)

theorem linesLoop_did {cs : Classes} {width : ℚ} {sty : Styles} : ∀ (iss : List Instr) (acc : List TextLine × TextLine) (s : PState E),
    Did eng c s [] (linesLoop eng cs width sty iss acc s).2 := by
  intro iss
  induction iss with
  | nil => intro acc s; exact .nil _
  | cons is iss ih =>
    intro acc s
    cases is with
    | textBlock t =>
      simp only [linesLoop, textOf]
      split
      · exact ih _ _
      · exact (did_changeFont sty.font s).append (ih _ _)
    | paragraph st t =>
      simp only [linesLoop, textOf]
      split
      · exact ih _ _
      · exact (did_changeFont _ s).append (ih _ _)
    | _ => exact ih _ _

theorem linesLoopHyph_did {hyph : Str → List Str} {cs : Classes} {width : ℚ} {sty : Styles} : ∀ (iss : List Instr)
    (acc : List TextLine × TextLine) (s : PState E), Did eng c s [] (linesLoopHyph eng hyph cs width sty iss acc s).2 := by
  intro iss
  induction iss with
  | nil => intro acc s; exact .nil _
  | cons is iss ih =>
    intro acc s
    cases is with
    | textBlock t => exact (did_changeFont sty.font s).append (ih _ _)
    | paragraph st t => exact (did_changeFont _ s).append (ih _ _)
    | _ => exact ih _ _

theorem textHeight_did (cs : Classes) (iss : List Instr) (width : ℚ) (sty : Styles) (s : PState E) :
    Did eng c s [] (textHeight eng cs iss width sty s).2 := .silent (.font sty.font s) (linesLoop_did _ _ _)

theorem textHeightFnc_did (sty : Styles) (iss : List Instr) (width : ℚ) (s : PState E) :
    Did eng c s [] (textHeightFnc eng ctx sty iss width s).2 := by
  unfold textHeightFnc
  split
  · exact .silent (.font sty.font s) (linesLoopHyph_did _ _ _)
  · exact textHeight_did _ _ _ _ _

theorem changeFontM_puts (f : Font) : Nothing eng c (changeFontM eng f) := by
  intro s a s' hr
  simp only [changeFontM, Option.some.injEq, Prod.mk.injEq] at hr
  exact ⟨[], rfl, hr.2 ▸ did_changeFont f s⟩

theorem resetStyles_puts : Nothing eng c (resetStyles eng) := by
  intro s a s' hr
  simp only [resetStyles, Option.some.injEq, Prod.mk.injEq] at hr
  exact ⟨[], rfl, hr.2 ▸ .silent (.font s.curr.font s) (Did.one (.color s.curr.color.text { s with eng := eng.changeFont s.curr.font s.eng }))⟩

theorem drawBoxM_puts (x0 y0 x1 y1 : ℚ) (sty : Styles) : Nothing eng c (drawBoxM eng x0 y0 x1 y1 sty) := by
  intro s a s' hr
  simp only [drawBoxM, Model.upd, Option.some.injEq, Prod.mk.injEq] at hr
  refine ⟨[], rfl, hr.2 ▸ ?_⟩
  generalize drawBox x0 y0 x1 y1 sty = cmds
  clear hr
  induction cmds generalizing s with
  | nil => exact .nil _
  | cons d cmds ih => exact .silent (.draw d s) (ih { s with eng := eng.draw d s.eng })

/-! ### The words on the lines -/

/-- All texts of the lines and the current line. -/
def allTexts (acc : List TextLine × TextLine) : List Str := (acc.1.flatMap (·.items) ++ acc.2.items).map (·.text)

theorem allTexts_close (acc : List TextLine × TextLine) : ((closeLines acc).flatMap (·.items)).map (·.text) = allTexts acc := by
  unfold closeLines allTexts
  split
  · simp
  · rename_i h
    have : acc.2.items = [] := List.length_eq_zero_iff.mp (by omega)
    simp [this]

theorem allTexts_closeHyph (acc : List TextLine × TextLine) : ((closeLinesHyph acc).flatMap (·.items)).map (·.text) = allTexts acc := by
  unfold closeLinesHyph allTexts
  split
  · simp
  · rename_i h
    have : acc.2.items = [] := List.length_eq_zero_iff.mp (by omega)
    simp [this]

theorem markLast_items : ∀ ls : List TextLine, (markLast ls).flatMap (·.items) = ls.flatMap (·.items)
  | [] => rfl
  | [l] => rfl
  | l :: m :: ls => by simp only [markLast, List.flatMap_cons, markLast_items (m :: ls)]

variable {hyph : Str → List Str}

theorem _root_.Verif.Spec.Written.append {ws ws' ts ts' : List Str} (h : Written hyph ws ts) (h' : Written hyph ws' ts') :
    Written hyph (ws ++ ws') (ts ++ ts') := by
  induction h with
  | nil => exact h'
  | whole q _ ih => exact .whole q ih
  | broken i h1 h2 h3 h4 _ ih => exact .broken i h1 h2 h3 h4 ih
  | blank q _ ih => exact .blank q ih

/-- Words, the blank ones left out. -/
theorem _root_.Verif.Spec.Written.solid {w : Str} {ts : List Str} (h0 : (hyph []).length ≤ 1) (h : Written hyph [w] ts) : Written hyph ([w].filter (· ≠ [])) ts := by
  by_cases hw : w = []
  · subst hw
    simp only [ne_eq, not_true_eq_false, decide_false, Bool.false_eq_true, not_false_eq_true, List.filter_cons_of_neg, List.filter_nil]
    generalize hz : [([] : Str)] = z at h
    induction h with
    | nil => exact .nil
    | whole q hr ih =>
      simp only [List.cons.injEq] at hz
      obtain ⟨rfl, rfl⟩ := hz
      exact .blank q hr
    | broken i h1 h2 h3 h4 hr ih =>
      simp only [List.cons.injEq] at hz
      obtain ⟨rfl, rfl⟩ := hz
      omega
    | blank q hr ih => exact .blank q (ih hz)
  · rw [List.filter_cons_of_pos (by simpa using hw)]
    exact h

theorem wrapWord_texts (tw : Str → ℚ) (width : ℚ) (sty : Styles) (acc : List TextLine × TextLine) (w : Str) :
    ∃ t, (t = w ∨ t = 32 :: w) ∧ allTexts (wrapWord tw width sty acc w) = allTexts acc ++ [t] := by
  unfold wrapWord allTexts
  simp only
  split
  · simp only [TextLine.empty, List.length_nil, Nat.lt_irrefl, if_false, gt_iff_lt]
    exact ⟨w, .inl rfl, by simp⟩
  · split
    · exact ⟨32 :: w, .inr rfl, by simp⟩
    · exact ⟨w, .inl rfl, by simp⟩

theorem wrapWords_texts (tw : Str → ℚ) (width : ℚ) (sty : Styles) : ∀ (ws : List Str) (acc : List TextLine × TextLine),
    ∃ ts, Written hyph ws ts ∧ allTexts (ws.foldl (wrapWord tw width sty) acc) = allTexts acc ++ ts
  | [], acc => ⟨[], .nil, by simp⟩
  | w :: ws, acc => by
    obtain ⟨t, h1, h2⟩ := wrapWord_texts tw width sty acc w
    obtain ⟨ts, h3, h4⟩ := wrapWords_texts tw width sty ws (wrapWord tw width sty acc w)
    exact ⟨t :: ts, .whole h1 h3, by rw [List.foldl_cons, h4, h2]; simp⟩

theorem wrapWordHyph_texts (tw : Str → ℚ) (width : ℚ) (sty : Styles) (acc : List TextLine × TextLine) (w : Str) :
    ∃ ts, Written hyph [w] ts ∧ allTexts (wrapWordHyph hyph tw width sty acc w) = allTexts acc ++ ts := by
  have text : ∀ l : TextLine, ∃ t, (if l.items.length > 0 then 32 :: w else w) = t ∧ (t = w ∨ t = 32 :: w) := by
    intro l
    split
    · exact ⟨_, rfl, .inr rfl⟩
    · exact ⟨_, rfl, .inl rfl⟩
  unfold wrapWordHyph
  simp only
  by_cases hc : acc.2.width + tw (32 :: w) ≥ width
  · simp only [if_pos hc]
    cases ht : tryHyphenate hyph tw width w acc.2.width with
    | none =>
      simp only
      obtain ⟨t, h1, h2⟩ := text TextLine.empty
      refine ⟨[t], .whole h2 .nil, ?_⟩
      rw [h1]
      simp [allTexts, TextLine.empty]
    | some r =>
      obtain ⟨s1, s2⟩ := r
      obtain ⟨i, hi1, hi2, e1, e2, _⟩ := tryHyphenate_some ht
      simp only [TextLine.empty, List.length_nil, Nat.lt_irrefl, if_false, gt_iff_lt]
      refine ⟨[s1, s2], .broken i hi1 hi2 (.inr e1) e2 .nil, ?_⟩
      simp [allTexts]
  · simp only [if_neg hc]
    obtain ⟨t, h1, h2⟩ := text acc.2
    refine ⟨[t], .whole h2 .nil, ?_⟩
    rw [h1]
    simp [allTexts]

theorem wrapWordsHyph_texts (h0 : (hyph []).length ≤ 1) (tw : Str → ℚ) (width : ℚ) (sty : Styles) : ∀ (ws : List Str) (acc : List TextLine × TextLine),
    ∃ ts, Written hyph (ws.filter (· ≠ [])) ts ∧ allTexts (ws.foldl (wrapWordHyph hyph tw width sty) acc) = allTexts acc ++ ts
  | [], acc => ⟨[], .nil, by simp⟩
  | w :: ws, acc => by
    obtain ⟨t, h1, h2⟩ := wrapWordHyph_texts (hyph := hyph) tw width sty acc w
    obtain ⟨ts, h3, h4⟩ := wrapWordsHyph_texts h0 tw width sty ws (wrapWordHyph hyph tw width sty acc w)
    refine ⟨t ++ ts, ?_, by rw [List.foldl_cons, h4, h2]; simp⟩
    have := (Written.solid h0 h1).append h3
    rwa [← List.filter_append] at this

theorem norm_words (e : E) (t : Str) : (split 32 (norm eng e t)).filter (· ≠ []) = wordsOf (eng.currentPage e) t := by
  rw [wordsOf, piecesOf, ← Verif.Props.C02_exact]; rfl

theorem linesLoop_texts (hp : ∀ f e, eng.currentPage (eng.changeFont f e) = eng.currentPage e) {cs : Classes} {width : ℚ} {sty : Styles} :
    ∀ (iss : List Instr) (acc : List TextLine × TextLine) (s : PState E), ∃ ts,
      Written hyph (sourceWords (eng.currentPage s.eng) iss) ts ∧ allTexts (linesLoop eng cs width sty iss acc s).1 = allTexts acc ++ ts := by
  intro iss
  induction iss with
  | nil => intro acc s; exact ⟨[], .nil, by simp [linesLoop]⟩
  | cons is iss ih =>
    intro acc s
    have text : ∀ (isty : Styles) (t : Str), ∃ ts, Written hyph (wordsOf (eng.currentPage s.eng) t ++ sourceWords (eng.currentPage s.eng) iss) ts ∧
        allTexts (if norm eng s.eng t = [] then linesLoop eng cs width sty iss acc s
           else linesLoop eng cs width sty iss ((split 32 (norm eng s.eng t)).foldl
             (wrapWord (fun w => eng.textWidth w (changeFont eng isty.font s).eng) width isty) acc) (changeFont eng isty.font s)).1 =
          allTexts acc ++ ts := by
      intro isty t
      by_cases h0 : norm eng s.eng t = []
      · rw [if_pos h0, ← norm_words, h0]
        simpa [split] using ih acc s
      · rw [if_neg h0, ← norm_words]
        have hs := split_norm (s := tr eng s.eng t) h0
        rw [show whitespaceRectified (tr eng s.eng t) = norm eng s.eng t from rfl] at hs
        rw [hs]
        obtain ⟨ts, h1, h2⟩ := wrapWords_texts (hyph := hyph) (fun w => eng.textWidth w (changeFont eng isty.font s).eng) width isty
          (split 32 (norm eng s.eng t)) acc
        obtain ⟨us, h3, h4⟩ := ih ((split 32 (norm eng s.eng t)).foldl
             (wrapWord (fun w => eng.textWidth w (changeFont eng isty.font s).eng) width isty) acc) (changeFont eng isty.font s)
        rw [show eng.currentPage (changeFont eng isty.font s).eng = eng.currentPage s.eng from hp _ _] at h3
        exact ⟨ts ++ us, h1.append h3, by rw [h4, h2, List.append_assoc]⟩
    cases is with
    | textBlock t => exact text sty t
    | paragraph st t => exact text (st.mutatedStyles cs sty) t
    | lineBreak =>
      obtain ⟨ts, h1, h2⟩ := ih (acc.1 ++ [acc.2], TextLine.empty) s
      refine ⟨ts, h1, ?_⟩
      simp only [linesLoop]
      rw [h2]
      simp [allTexts, TextLine.empty]
    | _ => exact ih acc s

theorem linesLoopHyph_texts (hp : ∀ f e, eng.currentPage (eng.changeFont f e) = eng.currentPage e) (h0 : (hyph []).length ≤ 1) {cs : Classes}
    {width : ℚ} {sty : Styles} :
    ∀ (iss : List Instr) (acc : List TextLine × TextLine) (s : PState E), ∃ ts,
      Written hyph (sourceWords (eng.currentPage s.eng) iss) ts ∧
        allTexts (linesLoopHyph eng hyph cs width sty iss acc s).1 = allTexts acc ++ ts := by
  intro iss
  induction iss with
  | nil => intro acc s; exact ⟨[], .nil, by simp [linesLoopHyph]⟩
  | cons is iss ih =>
    intro acc s
    have text : ∀ (isty : Styles) (t : Str), ∃ ts, Written hyph (wordsOf (eng.currentPage s.eng) t ++ sourceWords (eng.currentPage s.eng) iss) ts ∧
        allTexts (linesLoopHyph eng hyph cs width sty iss ((split 32 (norm eng s.eng t)).foldl
             (wrapWordHyph hyph (fun w => eng.textWidth w (changeFont eng isty.font s).eng) width isty) acc) (changeFont eng isty.font s)).1 =
          allTexts acc ++ ts := by
      intro isty t
      rw [← norm_words]
      obtain ⟨ts, h1, h2⟩ := wrapWordsHyph_texts (hyph := hyph) h0 (fun w => eng.textWidth w (changeFont eng isty.font s).eng) width isty
        (split 32 (norm eng s.eng t)) acc
      obtain ⟨us, h3, h4⟩ := ih ((split 32 (norm eng s.eng t)).foldl
           (wrapWordHyph hyph (fun w => eng.textWidth w (changeFont eng isty.font s).eng) width isty) acc) (changeFont eng isty.font s)
      rw [show eng.currentPage (changeFont eng isty.font s).eng = eng.currentPage s.eng from hp _ _] at h3
      exact ⟨ts ++ us, h1.append h3, by rw [h4, h2, List.append_assoc]⟩
    cases is with
    | textBlock t => exact text sty t
    | paragraph st t => exact text (st.mutatedStyles cs sty) t
    | lineBreak =>
      obtain ⟨ts, h1, h2⟩ := ih (markLast acc.1 ++ [acc.2], TextLine.empty) s
      refine ⟨ts, h1, ?_⟩
      simp only [linesLoopHyph]
      rw [h2]
      simp [allTexts, TextLine.empty, markLast_items]
    | _ => exact ih acc s

/-- Spaces around the texts do not matter, as words and their parts have none. -/
theorem _root_.Verif.Spec.Written.trimmed {ws ts us : List Str} (h : Written hyph ws ts) (hw : ∀ w ∈ ws, 32 ∉ w)
    (hh : ∀ w, (hyph w).flatten <:+: w) (hu : List.Forall₂ (fun t u => u = t ∨ u = trimSpace t) ts us) : Written hyph ws us := by
  have id : ∀ w : Str, 32 ∉ w → trimSpace w = w := fun w h => trimSpace_id h
  induction h generalizing us with
  | nil => cases hu; exact .nil
  | @whole w ws t ts q _ ih =>
    obtain ⟨u, us', hu1, hu2, rfl⟩ := List.forall₂_cons_left_iff.mp hu
    have h32 := hw w (by simp)
    refine .whole ?_ (ih (fun w hw' => hw w (by simp [hw'])) hu2)
    rcases hu1 with rfl | rfl
    · exact q
    · rcases q with rfl | rfl
      · exact .inl (id _ h32)
      · exact .inl (by rw [trimSpace_cons]; exact id _ h32)
  | @broken w ws t u ts i h1 h2 h3 h4 _ ih =>
    obtain ⟨t', us', hu1, hu2, rfl⟩ := List.forall₂_cons_left_iff.mp hu
    obtain ⟨u', us'', hu3, hu4, rfl⟩ := List.forall₂_cons_left_iff.mp hu2
    have h32 := hw w (by simp)
    have hfl : 32 ∉ (hyph w).flatten := fun hc => h32 ((hh w).subset hc)
    have ha : 32 ∉ ((hyph w).take i).flatten := fun hc => hfl (by
      rw [← List.take_append_drop i (hyph w), List.flatten_append]; exact List.mem_append_left _ hc)
    have hb : 32 ∉ ((hyph w).drop i).flatten := fun hc => hfl (by
      rw [← List.take_append_drop i (hyph w), List.flatten_append]; exact List.mem_append_right _ hc)
    have ha' : 32 ∉ ((hyph w).take i).flatten ++ [45] := by
      simp only [List.mem_append, List.mem_singleton, not_or]
      exact ⟨ha, by decide⟩
    refine .broken i h1 h2 ?_ ?_ (ih (fun w hw' => hw w (by simp [hw'])) hu4)
    · rcases hu1 with rfl | rfl
      · exact h3
      · rcases h3 with rfl | rfl
        · exact .inl (id _ ha')
        · exact .inl (by rw [trimSpace_cons]; exact id _ ha')
    · rcases hu3 with rfl | rfl
      · exact h4
      · rw [h4]; exact id _ hb
  | @blank ws t ts q _ ih =>
    obtain ⟨u, us', hu1, hu2, rfl⟩ := List.forall₂_cons_left_iff.mp hu
    refine .blank ?_ (ih hw hu2)
    rcases hu1 with rfl | rfl
    · exact q
    · rcases q with rfl | rfl
      · exact .inl (by decide)
      · exact .inl (by decide)

/-! ### Texts and boxes -/

theorem writeText_puts (t : Str) : Puts eng c (· = [.text t]) (c.writeText t) := by
  intro s a s' h
  exact ⟨_, rfl, .text h (.nil _)⟩

theorem addPage_puts : Puts eng c (· = [.page]) c.addPage := by
  intro s a s' h
  exact ⟨_, rfl, .page h (.nil _)⟩

theorem writeItems_puts : ∀ items : List TextItem, Puts eng c (· = items.map fun i => .text i.text) (writeItems eng c items)
  | [] => Puts.pure ()
  | i :: is => (changeFontM_puts _).after fun _ => (writeText_puts i.text).bind (fun _ => writeItems_puts is) (by rintro _ _ rfl rfl; rfl)

theorem alignLine_puts (h : Str) (xLeft width : ℚ) (line : TextLine) : Nothing eng c (alignLine eng h xLeft width line) := by
  unfold alignLine
  exact Puts.ite (fun _ => Puts.upd (.setX _)) fun _ => Puts.ite (fun _ => Puts.upd (.setX _)) fun _ =>
    Puts.ite (fun _ => Puts.upd (.setX _)) fun _ => Puts.pure ()

theorem writeLines_puts (sty : Styles) (xLeft width : ℚ) : ∀ lines : List TextLine,
    Puts eng c (· = ((lines.flatMap (·.items)).map (·.text)).map .text) (writeLines eng c sty xLeft width lines)
  | [] => Puts.pure ()
  | l :: ls => (alignLine_puts _ _ _ _).after fun _ => (writeItems_puts l.items).bind
      (fun _ => (Puts.upd (.lineFeed _)).after fun _ => writeLines_puts sty xLeft width ls) (by rintro _ _ rfl rfl; simp [Function.comp_def])

theorem writeSpaced_puts (w : ℚ) : ∀ items : List TextItem, Puts eng c (· = items.map fun i => .text (trimSpace i.text)) (writeSpaced eng c w items)
  | [] => Puts.pure ()
  | i :: is => (changeFontM_puts _).after fun _ => (writeText_puts (trimSpace i.text)).bind
      (fun _ => (Puts.ask _).after fun _ => (Puts.upd (.setX _)).after fun _ => writeSpaced_puts w is) (by rintro _ _ rfl rfl; rfl)

/-- The texts, some of them trimmed. -/
def Trims (ts : List Str) (ps : List Put) : Prop := ∃ us, List.Forall₂ (fun t u => u = t ∨ u = trimSpace t) ts us ∧ ps = us.map .text

theorem Trims.append {ts ts' : List Str} {ps qs : List Put} (h : Trims ts ps) (h' : Trims ts' qs) : Trims (ts ++ ts') (ps ++ qs) := by
  obtain ⟨us, h1, rfl⟩ := h
  obtain ⟨vs, h2, rfl⟩ := h'
  exact ⟨us ++ vs, List.rel_append h1 h2, by simp⟩

theorem trims_self : ∀ ts : List Str, Trims ts (ts.map .text)
  | [] => ⟨[], .nil, rfl⟩
  | t :: ts => by
    obtain ⟨us, h1, h2⟩ := trims_self ts
    exact ⟨t :: us, .cons (.inl rfl) h1, by simp [h2]⟩

theorem trims_all : ∀ ts : List Str, Trims ts (ts.map fun t => .text (trimSpace t))
  | [] => ⟨[], .nil, rfl⟩
  | t :: ts => by
    obtain ⟨us, h1, h2⟩ := trims_all ts
    exact ⟨trimSpace t :: us, .cons (.inr rfl) h1, by simp [h2]⟩

theorem writeHyphLine_puts (width : ℚ) (line : TextLine) : Puts eng c (Trims (line.items.map (·.text))) (writeHyphLine eng c width line) := by
  unfold writeHyphLine
  simp only
  refine Puts.ite (fun _ => (writeItems_puts _).mono ?_) fun _ => (writeSpaced_puts _ _).mono ?_
  · rintro _ rfl
    have := trims_self (line.items.map (·.text))
    rwa [List.map_map] at this
  · rintro _ rfl
    have := trims_all (line.items.map (·.text))
    rwa [List.map_map] at this

theorem writeHyphLines_puts (sty : Styles) (xLeft width : ℚ) : ∀ lines : List TextLine,
    Puts eng c (Trims ((lines.flatMap (·.items)).map (·.text))) (writeHyphLines eng c sty xLeft width lines)
  | [] => (Puts.pure ()).mono (by rintro _ rfl; exact ⟨[], .nil, rfl⟩)
  | l :: ls => (Puts.upd (.setX _)).after fun _ => (writeHyphLine_puts _ l).bind
      (fun _ => (Puts.upd (.lineFeed _)).after fun _ => writeHyphLines_puts sty xLeft width ls)
      (by intro _ _ h h'; rw [List.flatMap_cons, List.map_append]; exact h.append h')

theorem sourceWords_solid (page : Int) : ∀ iss : List Instr, ∀ w ∈ sourceWords page iss, 32 ∉ w := by
  intro iss
  have key : ∀ t, ∀ w ∈ wordsOf page t, 32 ∉ w := fun t w hw => split_no_sep _ _ _ (List.mem_filter.mp hw).1
  induction iss with
  | nil => intro w hw; simp [sourceWords] at hw
  | cons is iss ih =>
    intro w hw
    cases is with
    | textBlock t =>
      rcases List.mem_append.mp hw with h | h
      · exact key t w h
      · exact ih w h
    | paragraph st t =>
      rcases List.mem_append.mp hw with h | h
      · exact key t w h
      · exact ih w h
    | _ => exact ih w hw

theorem writeTextFnc_puts (hs : Sound eng ctx) (iss : List Instr) (width : ℚ) (sty : Styles) :
    Puts eng c (TextPuts (meansOf ctx) iss) (writeTextFnc eng ctx c iss width sty) := by
  unfold writeTextFnc
  refine Puts.ite (fun _ => ?_) fun _ => ?_
  · unfold writeTextHyphenated
    refine (Puts.upd (.font _)).after fun _ => (Puts.upd (.color _)).after fun _ => ?_
    intro s a s' hr
    obtain ⟨lines, s1, h1, h2⟩ := bind_some hr
    simp only [Model.total, Option.some.injEq] at h1
    obtain ⟨ts, h3, h4⟩ := linesLoopHyph_texts (hyph := ctx.hyphenate) hs.page hs.empty (cs := ctx.classes) (width := width) (sty := sty) iss
      ([], TextLine.empty) s
    have hl : (lines.flatMap (·.items)).map (·.text) = ts := by
      have := congrArg Prod.fst h1
      simp only [textLinesHyphenated] at this
      rw [← this, allTexts_closeHyph, h4]
      simp [allTexts, TextLine.empty]
    have hd : Did eng c s [] s1 := by
      have : _ = s1 := congrArg Prod.snd h1
      rw [← this]
      exact linesLoopHyph_did _ _ _
    obtain ⟨ps, ⟨us, h5, rfl⟩, h6⟩ := (Puts.after (Puts.ask _) fun _ => writeHyphLines_puts sty _ width lines :
      Puts eng c (Trims ((lines.flatMap (·.items)).map (·.text))) _) s1 a s' h2
    rw [hl] at h5
    exact ⟨_, ⟨_, us, h3.trimmed (sourceWords_solid _ _) hs.within h5, rfl⟩, hd.append h6⟩
  · unfold Model.writeText
    refine (Puts.upd (.font _)).after fun _ => (Puts.upd (.color _)).after fun _ => ?_
    intro s a s' hr
    obtain ⟨lines, s1, h1, h2⟩ := bind_some hr
    simp only [Model.total, Option.some.injEq] at h1
    obtain ⟨ts, h3, h4⟩ := linesLoop_texts (hyph := ctx.hyphenate) hs.page (cs := ctx.classes) (width := width) (sty := sty) iss
      ([], TextLine.empty) s
    have hl : (lines.flatMap (·.items)).map (·.text) = ts := by
      have := congrArg Prod.fst h1
      simp only [textLines] at this
      rw [← this, allTexts_close, h4]
      simp [allTexts, TextLine.empty]
    have hd : Did eng c s [] s1 := by
      have : _ = s1 := congrArg Prod.snd h1
      rw [← this]
      exact linesLoop_did _ _ _
    obtain ⟨ps, h5, h6⟩ := (Puts.after (Puts.ask _) fun _ => writeLines_puts sty _ width lines :
      Puts eng c (· = ((lines.flatMap (·.items)).map (·.text)).map .text) _) s1 a s' h2
    rw [hl] at h5
    exact ⟨ps, ⟨_, ts, h3, h5⟩, hd.append h6⟩

theorem textPuts_nil (m : Means) : TextPuts m [] [] := ⟨0, [], .nil, rfl⟩

theorem renderText_puts (hs : Sound eng ctx) (st : Styled) (iss : List Instr) :
    Puts eng c (TextPuts (meansOf ctx) iss) (renderText eng ctx c st iss) := by
  unfold renderText
  refine Puts.ite (fun h => ?_) fun _ => ?_
  · rw [List.length_eq_zero_iff.mp h]
    exact (Puts.pure ()).mono (by rintro _ rfl; exact textPuts_nil _)
  · exact Puts.get.after fun _ => (Puts.ask _).after fun _ => (writeTextFnc_puts hs _ _ _).before fun _ => resetStyles_puts

theorem boxHeight_puts (sty : Styles) (iss : List Instr) (width : ℚ) : Nothing eng c (boxHeight eng ctx sty iss width) := by
  unfold boxHeight
  exact Puts.ite (fun _ => Puts.ite (fun _ => Puts.total fun s => textHeightFnc_did _ _ _ _) fun _ => Puts.ask _) fun _ => Puts.pure _

theorem boxStart_puts (height : ℚ) : Puts eng c (fun ps => ps = [] ∨ ps = [.page]) (boxStart eng c height) := by
  unfold boxStart
  exact Puts.get.after fun s => Puts.ite (fun _ => (addPage_puts.before fun _ => Puts.ask _).mono fun _ => .inr)
    fun _ => (Puts.pure _).mono fun _ => .inl

theorem renderTextBox_puts (hs : Sound eng ctx) (st : Styled) (iss : List Instr) (pa : Area) :
    Puts eng c (BoxPuts (meansOf ctx) iss) (renderTextBox eng ctx c st iss pa) := by
  unfold renderTextBox
  refine Puts.get.after fun s => (boxHeight_puts _ _ _).after fun _ => (boxStart_puts _).bind (R' := TextPuts (meansOf ctx) iss) (fun _ => ?_) ?_
  · refine (drawBoxM_puts _ _ _ _ _).after fun _ => (Puts.upd (.setY _)).after fun _ => (Puts.upd (.setX _)).after fun _ => ?_
    refine Puts.ite (fun _ => ?_) fun h => ?_
    · exact (writeTextFnc_puts hs _ _ _).before fun _ => (Puts.upd (.setY _)).after fun _ => resetStyles_puts
    · rw [List.length_eq_zero_iff.mp (by omega : iss.length = 0)]
      exact ((Puts.pure _).after fun _ => (Puts.upd (.setY _)).after fun _ => resetStyles_puts).mono (by rintro _ rfl; exact textPuts_nil _)
  · rintro ps qs (rfl | rfl) hq
    · exact .inl hq
    · exact .inr ⟨qs, hq, rfl⟩

theorem textBoxHeight_puts (st : Styled) (iss : List Instr) (pa : Area) : Nothing eng c (textBoxHeight eng ctx st iss pa) := by
  unfold textBoxHeight
  exact Puts.get.after fun s => (boxHeight_puts _ _ _).after fun _ => resetStyles_puts.after fun _ => Puts.pure _

theorem renderImage_puts (st : Styled) (source : Str) (pa : Area) :
    Puts eng c (· = (meansOf ctx).image source) (renderImage eng ctx st source pa) := by
  unfold renderImage meansOf
  simp only
  cases ctx.describe (ctx.resolve source) with
  | none => exact Puts.pure ()
  | some d =>
    intro s a s' hr
    simp only [Option.some.injEq, Prod.mk.injEq] at hr
    exact ⟨_, rfl, hr.2 ▸ .image _ _ _ _ _ (.nil _)⟩

/-! ### Cells and tables -/

theorem renderCellItems_puts (hs : Sound eng ctx) (v : Str) (pa : Area) : ∀ iss : List Instr,
    Puts eng c (InTurn (ItemPuts (meansOf ctx)) iss) (renderCellItems eng ctx c v pa iss) := by
  intro iss
  induction iss with
  | nil => exact (Puts.pure ()).mono (by rintro _ rfl; exact .nil)
  | cons is iss ih =>
    have other : ItemPuts (meansOf ctx) is [] → Puts eng c (InTurn (ItemPuts (meansOf ctx)) (is :: iss)) (renderCellItems eng ctx c v pa iss) :=
      fun h => ih.mono fun ps hp => .cons h hp
    cases is with
    | box st b =>
      exact (textBoxHeight_puts _ _ _).after fun _ => (Puts.upd (.setY _)).after fun _ => (renderTextBox_puts hs _ _ _).bind (fun _ => ih)
        fun ps qs hp hq => .cons hp hq
    | image st src =>
      exact (Puts.upd (.setY _)).after fun _ => (renderImage_puts _ _ _).bind (fun _ => ih) fun ps qs hp hq => .cons hp hq
    | _ => exact other rfl

theorem renderCell_puts (hs : Sound eng ctx) (pa : Area) (sty : Styles) (iss : List Instr) :
    Puts eng c (CellPuts (meansOf ctx) iss) (renderCell eng ctx c pa sty iss) := by
  have ht : Puts eng c (TextPuts (meansOf ctx) iss) (renderCellText eng ctx c pa sty iss) :=
    (Puts.total fun s => textHeight_did _ _ _ _ _).after fun _ => (Puts.upd (.setY _)).after fun _ => (Puts.upd (.setX _)).after fun _ =>
      writeTextFnc_puts hs _ _ _
  unfold renderCell
  refine (drawBoxM_puts _ _ _ _ _).after fun _ => ?_
  refine Puts.ite (fun _ => ?_) fun h => ?_
  · exact ht.bind (fun _ => (Puts.upd (.setX _)).after fun _ => renderCellItems_puts hs _ _ _) fun ps qs hp hq => ⟨ps, qs, hp, hq, rfl⟩
  · have : TextPuts (meansOf ctx) iss [] := by rw [List.length_eq_zero_iff.mp (by omega : iss.length = 0)]; exact textPuts_nil _
    exact (Puts.pure _).after fun _ => (Puts.upd (.setX _)).after fun _ => (renderCellItems_puts hs _ _ _).mono fun qs hq =>
      ⟨[], qs, this, hq, rfl⟩

/-- The contents of the authored cells of a row. -/
def contentsOf (t : Tab) (row : TRow) : List (List Instr) := (row.cells.filter (isAuthored t)).map fun id => (t.cell id).iss

section
variable {t : Tab}

theorem renderRowCells_puts (hs : Sound eng ctx) {y : ℚ} : ∀ (ids : List Nat) (x : ℚ) (s s' : PState E),
    renderRowCells (tableOps eng ctx c t) t y x ids s = some s' →
    ∃ ps, RowPuts (meansOf ctx) ((ids.filter (isAuthored t)).map fun id => (t.cell id).iss) ps ∧ Did eng c s ps s'
  | [], x, s, s', h => by
    simp only [renderRowCells, Option.some.injEq] at h
    exact ⟨[], .nil, h ▸ .nil _⟩
  | id :: ids, x, s, s', h => by
    unfold renderRowCells at h
    simp only at h
    split at h
    · rename_i hc
      have : isAuthored t id = false := by
        unfold isAuthored
        cases h1 : (t.cell id).spannedBy <;> cases h2 : (t.cell id).zero <;> simp_all
      rw [List.filter_cons_of_neg (by simp [this])]
      exact renderRowCells_puts hs ids _ _ _ h
    · rename_i hc
      have : isAuthored t id = true := by
        unfold isAuthored
        cases h1 : (t.cell id).spannedBy <;> cases h2 : (t.cell id).zero <;> simp_all
      rw [List.filter_cons_of_pos this]
      split at h
      · exact absurd h (by simp)
      · rename_i s1 h1
        simp only [tableOps, Option.map_eq_some_iff] at h1
        obtain ⟨⟨u, s2⟩, h2, rfl⟩ := h1
        obtain ⟨ps, h3, h4⟩ := renderCell_puts hs _ _ _ _ _ _ h2
        obtain ⟨qs, h5, h6⟩ := renderRowCells_puts hs ids _ _ _ h
        exact ⟨ps ++ qs, .cons h3 h5, h4.append h6⟩

theorem renderRow_puts (hs : Sound eng ctx) {x0 y y' : ℚ} {row : TRow} {s s' : PState E}
    (h : renderRow (tableOps eng ctx c t) t x0 row y s = some (y', s')) :
    ∃ ps, RowPuts (meansOf ctx) (contentsOf t row) ps ∧ Did eng c s ps s' := by
  unfold renderRow at h
  split at h
  · exact absurd h (by simp)
  · rename_i s1 h1
    simp only [Option.some.injEq, Prod.mk.injEq] at h
    obtain ⟨ps, h2, h3⟩ := renderRowCells_puts hs _ _ _ _ h1
    exact ⟨ps, h2, h.2 ▸ h3.then (.setX x0 s1)⟩

theorem renderHeader_puts (hs : Sound eng ctx) {x0 : ℚ} : ∀ (rows : List TRow) (y y' : ℚ) (s s' : PState E),
    renderHeader (tableOps eng ctx c t) t x0 rows y s = some (y', s') →
    ∃ ps, InTurn (RowPuts (meansOf ctx)) (rows.map (contentsOf t)) ps ∧ Did eng c s ps s'
  | [], y, y', s, s', h => by
    simp only [renderHeader, Option.some.injEq, Prod.mk.injEq] at h
    exact ⟨[], .nil, h.2 ▸ .nil _⟩
  | row :: rows, y, y', s, s', h => by
    unfold renderHeader at h
    split at h
    · exact absurd h (by simp)
    · rename_i y1 s1 h1
      obtain ⟨ps, h2, h3⟩ := renderRow_puts hs h1
      obtain ⟨qs, h4, h5⟩ := renderHeader_puts hs rows _ _ _ _ h
      exact ⟨ps ++ qs, .cons h2 h4, h3.append h5⟩

theorem renderRows_puts (hs : Sound eng ctx) {rh : Int} {bottom x0 : ℚ} : ∀ (rows : List TRow) (i : Nat) (y y' : ℚ) (s s' : PState E),
    renderRows (tableOps eng ctx c t) t rh bottom x0 i rows y s = some (y', s') →
    ∃ ps, RowsPut (meansOf ctx) ((t.rows.map (contentsOf t)).take rh.toNat) i (rows.map (contentsOf t)) ps ∧ Did eng c s ps s'
  | [], i, y, y', s, s', h => by
    simp only [renderRows, Option.some.injEq, Prod.mk.injEq] at h
    exact ⟨[], .nil, h.2 ▸ .nil _⟩
  | row :: rows, i, y, y', s, s', h => by
    unfold renderRows at h
    simp only at h
    split at h
    · exact absurd h (by simp)
    · rename_i y2 s2 hstart
      split at h
      · exact absurd h (by simp)
      · rename_i y3 s3 h3
        obtain ⟨ps, hp1, hp2⟩ := renderRow_puts hs h3
        obtain ⟨qs, hq1, hq2⟩ := renderRows_puts hs rows _ _ _ _ _ h
        split at hstart
        · split at hstart
          · exact absurd hstart (by simp)
          · rename_i s1 h1
            simp only [tableOps, Option.map_eq_some_iff] at h1
            obtain ⟨⟨u, s1'⟩, h1, rfl⟩ := h1
            have head : ∃ hd, InTurn (RowPuts (meansOf ctx)) (if i = 0 then [] else (t.rows.map (contentsOf t)).take rh.toNat) hd ∧
                Did eng c s1' hd s2 := by
              split at hstart
              · rename_i hc
                rw [if_neg (by omega), ← List.map_take]
                exact renderHeader_puts hs _ _ _ _ _ hstart
              · rename_i hc
                simp only [Option.some.injEq, Prod.mk.injEq] at hstart
                refine ⟨[], ?_, hstart.2 ▸ .nil _⟩
                split
                · exact .nil
                · rw [show rh.toNat = 0 by omega, List.take_zero]
                  exact .nil
            obtain ⟨hd, g1, g2⟩ := head
            exact ⟨_, .page g1 hp1 hq1, .page h1 ((g2.append hp2).append hq2)⟩
        · simp only [Option.some.injEq, Prod.mk.injEq] at hstart
          rw [← hstart.2] at hp2
          exact ⟨_, .same hp1 hq1, hp2.append hq2⟩

theorem renderLaid_puts (hs : Sound eng ctx) {rh : Int} {bottom : ℚ} {s s' : PState E}
    (h : renderLaid (tableOps eng ctx c t) t rh bottom s = some s') :
    ∃ ps qs, RowsPut (meansOf ctx) ((t.rows.map (contentsOf t)).take rh.toNat) 0 (t.rows.map (contentsOf t)) qs ∧
      (ps = qs ∨ ps = .page :: qs) ∧ Did eng c s ps s' := by
  unfold renderLaid at h
  simp only at h
  split at h
  · exact absurd h (by simp)
  · rename_i y1 s1 hstart
    split at h
    · exact absurd h (by simp)
    · rename_i y2 s2 h2
      simp only [Option.some.injEq] at h
      obtain ⟨qs, h3, h4⟩ := renderRows_puts hs _ _ _ _ _ _ h2
      have h5 : Did eng c s1 qs s' := h ▸ h4.then (.setY y2 s2)
      split at hstart
      · split at hstart
        · exact absurd hstart (by simp)
        · rename_i s0 h1
          simp only [tableOps, Option.map_eq_some_iff] at h1
          obtain ⟨⟨u, s1'⟩, h1, rfl⟩ := h1
          simp only [Option.some.injEq, Prod.mk.injEq] at hstart
          exact ⟨_, qs, h3, .inr rfl, .page h1 (hstart.2 ▸ h5)⟩
      · simp only [Option.some.injEq, Prod.mk.injEq] at hstart
        exact ⟨_, qs, h3, .inl rfl, hstart.2 ▸ h5⟩

end

/-- The rows after layout: those of the document, and perhaps rows without contents. -/
theorem contents_eq {σ : Type} {m : Measure σ} {cs : Classes} {page : Page} {curr : Styles} {st : Styled} {xrows : List TableRow} {s s' : σ}
    {t : Tab} (h : transformTable m cs page curr st xrows s = some (t, s')) :
    t.rows.map (contentsOf t) = xrows.map (fun r => r.cells.map (·.iss)) ++ List.replicate (t.rows.length - xrows.length) [] := by
  have hlen := Verif.Props.C22_rows h
  apply List.ext_getElem?
  intro r
  have hau := congrArg (List.map (·.1)) (Verif.Props.C22_authored h r)
  by_cases hr : r < t.rows.length
  · have h1 : t.rows[r]? = some t.rows[r] := List.getElem?_eq_getElem hr
    simp only [authoredIn, idsOf, h1, List.map_map] at hau
    rw [List.getElem?_map, h1, Option.map_some]
    have h2 : contentsOf t t.rows[r] = (written xrows r).map (·.1) := hau
    rw [h2]
    unfold written
    by_cases hx : r < xrows.length
    · rw [List.getElem?_append_left (by simpa using hx), List.getElem?_map, List.getElem?_eq_getElem hx]
      simp
    · rw [List.getElem?_eq_none (l := xrows) (by omega), List.getElem?_append_right (by simpa using hx), List.getElem?_replicate]
      simp only [List.length_map, List.map_nil]
      rw [if_pos (by omega)]
  · rw [List.getElem?_eq_none (by simpa using hr), List.getElem?_eq_none (by simp; omega)]

theorem rowsPut_empty (m : Means) (head : List (List (List Instr))) : ∀ (rows : List (List (List Instr))) (i : Nat),
    (∀ r ∈ rows, r = []) → RowsPut m head i rows []
  | [], _, _ => .nil
  | r :: rows, i, h => by
    have := RowsPut.same (m := m) (head := head) (i := i) (row := r) (ps := []) (by rw [h r (by simp)]; exact .nil)
      (rowsPut_empty m head rows (i + 1) fun r' hr => h r' (by simp [hr]))
    exact this

theorem renderTable_puts (hs : Sound eng ctx) (st : Styled) (rh : Int) (rows : List TableRow) :
    Puts eng c (TablePuts (meansOf ctx) rh (rows.map fun r => r.cells.map (·.iss))) (renderTable eng ctx c st rh rows) := by
  unfold renderTable
  intro s a s' hr
  obtain ⟨s0, s0', h0, hr⟩ := bind_some hr
  simp only [MonadState.get, getThe, MonadStateOf.get, StateT.get, Pure.pure, Option.some.injEq, Prod.mk.injEq] at h0
  obtain ⟨rfl, rfl⟩ := h0
  generalize ht : transformTable (textHeightFnc eng ctx) ctx.classes (Page.mk (eng.printableArea s.eng)) s.curr st rows s = o at hr
  match o, ht, hr with
  | none, _, hr => exact absurd hr (by simp)
  | some (t, s1), ht, hr =>
    simp only at hr
    have hd : Did eng c s [] s1 := transformTable_inv (P := fun s' => Did eng c s [] s')
      (fun sty iss w s' hs' => hs'.append (textHeightFnc_did sty iss w s')) ht (.nil _)
    obtain ⟨u, s2, h2, h10⟩ := bind_some hr
    clear hr
    have h2 : s2 = s1 := by
      simp only [MonadStateOf.set, set, StateT.set, Pure.pure, Option.some.injEq, Prod.mk.injEq] at h2
      exact h2.2.symm
    subst h2
    by_cases hcol : t.columnCount = 0
    · rw [if_pos hcol] at h10
      obtain ⟨ps, rfl, h3⟩ := resetStyles_puts (c := c) _ _ _ h10
      refine ⟨[], ⟨t.rows.length - rows.length, [], ?_, .inl rfl⟩, hd.append h3⟩
      rw [← contents_eq ht]
      refine rowsPut_empty _ _ _ _ ?_
      intro r hrow
      obtain ⟨row, h4, rfl⟩ := List.mem_map.mp hrow
      have := (Verif.Props.C21_shape ht).1 row h4
      rw [hcol] at this
      simp [contentsOf, List.length_eq_zero_iff.mp this]
    · rw [if_neg hcol] at h10
      obtain ⟨pa, s3, h3, h10⟩ := bind_some h10
      simp only [Model.ask, Option.some.injEq, Prod.mk.injEq] at h3
      obtain ⟨-, rfl⟩ := h3
      obtain ⟨v, s4, h4, h10⟩ := bind_some h10
      simp only [Option.map_eq_some_iff, Prod.mk.injEq] at h4
      obtain ⟨s5, h5, -, rfl⟩ := h4
      obtain ⟨ps, qs, h6, h7, h8⟩ := renderLaid_puts hs h5
      obtain ⟨rs, rfl, h9⟩ := resetStyles_puts (c := c) _ _ _ h10
      refine ⟨ps, ⟨t.rows.length - rows.length, qs, ?_, h7⟩, ?_⟩
      · rw [← contents_eq ht]; exact h6
      · have := (hd.append h8).append h9
        simpa using this

/-! ### Instructions -/

theorem renderGridM_puts (rows : List (Styled × List Str)) : Nothing eng c (renderGridM rows) := by
  unfold renderGridM
  split
  · intro s a s' h; exact absurd h (by simp)
  · exact Puts.pure ()

theorem processInstr_puts (hs : Sound eng ctx) (i : Instr) : Puts eng c (InstrPuts (meansOf ctx) i) (processInstr eng ctx c i) := by
  cases i with
  | font st => exact Puts.get.after fun s => changeFontM_puts _
  | lineFeed n => exact Puts.upd (.lineFeed n)
  | setX x => exact Puts.upd (.setX x)
  | setY y => exact Puts.upd (.setY y)
  | box st iss => exact (Puts.ask _).after fun pa => renderTextBox_puts hs _ _ _
  | text st iss => exact renderText_puts hs _ _
  | table st rh rows => exact renderTable_puts hs _ _ _
  | image st src => exact (Puts.ask _).after fun pa => renderImage_puts _ _ _
  | grid st rows parts => exact renderGridM_puts _
  | pageBreak => exact addPage_puts
  | _ => exact Puts.pure ()

theorem processInstrs_puts (hs : Sound eng ctx) : ∀ iss : List Instr, Puts eng c (PartPuts (meansOf ctx) iss) (processInstrs eng ctx c iss)
  | [] => (Puts.pure ()).mono (by rintro _ rfl; exact .nil)
  | i :: is => (processInstr_puts hs i).bind (fun _ => processInstrs_puts hs is) fun ps qs hp hq => .cons hp hq

/-! ### Pages -/

section
variable {p : Paper}

theorem callback_puts (hs : Sound eng ctx) (iss : List Instr) {s s' : PState E} (h : callback eng ctx c iss s = some ((), s')) :
    ∃ ps s1 s2, PartPuts (meansOf ctx) iss ps ∧ s1.eng = s.eng ∧ Did eng c s1 ps s2 ∧ s2.eng = s'.eng := by
  unfold callback at h
  obtain ⟨xy, s1, h1, h⟩ := bind_some h
  obtain ⟨u, s2, h2, h⟩ := bind_some h
  obtain ⟨u', s3, h3, h⟩ := bind_some h
  obtain ⟨u4, s4, h4, h⟩ := bind_some h
  obtain ⟨u5, s5, h5, hl⟩ := bind_some h
  simp only [Model.ask, Option.some.injEq, Prod.mk.injEq] at h1
  obtain ⟨-, rfl⟩ := h1
  simp only [modify, modifyGet, MonadStateOf.modifyGet, StateT.modifyGet, Pure.pure, Option.some.injEq, Prod.mk.injEq, true_and] at h2
  simp only [upd, Option.some.injEq, Prod.mk.injEq] at h4 h5
  obtain ⟨ps, h6, h7⟩ := processInstrs_puts hs iss _ _ _ h3
  refine ⟨ps, s2, s5, h6, by rw [← h2], ?_, by
    have h6 := congrArg (Option.map fun q : Unit × PState E => q.2.eng) hl
    exact Option.some.inj h6⟩
  have := h7.then (.setX xy.1 s3)
  rw [h4.2] at this
  have := this.then (.setY xy.2 s4)
  rw [h5.2] at this
  exact this

/-- The document grew by these texts, images and pages. -/
def Grew (s s' : PState Fpdf) (ds : List Put) : Prop := 0 < s'.eng.page ∧ putsOn s'.eng = putsOn s.eng ++ ds

theorem silent_grew {s s' : PState Fpdf} (hp : 0 < s.eng.page) (h : Silent (Fpdf.engine p) s s') : Grew s s' [] := by
  cases h with
  | lineFeed => exact ⟨hp, by simp [putsOn, Fpdf.engine, Fpdf.lineFeed]⟩
  | draw d =>
    constructor
    · cases d <;> exact hp
    · cases d <;> simp [putsOn, Fpdf.engine, Fpdf.draw]
  | _ => exact ⟨hp, by simp [putsOn, Fpdf.engine, Fpdf.setX, Fpdf.setY, Fpdf.changeFont]⟩

/-- What holds of the calls with headers and footers nested up to depth `n`. -/
def Fills (p : Paper) (ctx : Ctx) (n : Nat) : Prop := ∀ s ps s', 0 < s.eng.page → Did (Fpdf.engine p) (callsAt (Fpdf.engine p) ctx n) s ps s' →
    ∃ ds, Filled (meansOf ctx) ctx.header ctx.footer ps ds ∧ Grew s s' ds

theorem callback_grew {n : Nat} (hs : Sound (Fpdf.engine p) ctx) (hn : Fills p ctx n) {iss : List Instr} {s s' : PState Fpdf} (hp : 0 < s.eng.page)
    (h : callback (Fpdf.engine p) ctx (callsAt (Fpdf.engine p) ctx n) iss s = some ((), s')) :
    ∃ ds, Brings (meansOf ctx) ctx.header ctx.footer iss ds ∧ Grew s s' ds := by
  obtain ⟨ps, s1, s2, h1, h2, h3, h4⟩ := callback_puts hs iss h
  obtain ⟨ds, h5, h6⟩ := hn s1 ps s2 (h2 ▸ hp) h3
  refine ⟨ds, ⟨ps, h1, h5⟩, ?_⟩
  unfold Grew at h6 ⊢
  rw [← h4, ← h2]
  exact h6

/-- A run of an operation of the library. -/
private abbrev runF {α : Type} (p : Paper) (ctx : Ctx) (n : Nat) (pr : Prog Fpdf α) : M Fpdf α :=
  runProg (callback (Fpdf.engine p) ctx (callsAt (Fpdf.engine p) ctx n) ctx.header) (callback (Fpdf.engine p) ctx (callsAt (Fpdf.engine p) ctx n) ctx.footer) pr

/-- A new page, then `k`. -/
theorem turn_grew {α : Type} {n : Nat} (hs : Sound (Fpdf.engine p) ctx) (hn : Fills p ctx n) {f : Font} {col : RGB} {e : Fpdf} {k : Fpdf → Unit → Prog Fpdf α}
    {s : PState Fpdf} {r : α × PState Fpdf} (h : runF p ctx n (Fpdf.andThen (Fpdf.turn p f col e) k) s = some r) :
    ∃ hd e1 s1, Brings (meansOf ctx) ctx.header ctx.footer ctx.header hd ∧ 0 < e1.page ∧ putsOn e1 = putsOn e ++ .page :: hd ∧
      runF p ctx n (k e1 ()) s1 = some r := by
  unfold runF Fpdf.turn Fpdf.andThen runProg at h
  split at h
  · exact absurd h (by simp)
  · rename_i s1 h1
    obtain ⟨hd, h2, h3⟩ := callback_grew hs hn (by simp) h1
    refine ⟨hd, _, s1, h2, ?_, ?_, h⟩
    · exact h3.1
    · refine Eq.trans h3.2 ?_
      simp [putsOn]

/-- Footer, new page and header, then `k`. -/
theorem addPage_grew {α : Type} {n : Nat} (hs : Sound (Fpdf.engine p) ctx) (hn : Fills p ctx n) {e : Fpdf} (hp : 0 < e.page) {k : Fpdf → Unit → Prog Fpdf α}
    {s : PState Fpdf} {r : α × PState Fpdf} (h : runF p ctx n (Fpdf.andThen (Fpdf.addPage p e) k) s = some r) :
    ∃ ft hd e1 s1, Brings (meansOf ctx) ctx.header ctx.footer ctx.footer ft ∧ Brings (meansOf ctx) ctx.header ctx.footer ctx.header hd ∧
      0 < e1.page ∧ putsOn e1 = putsOn e ++ (ft ++ .page :: hd) ∧ runF p ctx n (k e1 ()) s1 = some r := by
  unfold Fpdf.addPage at h
  rw [if_pos hp] at h
  unfold runF Fpdf.andThen runProg at h
  split at h
  · exact absurd h (by simp)
  · rename_i s1 h1
    obtain ⟨ft, h2, h3⟩ := callback_grew hs hn (by exact hp) h1
    obtain ⟨hd, e1, s2, h4, h5, h6, h7⟩ := turn_grew hs hn h
    refine ⟨ft, hd, e1, s2, h2, h4, h5, ?_, h7⟩
    rw [h6]
    have : putsOn { s1.eng with inHeaderFooter := false } = putsOn e ++ ft := h3.2
    rw [this, List.append_assoc]

theorem andThen_done {α : Type} : ∀ pr : Prog Fpdf α, Fpdf.andThen pr (fun e a => .done e a) = pr
  | .done _ _ => rfl
  | .header e k => by unfold Fpdf.andThen; congr 1; funext e'; exact andThen_done (k e')
  | .footer e k => by unfold Fpdf.andThen; congr 1; funext e'; exact andThen_done (k e')

theorem fills (hs : Sound (Fpdf.engine p) ctx) (n : Nat) : Fills p ctx n := by
  induction n with
  | zero =>
    intro s ps s' hp h
    induction h with
    | nil s => exact ⟨[], .nil, hp, by simp⟩
    | silent h1 _ ih =>
      obtain ⟨hp1, e1⟩ := silent_grew hp h1
      obtain ⟨ds, h2, h3, h4⟩ := ih hp1
      exact ⟨ds, h2, h3, by rw [h4, e1, List.append_nil]⟩
    | text h1 => exact absurd h1 (by simp [callsAt])
    | image src x y w h _ ih =>
      obtain ⟨ds, h2, h3, h4⟩ := ih hp
      exact ⟨_, .image h2, h3, by rw [h4]; simp [putsOn, Fpdf.engine]⟩
    | page h1 => exact absurd h1 (by simp [callsAt])
  | succ n ihn =>
    intro s ps s' hp h
    induction h with
    | nil s => exact ⟨[], .nil, hp, by simp⟩
    | silent h1 _ ih =>
      obtain ⟨hp1, e1⟩ := silent_grew hp h1
      obtain ⟨ds, h2, h3, h4⟩ := ih hp1
      exact ⟨ds, h2, h3, by rw [h4, e1, List.append_nil]⟩
    | @text s s1 s2 t ps h1 _ ih =>
      change runF p ctx n (Fpdf.writeText p t s.eng) s = _ at h1
      unfold Fpdf.writeText at h1
      split at h1
      · obtain ⟨ft, hd, e1, s3, ⟨fq, g1, g2⟩, ⟨hq, g3, g4⟩, h2, h3, h4⟩ := addPage_grew hs ihn hp h1
        simp only [runF, runProg, Option.some.injEq, Prod.mk.injEq, true_and] at h4
        obtain ⟨ds, h5, h6, h7⟩ := ih (by rw [← h4]; exact h2)
        refine ⟨_, .turned g1 g2 g3 g4 h5, h6, ?_⟩
        have : putsOn s1.eng = putsOn e1 ++ [.text t] := by rw [← h4]; simp [putsOn, Fpdf.put]
        rw [h7, this, h3]
        simp
      · simp only [runF, runProg, Option.some.injEq, Prod.mk.injEq, true_and] at h1
        obtain ⟨ds, h5, h6, h7⟩ := ih (by rw [← h1]; exact hp)
        refine ⟨_, .text h5, h6, ?_⟩
        have : putsOn s1.eng = putsOn s.eng ++ [.text t] := by rw [← h1]; simp [putsOn, Fpdf.put]
        rw [h7, this]
        simp
    | image src x y w h _ ih =>
      obtain ⟨ds, h2, h3, h4⟩ := ih hp
      exact ⟨_, .image h2, h3, by rw [h4]; simp [putsOn, Fpdf.engine]⟩
    | @page s s1 s2 ps h1 _ ih =>
      change runF p ctx n (Fpdf.addPage p s.eng) s = _ at h1
      rw [← andThen_done (Fpdf.addPage p s.eng)] at h1
      obtain ⟨ft, hd, e1, s3, ⟨fq, g1, g2⟩, ⟨hq, g3, g4⟩, h2, h3, h4⟩ := addPage_grew hs ihn hp h1
      simp only [runF, runProg, Option.some.injEq, Prod.mk.injEq, true_and] at h4
      obtain ⟨ds, h5, h6, h7⟩ := ih (by rw [← h4]; exact h2)
      refine ⟨_, .page g1 g2 g3 g4 h5, h6, ?_⟩
      have : putsOn s1.eng = putsOn e1 := by rw [← h4]
      rw [h7, this, h3]
      simp

theorem process_grew (hs : Sound (Fpdf.engine p) ctx) {n : Nat} {r : PdfResult} {s' : PState Fpdf}
    (h : process (Fpdf.engine p) ctx n (newProcessor (Fpdf.new p)) = some (r, s')) :
    ∃ hd ds ft, Brings (meansOf ctx) ctx.header ctx.footer ctx.header hd ∧ Brings (meansOf ctx) ctx.header ctx.footer ctx.body ds ∧
      (Brings (meansOf ctx) ctx.header ctx.footer ctx.footer ft ∨ r.failed = true ∧ ft = []) ∧ putsOn s'.eng = .page :: (hd ++ ds ++ ft) := by
  unfold process at h
  obtain ⟨u1, s1, h1, h⟩ := bind_some h
  obtain ⟨u2, s2, h2, h⟩ := bind_some h
  obtain ⟨u3, s3, h3, h⟩ := bind_some h
  obtain ⟨u4, s4, h4, h⟩ := bind_some h
  obtain ⟨u5, s5, h5, h⟩ := bind_some h
  obtain ⟨fl, s6, h6, h⟩ := bind_some h
  simp only [upd, Option.some.injEq, Prod.mk.injEq] at h1
  simp only [MonadState.get, getThe, MonadStateOf.get, StateT.get, Pure.pure, Option.some.injEq, Prod.mk.injEq] at h2
  simp only [changeFontM, changeFont, Option.some.injEq, Prod.mk.injEq] at h3
  simp only [Model.ask, Option.some.injEq, Prod.mk.injEq] at h6
  obtain ⟨-, rfl⟩ := h6
  have e3 : s3.eng.page = 0 ∧ putsOn s3.eng = [] := by
    rw [← h3.2, ← h2.1, ← h2.2, ← h1.2]
    exact ⟨rfl, rfl⟩
  cases n with
  | zero => exact absurd h4 (by simp [callsAt])
  | succ n =>
    change runF p ctx n (Fpdf.addPage p s3.eng) s3 = _ at h4
    have h4' : runF p ctx n (Fpdf.andThen (Fpdf.turn p s3.eng.font s3.eng.color s3.eng) fun e a => .done e a) s3 = some (u4, s4) := by
      rw [andThen_done, ← h4]
      unfold Fpdf.addPage
      rw [if_neg (by omega)]
    obtain ⟨hd, e1, s7, g1, g2, g3, g4⟩ := turn_grew hs (fills hs n) h4'
    simp only [runF, runProg, Option.some.injEq, Prod.mk.injEq] at g4
    rw [e3.2, List.nil_append] at g3
    obtain ⟨ps, g5, g6⟩ := processInstrs_puts hs ctx.body _ _ _ h5
    obtain ⟨ds, g7, g8, g9⟩ := fills hs (n + 1) _ _ _ (by rw [← g4.2]; exact g2) g6
    have e4 : putsOn s4.eng = .page :: hd := by rw [← g4.2]; exact g3
    rw [e4] at g9
    split at h
    · simp only [Pure.pure, StateT.pure, Option.some.injEq, Prod.mk.injEq] at h
      refine ⟨hd, ds, [], g1, ⟨ps, g5, g7⟩, .inr ⟨by rw [← h.1], rfl⟩, ?_⟩
      rw [← h.2, g9]
      simp
    · change runF p ctx n (Fpdf.writePDF s5.eng) s5 = _ at h
      unfold runF Fpdf.writePDF runProg at h
      split at h
      · exact absurd h (by simp)
      · rename_i s8 h8
        obtain ⟨ft, k1, k2⟩ := callback_grew hs (fills hs n) (by exact g8) h8
        simp only [runProg, Option.some.injEq, Prod.mk.injEq] at h
        refine ⟨hd, ds, ft, g1, ⟨ps, g5, g7⟩, .inl k1, ?_⟩
        have : putsOn s8.eng = putsOn s5.eng ++ ft := k2.2
        rw [← h.2]
        show putsOn s8.eng = _
        rw [this, g9]
        simp

end

end Verif.Proofs
