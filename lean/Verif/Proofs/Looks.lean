import Verif.Spec.Looks
import Verif.Proofs.Content
import Verif.Props.TableStyles
import Verif.Props.Draw
import Verif.Props.Process
/-
In which fonts and colors the processor writes, function by function (for C88).
-/
namespace Verif.Proofs
open Verif.Go Verif.Model Verif.Spec

variable {p : Paper} {c : Calls Fpdf} {ctx : Ctx} {α β : Type}

/-- The state is at `a`. -/
def Stands (s : PState Fpdf) (a : At) : Prop := s.curr = a.styles ∧ s.eng.page = a.page

/-- Nothing happens that can be seen. -/
def Hush (s s1 : PState Fpdf) : Prop := s1.eng.page = s.eng.page ∧ shownOn s1.eng = shownOn s.eng

theorem Hush.refl (s : PState Fpdf) : Hush s s := ⟨rfl, rfl⟩

theorem Hush.trans {s s1 s2 : PState Fpdf} (h : Hush s s1) (h' : Hush s1 s2) : Hush s s2 := ⟨h'.1.trans h.1, h'.2.trans h.2⟩

theorem hush_font (f : Font) (s : PState Fpdf) : Hush s (changeFont (Fpdf.engine p) f s) := ⟨rfl, rfl⟩

/-- Drawing commands. -/
def drawAll (p : Paper) (cmds : List DrawCmd) (e : Fpdf) : Fpdf := cmds.foldl (fun e d => (Fpdf.engine p).draw d e) e

/-- From the first to the last state by calls of the engine for the given things. -/
inductive Went (p : Paper) (c : Calls Fpdf) : PState Fpdf → List Ask → PState Fpdf → Prop
  | nil (s) : Went p c s [] s
  | quiet {s s1 s2 ps} : Hush s s1 → Went p c s1 ps s2 → Went p c s ps s2
  | text {s s1 s2 f col t a b ps} : c.writeText t s = some ((), s1) → s.eng.font = f → s.eng.color = col → Stands s a → Stands s1 b →
      Went p c s1 ps s2 → Went p c s (.text f col t a b :: ps) s2
  | image {s s2 ps} (src x y w h) : Went p c { s with eng := (Fpdf.engine p).putImage src x y w h s.eng } ps s2 → Went p c s (.image s.eng.page src :: ps) s2
  | box {s s2 ps} (sty r cmds) : DrawsBox sty r cmds → Went p c { s with eng := drawAll p cmds s.eng } ps s2 → Went p c s (.box s.eng.page sty r :: ps) s2
  | page {s s1 s2 a b ps} : c.addPage s = some ((), s1) → Stands s a → Stands s1 b → Went p c s1 ps s2 → Went p c s (.page a b :: ps) s2

theorem Went.append {s s1 s2 : PState Fpdf} {ps qs : List Ask} (h : Went p c s ps s1) (h' : Went p c s1 qs s2) : Went p c s (ps ++ qs) s2 := by
  induction h with
  | nil => exact h'
  | quiet q _ ih => exact .quiet q (ih h')
  | text q1 q2 q3 q4 q5 _ ih => exact .text q1 q2 q3 q4 q5 (ih h')
  | image src x y w h _ ih => exact .image src x y w h (ih h')
  | box sty r cmds q _ ih => exact .box sty r cmds q (ih h')
  | page q1 q2 q3 _ ih => exact .page q1 q2 q3 (ih h')

theorem Went.quiet' {s s1 s2 : PState Fpdf} {ps : List Ask} (h : Went p c s [] s1) (h' : Went p c s1 ps s2) : Went p c s ps s2 := h.append h'

/-- `mm` asks for something with `R`, and keeps `I`. -/
def Asks (p : Paper) (c : Calls Fpdf) (I : Fpdf → Prop) (R : At → List Ask → At → Prop) (mm : M Fpdf α) : Prop :=
  ∀ s a r s', Stands s a → I s.eng → mm s = some (r, s') → ∃ ps b, R a ps b ∧ Went p c s ps s' ∧ Stands s' b ∧ I s'.eng

/-- Nothing is asked for, and the current font stays. -/
abbrev Still (p : Paper) (c : Calls Fpdf) (I : Fpdf → Prop) (mm : M Fpdf α) : Prop := Asks p c I (fun a ps b => ps = [] ∧ b = a) mm

/-- Nothing is asked for; the current font changes. -/
abbrev Moves (p : Paper) (c : Calls Fpdf) (I : Fpdf → Prop) (g : At → At) (mm : M Fpdf α) : Prop := Asks p c I (fun a ps b => ps = [] ∧ b = g a) mm

abbrev Any : Fpdf → Prop := fun _ => True

variable {I : Fpdf → Prop}

theorem Asks.mono {R R' : At → List Ask → At → Prop} {mm : M Fpdf α} (h : Asks p c I R mm) (hR : ∀ a ps b, R a ps b → R' a ps b) : Asks p c I R' mm := by
  intro s a r s' h1 h2 h3
  obtain ⟨ps, b, h4, h5⟩ := h s a r s' h1 h2 h3
  exact ⟨ps, b, hR _ _ _ h4, h5⟩

theorem Asks.bind {R R' R'' : At → List Ask → At → Prop} {mm : M Fpdf α} {k : α → M Fpdf β} (h : Asks p c I R mm) (hk : ∀ x, Asks p c I R' (k x))
    (hR : ∀ a ps b qs d, R a ps b → R' b qs d → R'' a (ps ++ qs) d) : Asks p c I R'' (mm >>= k) := by
  intro s a r s' h1 h2 h3
  obtain ⟨x, s1, h4, h5⟩ := bind_some h3
  obtain ⟨ps, b, g1, g2, g3, g4⟩ := h s a x s1 h1 h2 h4
  obtain ⟨qs, d, k1, k2, k3, k4⟩ := hk x s1 b r s' g3 g4 h5
  exact ⟨_, d, hR _ _ _ _ _ g1 k1, g2.append k2, k3, k4⟩

theorem Asks.after {R : At → List Ask → At → Prop} {mm : M Fpdf α} {k : α → M Fpdf β} (h : Still p c I mm) (hk : ∀ x, Asks p c I R (k x)) :
    Asks p c I R (mm >>= k) := h.bind hk (by rintro a ps b qs d ⟨rfl, rfl⟩ hq; exact hq)

theorem Asks.before {R : At → List Ask → At → Prop} {mm : M Fpdf α} {k : α → M Fpdf β} (h : Asks p c I R mm) (hk : ∀ x, Still p c I (k x)) :
    Asks p c I R (mm >>= k) := h.bind hk (by rintro a ps b qs d hp ⟨rfl, rfl⟩; rwa [List.append_nil])

theorem Asks.moved {R : At → List Ask → At → Prop} {g : At → At} {mm : M Fpdf α} {k : α → M Fpdf β} (h : Moves p c I g mm) (hk : ∀ x, Asks p c I R (k x)) :
    Asks p c I (fun a => R (g a)) (mm >>= k) := h.bind hk (by rintro a ps b qs d ⟨rfl, rfl⟩ hq; exact hq)

theorem Asks.pure (x : α) : Still p c I (pure x : M Fpdf α) := by
  intro s a r s' h1 h2 h
  simp only [Pure.pure, StateT.pure, Option.some.injEq, Prod.mk.injEq] at h
  exact ⟨[], a, ⟨rfl, rfl⟩, h.2 ▸ .nil _, h.2 ▸ h1, h.2 ▸ h2⟩

theorem Asks.ask (f : Fpdf → α) : Still p c I (ask f) := by
  intro s a r s' h1 h2 h
  simp only [Model.ask, Option.some.injEq, Prod.mk.injEq] at h
  exact ⟨[], a, ⟨rfl, rfl⟩, h.2 ▸ .nil _, h.2 ▸ h1, h.2 ▸ h2⟩

/-- With the state at hand. -/
theorem Asks.get {R : At → List Ask → At → Prop} {k : PState Fpdf → M Fpdf β}
    (hk : ∀ s a, Stands s a → Asks p c I (fun a' ps b => a' = a → R a ps b) (k s)) : Asks p c I R (get >>= k) := by
  intro s a r s' h1 h2 h
  obtain ⟨s0, s1, h0, h⟩ := bind_some h
  simp only [MonadState.get, getThe, MonadStateOf.get, StateT.get, Pure.pure, Option.some.injEq, Prod.mk.injEq] at h0
  obtain ⟨rfl, rfl⟩ := h0
  obtain ⟨ps, b, h3, h4⟩ := hk s a h1 s a r s' h1 h2 h
  exact ⟨ps, b, h3 rfl, h4⟩

theorem Asks.upd {f : Fpdf → Fpdf} (h : ∀ e, (f e).page = e.page ∧ shownOn (f e) = shownOn e)
    (hI : ∀ e, I e → I (f e)) : Still p c I (upd f) := by
  intro s a r s' h1 h2 hr
  simp only [Model.upd, Option.some.injEq, Prod.mk.injEq] at hr
  rw [← hr.2]
  exact ⟨[], a, ⟨rfl, rfl⟩, .quiet (s1 := { s with eng := f s.eng }) (h s.eng) (.nil _), ⟨h1.1, (h _).1.trans h1.2⟩, hI _ h2⟩

theorem Asks.ite {R : At → List Ask → At → Prop} {q : Prop} [Decidable q] {mm k : M Fpdf α} (h1 : q → Asks p c I R mm) (h2 : ¬ q → Asks p c I R k) :
    Asks p c I R (if q then mm else k) := by
  split
  · exact h1 ‹_›
  · exact h2 ‹_›

theorem Asks.nothing {mm : M Fpdf α} {g : At → At}
    (hk : ∀ s a r s', Stands s a → I s.eng → mm s = some (r, s') → Hush s s' ∧ Stands s' (g a) ∧ I s'.eng) : Moves p c I g mm := by
  intro s a r s' h1 h2 hr
  obtain ⟨h3, h4⟩ := hk s a r s' h1 h2 hr
  exact ⟨[], _, ⟨rfl, rfl⟩, .quiet h3 (.nil _), h4⟩

/-! ### Measuring -/

theorem At.through_nil (a : At) : a.through [] = a := rfl

theorem At.through_append (a : At) (ws vs : List (Font × Str)) : (a.through ws).through vs = a.through (ws ++ vs) := by
  unfold At.through
  rw [List.getLast?_append]
  cases vs.getLast? <;> simp

theorem At.through_map (a : At) (f : Font) {ws : List Str} (h : ws ≠ []) : a.through (ws.map fun w => (f, w)) = { a with font := f } := by
  unfold At.through
  obtain ⟨us, u, rfl⟩ := (List.eq_nil_or_concat ws).resolve_left h
  simp

@[simp] theorem At.through_page (a : At) (ws : List (Font × Str)) : (a.through ws).page = a.page := rfl

/-- The words as text.go has them. -/
theorem words_plain (s : PState Fpdf) (t : Str) : (if norm (Fpdf.engine p) s.eng t = [] then [] else split 32 (norm (Fpdf.engine p) s.eng t)) =
    wordsIn false s.eng.page t := by
  unfold wordsIn
  have hw : wordsOf (s.eng.page : Int) t = _ := (norm_words (eng := Fpdf.engine p) s.eng t).symm
  rw [hw]
  by_cases h0 : norm (Fpdf.engine p) s.eng t = []
  · rw [if_pos h0, h0]; rfl
  · rw [if_neg h0]
    have hs := split_norm (s := tr (Fpdf.engine p) s.eng t) h0
    rw [show whitespaceRectified (tr (Fpdf.engine p) s.eng t) = norm (Fpdf.engine p) s.eng t from rfl] at hs
    rw [hs]
    split
    · rename_i h; rw [h]; rfl
    · rfl

theorem split_ne_nil' (b : UInt8) : ∀ s : Str, split b s ≠ [] := by
  intro s
  induction s with
  | nil => simp [split]
  | cons x s ih =>
    unfold split
    split
    · simp
    · split <;> simp_all

/-- The words as text-hyph.go has them. -/
theorem words_block (s : PState Fpdf) (t : Str) : split 32 (norm (Fpdf.engine p) s.eng t) = wordsIn true s.eng.page t := by
  unfold wordsIn
  have hw : wordsOf (s.eng.page : Int) t = _ := (norm_words (eng := Fpdf.engine p) s.eng t).symm
  rw [hw]
  by_cases h0 : norm (Fpdf.engine p) s.eng t = []
  · rw [h0]; rfl
  · have hs := split_norm (s := tr (Fpdf.engine p) s.eng t) h0
    rw [show whitespaceRectified (tr (Fpdf.engine p) s.eng t) = norm (Fpdf.engine p) s.eng t from rfl] at hs
    rw [hs, if_neg (split_ne_nil' _ _)]

theorem stands_changeFont {s : PState Fpdf} {a : At} (h : Stands s a) (f : Font) : Stands (changeFont (Fpdf.engine p) f s) { a with font := f } :=
  ⟨by simp only [changeFont, h.1, At.styles], h.2⟩

/-- All texts of the lines and the current line, with their fonts. -/
def allItems (acc : List TextLine × TextLine) : List (Font × Str) := (acc.1.flatMap (·.items) ++ acc.2.items).map fun i => (i.sty.font, i.text)

/-- The texts of lines with their fonts. -/
def itemsOf (ls : List TextLine) : List (Font × Str) := (ls.flatMap (·.items)).map fun i => (i.sty.font, i.text)

theorem itemsOf_close (acc : List TextLine × TextLine) : itemsOf (closeLines acc) = allItems acc := by
  unfold closeLines allItems itemsOf
  split
  · simp
  · rename_i h
    have : acc.2.items = [] := List.length_eq_zero_iff.mp (by omega)
    simp [this]

theorem itemsOf_closeHyph (acc : List TextLine × TextLine) : itemsOf (closeLinesHyph acc) = allItems acc := by
  unfold closeLinesHyph allItems itemsOf
  split
  · simp
  · rename_i h
    have : acc.2.items = [] := List.length_eq_zero_iff.mp (by omega)
    simp [this]

variable {hyph : Str → List Str}

theorem _root_.Verif.Spec.WrittenIn.append {ws ws' ts ts' : List (Font × Str)} (h : WrittenIn hyph ws ts) (h' : WrittenIn hyph ws' ts') :
    WrittenIn hyph (ws ++ ws') (ts ++ ts') := by
  induction h with
  | nil => exact h'
  | whole q _ ih => exact .whole q ih
  | broken i h1 h2 h3 h4 _ ih => exact .broken i h1 h2 h3 h4 ih

theorem wrapWord_items (tw : Str → ℚ) (width : ℚ) (sty : Styles) (acc : List TextLine × TextLine) (w : Str) :
    ∃ t, (t = w ∨ t = 32 :: w) ∧ allItems (wrapWord tw width sty acc w) = allItems acc ++ [(sty.font, t)] := by
  unfold wrapWord allItems
  simp only
  split
  · simp only [TextLine.empty, List.length_nil, Nat.lt_irrefl, if_false, gt_iff_lt]
    exact ⟨w, .inl rfl, by simp⟩
  · split
    · exact ⟨32 :: w, .inr rfl, by simp⟩
    · exact ⟨w, .inl rfl, by simp⟩

theorem wrapWords_items (tw : Str → ℚ) (width : ℚ) (sty : Styles) : ∀ (ws : List Str) (acc : List TextLine × TextLine),
    ∃ ts, WrittenIn hyph (ws.map fun w => (sty.font, w)) ts ∧ allItems (ws.foldl (wrapWord tw width sty) acc) = allItems acc ++ ts
  | [], acc => ⟨[], .nil, by simp⟩
  | w :: ws, acc => by
    obtain ⟨t, h1, h2⟩ := wrapWord_items tw width sty acc w
    obtain ⟨ts, h3, h4⟩ := wrapWords_items tw width sty ws (wrapWord tw width sty acc w)
    exact ⟨(sty.font, t) :: ts, .whole h1 h3, by rw [List.foldl_cons, h4, h2]; simp⟩

theorem wrapWordHyph_items (tw : Str → ℚ) (width : ℚ) (sty : Styles) (acc : List TextLine × TextLine) (w : Str) :
    ∃ ts, WrittenIn hyph [(sty.font, w)] ts ∧ allItems (wrapWordHyph hyph tw width sty acc w) = allItems acc ++ ts := by
  have text : ∀ l : TextLine, ∃ t, (if l.items.length > 0 then 32 :: w else w) = t ∧ (t = w ∨ t = 32 :: w) := by
    intro l
    split
    · exact ⟨_, rfl, .inr rfl⟩
    · exact ⟨_, rfl, .inl rfl⟩
  unfold wrapWordHyph
  simp only
  by_cases hc : acc.2.width + tw (32 :: w) ≥ width
  · simp only [if_pos hc]
    cases ht : tryHyphenate hyph tw width w acc.2.width with
    | none =>
      simp only
      obtain ⟨t, h1, h2⟩ := text TextLine.empty
      refine ⟨[(sty.font, t)], .whole h2 .nil, ?_⟩
      rw [h1]
      simp [allItems, TextLine.empty]
    | some r =>
      obtain ⟨s1, s2⟩ := r
      obtain ⟨i, hi1, hi2, e1, e2, _⟩ := tryHyphenate_some ht
      simp only [TextLine.empty, List.length_nil, Nat.lt_irrefl, if_false, gt_iff_lt]
      refine ⟨[(sty.font, s1), (sty.font, s2)], .broken i hi1 hi2 (.inr e1) e2 .nil, ?_⟩
      simp [allItems]
  · simp only [if_neg hc]
    obtain ⟨t, h1, h2⟩ := text acc.2
    refine ⟨[(sty.font, t)], .whole h2 .nil, ?_⟩
    rw [h1]
    simp [allItems]

theorem wrapWordsHyph_items (tw : Str → ℚ) (width : ℚ) (sty : Styles) : ∀ (ws : List Str) (acc : List TextLine × TextLine),
    ∃ ts, WrittenIn hyph (ws.map fun w => (sty.font, w)) ts ∧ allItems (ws.foldl (wrapWordHyph hyph tw width sty) acc) = allItems acc ++ ts
  | [], acc => ⟨[], .nil, by simp⟩
  | w :: ws, acc => by
    obtain ⟨t, h1, h2⟩ := wrapWordHyph_items (hyph := hyph) tw width sty acc w
    obtain ⟨ts, h3, h4⟩ := wrapWordsHyph_items tw width sty ws (wrapWordHyph hyph tw width sty acc w)
    exact ⟨t ++ ts, h1.append h3, by rw [List.foldl_cons, h4, h2]; simp⟩

/-- Measuring: the texts, and the state afterwards. -/
theorem linesLoop_items {cs : Classes} {width : ℚ} {sty : Styles} : ∀ (iss : List Instr) (acc : List TextLine × TextLine) (s : PState Fpdf) (a : At),
    Stands s a → ∃ ts, WrittenIn hyph (styledWords false cs sty a.page iss) ts ∧
      allItems (linesLoop (Fpdf.engine p) cs width sty iss acc s).1 = allItems acc ++ ts ∧
      Stands (linesLoop (Fpdf.engine p) cs width sty iss acc s).2 (a.through (styledWords false cs sty a.page iss)) ∧
      (linesLoop (Fpdf.engine p) cs width sty iss acc s).2.eng.color = s.eng.color ∧
      Hush s (linesLoop (Fpdf.engine p) cs width sty iss acc s).2 := by
  intro iss
  induction iss with
  | nil => intro acc s a h; exact ⟨[], .nil, by simp [linesLoop], h, rfl, .refl _⟩
  | cons is iss ih =>
    intro acc s a h
    have text : ∀ (isty : Styles) (t : Str), ∃ ts,
        WrittenIn hyph ((wordsIn false a.page t).map (fun w => (isty.font, w)) ++ styledWords false cs sty a.page iss) ts ∧
        let r := if norm (Fpdf.engine p) s.eng t = [] then linesLoop (Fpdf.engine p) cs width sty iss acc s
           else linesLoop (Fpdf.engine p) cs width sty iss ((split 32 (norm (Fpdf.engine p) s.eng t)).foldl
             (wrapWord (fun w => (Fpdf.engine p).textWidth w (changeFont (Fpdf.engine p) isty.font s).eng) width isty) acc)
             (changeFont (Fpdf.engine p) isty.font s)
        allItems r.1 = allItems acc ++ ts ∧
        Stands r.2 (a.through ((wordsIn false a.page t).map (fun w => (isty.font, w)) ++ styledWords false cs sty a.page iss)) ∧
        r.2.eng.color = s.eng.color ∧ Hush s r.2 := by
      intro isty t
      have hw := words_plain (p := p) s t
      rw [h.2] at hw
      by_cases h0 : norm (Fpdf.engine p) s.eng t = []
      · rw [if_pos h0] at hw ⊢
        rw [← hw]
        exact ih acc s a h
      · rw [if_neg h0] at hw ⊢
        rw [← hw]
        obtain ⟨ts, h1, h2⟩ := wrapWords_items (hyph := hyph) (fun w => (Fpdf.engine p).textWidth w (changeFont (Fpdf.engine p) isty.font s).eng)
          width isty (split 32 (norm (Fpdf.engine p) s.eng t)) acc
        obtain ⟨us, h3, h4, h5, h6, h7⟩ := ih ((split 32 (norm (Fpdf.engine p) s.eng t)).foldl
             (wrapWord (fun w => (Fpdf.engine p).textWidth w (changeFont (Fpdf.engine p) isty.font s).eng) width isty) acc)
             (changeFont (Fpdf.engine p) isty.font s) _ (stands_changeFont h isty.font)
        refine ⟨ts ++ us, h1.append h3, by rw [h4, h2, List.append_assoc], ?_, h6, (hush_font (p := p) _ _).trans h7⟩
        rw [← At.through_append, At.through_map _ _ (split_ne_nil' _ _)]
        exact h5
    cases is with
    | textBlock t => exact text sty t
    | paragraph st t => exact text (st.mutatedStyles cs sty) t
    | lineBreak =>
      obtain ⟨ts, h1, h2, h3⟩ := ih (acc.1 ++ [acc.2], TextLine.empty) s a h
      refine ⟨ts, h1, ?_, h3⟩
      simp only [linesLoop]
      rw [h2]
      simp [allItems, TextLine.empty]
    | _ => exact ih acc s a h

theorem linesLoopHyph_items {cs : Classes} {width : ℚ} {sty : Styles} : ∀ (iss : List Instr) (acc : List TextLine × TextLine) (s : PState Fpdf) (a : At),
    Stands s a → ∃ ts, WrittenIn hyph (styledWords true cs sty a.page iss) ts ∧
      allItems (linesLoopHyph (Fpdf.engine p) hyph cs width sty iss acc s).1 = allItems acc ++ ts ∧
      Stands (linesLoopHyph (Fpdf.engine p) hyph cs width sty iss acc s).2 (a.through (styledWords true cs sty a.page iss)) ∧
      (linesLoopHyph (Fpdf.engine p) hyph cs width sty iss acc s).2.eng.color = s.eng.color ∧
      Hush s (linesLoopHyph (Fpdf.engine p) hyph cs width sty iss acc s).2 := by
  intro iss
  induction iss with
  | nil => intro acc s a h; exact ⟨[], .nil, by simp [linesLoopHyph], h, rfl, .refl _⟩
  | cons is iss ih =>
    intro acc s a h
    have text : ∀ (isty : Styles) (t : Str), ∃ ts,
        WrittenIn hyph ((wordsIn true a.page t).map (fun w => (isty.font, w)) ++ styledWords true cs sty a.page iss) ts ∧
        let r := linesLoopHyph (Fpdf.engine p) hyph cs width sty iss ((split 32 (norm (Fpdf.engine p) s.eng t)).foldl
             (wrapWordHyph hyph (fun w => (Fpdf.engine p).textWidth w (changeFont (Fpdf.engine p) isty.font s).eng) width isty) acc)
             (changeFont (Fpdf.engine p) isty.font s)
        allItems r.1 = allItems acc ++ ts ∧
        Stands r.2 (a.through ((wordsIn true a.page t).map (fun w => (isty.font, w)) ++ styledWords true cs sty a.page iss)) ∧
        r.2.eng.color = s.eng.color ∧ Hush s r.2 := by
      intro isty t
      have hw := words_block (p := p) s t
      rw [h.2] at hw
      rw [← hw]
      obtain ⟨ts, h1, h2⟩ := wrapWordsHyph_items (hyph := hyph) (fun w => (Fpdf.engine p).textWidth w (changeFont (Fpdf.engine p) isty.font s).eng)
        width isty (split 32 (norm (Fpdf.engine p) s.eng t)) acc
      obtain ⟨us, h3, h4, h5, h6, h7⟩ := ih ((split 32 (norm (Fpdf.engine p) s.eng t)).foldl
           (wrapWordHyph hyph (fun w => (Fpdf.engine p).textWidth w (changeFont (Fpdf.engine p) isty.font s).eng) width isty) acc)
           (changeFont (Fpdf.engine p) isty.font s) _ (stands_changeFont h isty.font)
      refine ⟨ts ++ us, h1.append h3, by rw [h4, h2, List.append_assoc], ?_, h6, (hush_font (p := p) _ _).trans h7⟩
      rw [← At.through_append, At.through_map _ _ (split_ne_nil' _ _)]
      exact h5
    cases is with
    | textBlock t => exact text sty t
    | paragraph st t => exact text (st.mutatedStyles cs sty) t
    | lineBreak =>
      obtain ⟨ts, h1, h2, h3⟩ := ih (markLast acc.1 ++ [acc.2], TextLine.empty) s a h
      refine ⟨ts, h1, ?_, h3⟩
      simp only [linesLoopHyph]
      rw [h2]
      simp [allItems, TextLine.empty, markLast_items]
    | _ => exact ih acc s a h

theorem textHeight_stands (sty : Styles) (iss : List Instr) (width : ℚ) {s : PState Fpdf} {a : At} (h : Stands s a) :
    Stands (textHeight (Fpdf.engine p) ctx.classes iss width sty s).2 (measured (settingOf p ctx) false sty iss a) ∧
      Hush s (textHeight (Fpdf.engine p) ctx.classes iss width sty s).2 := by
  obtain ⟨_, _, _, h3, _, h4⟩ := linesLoop_items (p := p) (hyph := fun _ => []) (cs := ctx.classes) (width := width) (sty := sty) iss ([], TextLine.empty)
    { s with eng := (Fpdf.engine p).changeFont sty.font s.eng } a ⟨h.1, h.2⟩
  exact ⟨h3, h4⟩

theorem textHeightFnc_stands (sty : Styles) (iss : List Instr) (width : ℚ) {s : PState Fpdf} {a : At} (h : Stands s a) :
    Stands (textHeightFnc (Fpdf.engine p) ctx sty iss width s).2 (measured (settingOf p ctx) (isBlock sty) sty iss a) ∧
      Hush s (textHeightFnc (Fpdf.engine p) ctx sty iss width s).2 := by
  unfold textHeightFnc isBlock
  split
  · rename_i hb
    rw [hb]
    obtain ⟨_, _, _, h3, _, h4⟩ := linesLoopHyph_items (p := p) (hyph := ctx.hyphenate) (cs := ctx.classes) (width := width) (sty := sty) iss
      ([], TextLine.empty) { s with eng := (Fpdf.engine p).changeFont sty.font s.eng } a ⟨h.1, h.2⟩
    exact ⟨h3, h4⟩
  · rename_i hb
    rw [decide_eq_false hb]
    exact textHeight_stands sty iss width h

theorem linesLoop_hush {cs : Classes} {width : ℚ} {sty : Styles} : ∀ (iss : List Instr) (acc : List TextLine × TextLine) (s : PState Fpdf),
    Hush s (linesLoop (Fpdf.engine p) cs width sty iss acc s).2
  | [], _, s => .refl s
  | is :: iss, acc, s => by
    cases is with
    | textBlock t =>
      simp only [linesLoop, textOf]
      by_cases h0 : norm (Fpdf.engine p) s.eng t = []
      · rw [if_pos h0]; exact linesLoop_hush iss _ _
      · rw [if_neg h0]; exact (hush_font (p := p) _ _).trans (linesLoop_hush iss _ _)
    | paragraph st t =>
      simp only [linesLoop, textOf]
      by_cases h0 : norm (Fpdf.engine p) s.eng t = []
      · rw [if_pos h0]; exact linesLoop_hush iss _ _
      · rw [if_neg h0]; exact (hush_font (p := p) _ _).trans (linesLoop_hush iss _ _)
    | _ => exact linesLoop_hush iss _ _

theorem linesLoopHyph_hush {cs : Classes} {width : ℚ} {sty : Styles} : ∀ (iss : List Instr) (acc : List TextLine × TextLine) (s : PState Fpdf),
    Hush s (linesLoopHyph (Fpdf.engine p) hyph cs width sty iss acc s).2
  | [], _, s => .refl s
  | is :: iss, acc, s => by
    cases is with
    | textBlock t => exact (hush_font (p := p) _ _).trans (linesLoopHyph_hush iss _ _)
    | paragraph st t => exact (hush_font (p := p) _ _).trans (linesLoopHyph_hush iss _ _)
    | _ => exact linesLoopHyph_hush iss _ _

theorem textHeightFnc_hush (sty : Styles) (iss : List Instr) (width : ℚ) (s : PState Fpdf) :
    Hush s (textHeightFnc (Fpdf.engine p) ctx sty iss width s).2 := by
  unfold textHeightFnc
  split
  · exact linesLoopHyph_hush iss _ { s with eng := (Fpdf.engine p).changeFont sty.font s.eng }
  · exact linesLoop_hush iss _ { s with eng := (Fpdf.engine p).changeFont sty.font s.eng }

/-! ### Texts and boxes -/

/-- What the calls are known to do: of the current styles only the font changes; the color for texts stays. -/
structure Decent (c : Calls Fpdf) : Prop where
  write : ∀ {t s s' a}, Stands s a → c.writeText t s = some ((), s') → (∃ b, Stands s' b) ∧ s'.eng.color = s.eng.color
  add : ∀ {s s' a}, Stands s a → c.addPage s = some ((), s') → ∃ b, Stands s' b

/-- The color for texts. -/
abbrev Ink (col : RGB) : Fpdf → Prop := fun e => e.color = col

/-- One text. -/
theorem write_asks (hc : Decent c) (col : RGB) (f : Font) (t : Str) :
    Asks p c (Ink col) (fun a ps b => ps = [.text f col t ⟨f, a.page⟩ b]) (changeFontM (Fpdf.engine p) f >>= fun _ => c.writeText t) := by
  intro s a r s' h1 h2 h
  obtain ⟨u, s1, h3, h4⟩ := bind_some h
  simp only [changeFontM, Option.some.injEq, Prod.mk.injEq] at h3
  obtain ⟨-, rfl⟩ := h3
  have h5 := stands_changeFont (p := p) h1 f
  obtain ⟨⟨b, h6⟩, h7⟩ := hc.write h5 h4
  exact ⟨_, b, rfl, .quiet (hush_font f s) (.text h4 rfl h2 h5 h6 (.nil _)), h6, h7.trans h2⟩

theorem still_setX (x : ℚ) (col : RGB) : Still p c (Ink col) (upd ((Fpdf.engine p).setX x)) := Asks.upd (fun _ => ⟨rfl, rfl⟩) fun _ h => h

theorem shown_feed (x : ℚ) (e : Fpdf) : ((Fpdf.engine p).lineFeed x e).page = e.page ∧ shownOn ((Fpdf.engine p).lineFeed x e) = shownOn e :=
  ⟨rfl, by simp [shownOn, Fpdf.engine, Fpdf.lineFeed]⟩

theorem still_lineFeed (x : ℚ) (col : RGB) : Still p c (Ink col) (upd ((Fpdf.engine p).lineFeed x)) := Asks.upd (shown_feed x) fun _ h => h

theorem writeItems_asks (hc : Decent c) (col : RGB) : ∀ items : List TextItem,
    Asks p c (Ink col) (fun a => WritesIn col a (items.map fun i => (i.sty.font, i.text))) (writeItems (Fpdf.engine p) c items)
  | [] => (Asks.pure ()).mono (by rintro a ps b ⟨rfl, rfl⟩; exact .nil)
  | i :: is => by
    have := (write_asks (p := p) hc col i.sty.font i.text).bind (R'' := fun a => WritesIn col a ((i :: is).map fun i => (i.sty.font, i.text)))
      (fun _ => writeItems_asks hc col is) (by rintro a ps b qs d rfl hq; exact .cons hq)
    simpa only [writeItems, bind_assoc] using this

theorem alignLine_asks (col : RGB) (h : Str) (xLeft width : ℚ) (line : TextLine) :
    Still p c (Ink col) (alignLine (Fpdf.engine p) h xLeft width line) := by
  unfold alignLine
  exact Asks.ite (fun _ => still_setX _ _) fun _ => Asks.ite (fun _ => still_setX _ _) fun _ => Asks.ite (fun _ => still_setX _ _) fun _ => Asks.pure ()

theorem writesIn_append {col : RGB} {a b d : At} {ts us : List (Font × Str)} {ps qs : List Ask} (h : WritesIn col a ts ps b) (h' : WritesIn col b us qs d) :
    WritesIn col a (ts ++ us) (ps ++ qs) d := by
  induction h with
  | nil => exact h'
  | cons _ ih => exact .cons (ih h')

theorem writeLines_asks (hc : Decent c) (col : RGB) (sty : Styles) (xLeft width : ℚ) : ∀ lines : List TextLine,
    Asks p c (Ink col) (fun a => WritesIn col a (itemsOf lines)) (writeLines (Fpdf.engine p) c sty xLeft width lines)
  | [] => (Asks.pure ()).mono (by rintro a ps b ⟨rfl, rfl⟩; exact .nil)
  | l :: ls => (alignLine_asks _ _ _ _ _).after fun _ => (writeItems_asks hc col l.items).bind
      (fun _ => (still_lineFeed _ _).after fun _ => writeLines_asks hc col sty xLeft width ls) (by
        intro a ps b qs d hp hq
        have := writesIn_append hp hq
        simpa [itemsOf] using this)

theorem writeSpaced_asks (hc : Decent c) (col : RGB) (w : ℚ) : ∀ items : List TextItem,
    Asks p c (Ink col) (fun a => WritesIn col a (items.map fun i => (i.sty.font, trimSpace i.text))) (writeSpaced (Fpdf.engine p) c w items)
  | [] => (Asks.pure ()).mono (by rintro a ps b ⟨rfl, rfl⟩; exact .nil)
  | i :: is => by
    have := (write_asks (p := p) hc col i.sty.font (trimSpace i.text)).bind
      (R'' := fun a => WritesIn col a ((i :: is).map fun i => (i.sty.font, trimSpace i.text)))
      (fun _ => (Asks.ask (Fpdf.engine p).getXY).after fun xy => (still_setX (xy.1 + w) col).after fun _ => writeSpaced_asks hc col w is)
      (by rintro a ps b qs d rfl hq; exact .cons hq)
    simpa only [writeSpaced, bind_assoc] using this

/-- The texts, some of them trimmed, in their fonts. -/
def TrimsIn (ts us : List (Font × Str)) : Prop := List.Forall₂ (fun t u => u.1 = t.1 ∧ (u.2 = t.2 ∨ u.2 = trimSpace t.2)) ts us

theorem writeHyphLine_asks (hc : Decent c) (col : RGB) (width : ℚ) (line : TextLine) :
    Asks p c (Ink col) (fun a ps b => ∃ us, TrimsIn (line.items.map fun i => (i.sty.font, i.text)) us ∧ WritesIn col a us ps b)
      (writeHyphLine (Fpdf.engine p) c width line) := by
  unfold writeHyphLine
  simp only
  refine Asks.ite (fun _ => (writeItems_asks hc col _).mono ?_) fun _ => (writeSpaced_asks hc col _ _).mono ?_
  · intro a ps b h
    exact ⟨_, List.forall₂_same.mpr fun _ _ => ⟨rfl, .inl rfl⟩, h⟩
  · intro a ps b h
    refine ⟨_, ?_, h⟩
    rw [TrimsIn, List.forall₂_map_left_iff, List.forall₂_map_right_iff]
    exact List.forall₂_same.mpr fun _ _ => ⟨rfl, .inr rfl⟩

theorem writeHyphLines_asks (hc : Decent c) (col : RGB) (sty : Styles) (xLeft width : ℚ) : ∀ lines : List TextLine,
    Asks p c (Ink col) (fun a ps b => ∃ us, TrimsIn (itemsOf lines) us ∧ WritesIn col a us ps b)
      (writeHyphLines (Fpdf.engine p) c sty xLeft width lines)
  | [] => (Asks.pure ()).mono (by rintro a ps b ⟨rfl, rfl⟩; exact ⟨[], .nil, .nil⟩)
  | l :: ls => (still_setX _ _).after fun _ => (writeHyphLine_asks hc col _ l).bind
      (fun _ => (still_lineFeed _ _).after fun _ => writeHyphLines_asks hc col sty xLeft width ls) (by
        rintro a ps b qs d ⟨us, h1, h2⟩ ⟨vs, h3, h4⟩
        refine ⟨us ++ vs, ?_, writesIn_append h2 h4⟩
        have := List.rel_append h1 h3
        simpa [itemsOf, TrimsIn] using this)

theorem _root_.Verif.Spec.WrittenIn.trimmed {ws ts us : List (Font × Str)} (h : WrittenIn hyph ws ts) (hw : ∀ w ∈ ws, 32 ∉ w.2)
    (hh : ∀ w, (hyph w).flatten <:+: w) (hu : TrimsIn ts us) : WrittenIn hyph ws us := by
  have id : ∀ w : Str, 32 ∉ w → trimSpace w = w := fun w h => trimSpace_id h
  unfold TrimsIn at hu
  induction h generalizing us with
  | nil => cases hu; exact .nil
  | @whole f w ws t ts q _ ih =>
    obtain ⟨⟨uf, u⟩, us', ⟨hf, hu1⟩, hu2, rfl⟩ := List.forall₂_cons_left_iff.mp hu
    simp only at hf hu1
    subst hf
    have h32 := hw (uf, w) (by simp)
    refine .whole ?_ (ih (fun w hw' => hw w (by simp [hw'])) hu2)
    rcases hu1 with rfl | rfl
    · exact q
    · rcases q with rfl | rfl
      · exact .inl (id _ h32)
      · exact .inl (by rw [trimSpace_cons]; exact id _ h32)
  | @broken f w ws t u ts i h1 h2 h3 h4 _ ih =>
    obtain ⟨⟨tf, t'⟩, us', ⟨hf, hu1⟩, hu2, rfl⟩ := List.forall₂_cons_left_iff.mp hu
    obtain ⟨⟨uf, u'⟩, us'', ⟨hf', hu3⟩, hu4, rfl⟩ := List.forall₂_cons_left_iff.mp hu2
    simp only at hf hf' hu1 hu3
    subst hf; subst hf'
    have h32 := hw (uf, w) (by simp)
    have hfl : 32 ∉ (hyph w).flatten := fun hc => h32 ((hh w).subset hc)
    have ha : 32 ∉ ((hyph w).take i).flatten := fun hc => hfl (by
      rw [← List.take_append_drop i (hyph w), List.flatten_append]; exact List.mem_append_left _ hc)
    have hb : 32 ∉ ((hyph w).drop i).flatten := fun hc => hfl (by
      rw [← List.take_append_drop i (hyph w), List.flatten_append]; exact List.mem_append_right _ hc)
    have ha' : 32 ∉ ((hyph w).take i).flatten ++ [45] := by
      simp only [List.mem_append, List.mem_singleton, not_or]
      exact ⟨ha, by decide⟩
    refine .broken i h1 h2 ?_ ?_ (ih (fun w hw' => hw w (by simp [hw'])) hu4)
    · rcases hu1 with rfl | rfl
      · exact h3
      · rcases h3 with rfl | rfl
        · exact .inl (id _ ha')
        · exact .inl (by rw [trimSpace_cons]; exact id _ ha')
    · rcases hu3 with rfl | rfl
      · exact h4
      · rw [h4]; exact id _ hb

theorem wordsIn_solid (block : Bool) (page : Nat) (t : Str) : ∀ w ∈ wordsIn block page t, 32 ∉ w := by
  intro w hw
  unfold wordsIn at hw
  split at hw
  · cases block <;> simp_all
  · exact split_no_sep _ _ _ (List.mem_filter.mp hw).1

theorem styledWords_solid (block : Bool) (cs : Classes) (sty : Styles) (page : Nat) : ∀ iss : List Instr, ∀ w ∈ styledWords block cs sty page iss, 32 ∉ w.2 := by
  intro iss
  induction iss with
  | nil => intro w hw; simp [styledWords] at hw
  | cons is iss ih =>
    intro w hw
    have key : ∀ (f : Font) (t : Str), w ∈ (wordsIn block page t).map (fun w => (f, w)) ++ styledWords block cs sty page iss → 32 ∉ w.2 := by
      intro f t h
      rcases List.mem_append.mp h with h | h
      · obtain ⟨v, h1, rfl⟩ := List.mem_map.mp h
        exact wordsIn_solid _ _ _ v h1
      · exact ih w h
    cases is with
    | textBlock t => exact key _ t hw
    | paragraph st t => exact key _ t hw
    | _ => exact ih w hw

/-- In another color. -/
theorem inked_asks {R : At → List Ask → At → Prop} {col : RGB} {k : Unit → M Fpdf α} (hk : ∀ u, Asks p c (Ink col) R (k u)) :
    Asks p c Any R (upd ((Fpdf.engine p).setTextColor col) >>= k) := by
  intro s a r s' h1 _ h
  obtain ⟨u, s1, h2, h3⟩ := bind_some h
  simp only [Model.upd, Option.some.injEq, Prod.mk.injEq] at h2
  obtain ⟨-, rfl⟩ := h2
  obtain ⟨ps, b, g1, g2, g3, -⟩ := hk u { s with eng := (Fpdf.engine p).setTextColor col s.eng } a r s' ⟨h1.1, h1.2⟩ rfl h3
  exact ⟨ps, b, g1, .quiet (s1 := { s with eng := (Fpdf.engine p).setTextColor col s.eng }) ⟨rfl, rfl⟩ g2, g3, trivial⟩

theorem writeTextFnc_asks (hc : Decent c) (hw : ∀ w, (ctx.hyphenate w).flatten <:+: w) (iss : List Instr) (width : ℚ) (sty : Styles) :
    Asks p c Any (TextAsks (settingOf p ctx) sty iss) (writeTextFnc (Fpdf.engine p) ctx c iss width sty) := by
  unfold writeTextFnc
  refine Asks.ite (fun hb => ?_) fun hb => ?_
  · unfold writeTextHyphenated
    refine (Asks.upd (f := (Fpdf.engine p).changeFont sty.font) (fun _ => ⟨rfl, rfl⟩) fun _ h => h).after fun _ => inked_asks fun _ => ?_
    intro s a r s' h1 h2 hr
    obtain ⟨lines, s1, h3, h4⟩ := bind_some hr
    simp only [Model.total, Option.some.injEq] at h3
    obtain ⟨ts, k1, k2, k3, k4, k5⟩ := linesLoopHyph_items (p := p) (hyph := ctx.hyphenate) (cs := ctx.classes) (width := width) (sty := sty) iss
      ([], TextLine.empty) s a h1
    have hl : itemsOf lines = ts := by
      have := congrArg Prod.fst h3
      simp only [textLinesHyphenated] at this
      rw [← this, itemsOf_closeHyph, k2]
      simp [allItems, TextLine.empty]
    have hs1 : _ = s1 := congrArg Prod.snd h3
    have hd : Hush s s1 := by
      rw [← hs1]
      exact k5
    simp only [textLinesHyphenated] at hs1
    rw [hs1] at k3 k4
    obtain ⟨ps, b, ⟨us, g1, g2⟩, g3, g4, g5⟩ := ((Asks.ask (Fpdf.engine p).getXY).after fun xy => writeHyphLines_asks hc sty.color.text sty xy.1 width lines)
      s1 _ r s' k3 (k4.trans h2) h4
    rw [hl] at g1
    have hblock : isBlock sty = true := decide_eq_true hb
    refine ⟨ps, b, ⟨us, ?_, ?_⟩, .quiet hd g3, g4, g5⟩
    · rw [hblock]; exact k1.trimmed (styledWords_solid _ _ _ _ _) hw g1
    · rw [hblock]; exact g2
  · unfold Model.writeText
    refine (Asks.upd (f := (Fpdf.engine p).changeFont sty.font) (fun _ => ⟨rfl, rfl⟩) fun _ h => h).after fun _ => inked_asks fun _ => ?_
    intro s a r s' h1 h2 hr
    obtain ⟨lines, s1, h3, h4⟩ := bind_some hr
    simp only [Model.total, Option.some.injEq] at h3
    obtain ⟨ts, k1, k2, k3, k4, k5⟩ := linesLoop_items (p := p) (hyph := ctx.hyphenate) (cs := ctx.classes) (width := width) (sty := sty) iss
      ([], TextLine.empty) s a h1
    have hl : itemsOf lines = ts := by
      have := congrArg Prod.fst h3
      simp only [textLines] at this
      rw [← this, itemsOf_close, k2]
      simp [allItems, TextLine.empty]
    have hs1 : _ = s1 := congrArg Prod.snd h3
    have hd : Hush s s1 := by
      rw [← hs1]
      exact k5
    simp only [textLines] at hs1
    rw [hs1] at k3 k4
    obtain ⟨ps, b, g2, g3, g4, g5⟩ := ((Asks.ask (Fpdf.engine p).getXY).after fun xy => writeLines_asks hc sty.color.text sty xy.1 width lines)
      s1 _ r s' k3 (k4.trans h2) h4
    rw [hl] at g2
    have hblock : isBlock sty = false := decide_eq_false hb
    refine ⟨ps, b, ⟨ts, ?_, ?_⟩, .quiet hd g3, g4, g5⟩
    · rw [hblock]; exact k1
    · rw [hblock]; exact g2

theorem textAsks_nil (m : Surroundings) (sty : Styles) (a : At) : TextAsks m sty [] a [] a := ⟨[], .nil, .nil⟩

theorem resetStyles_asks : Still p c Any (resetStyles (Fpdf.engine p)) := Asks.nothing (g := id) (by
  intro s a r s' h1 _ h
  simp only [resetStyles, Option.some.injEq, Prod.mk.injEq] at h
  rw [← h.2]
  exact ⟨⟨rfl, rfl⟩, ⟨h1.1, h1.2⟩, trivial⟩)

theorem any_setX (x : ℚ) : Still p c Any (upd ((Fpdf.engine p).setX x)) := Asks.upd (fun _ => ⟨rfl, rfl⟩) fun _ h => h
theorem any_setY (x : ℚ) : Still p c Any (upd ((Fpdf.engine p).setY x)) := Asks.upd (fun _ => ⟨rfl, rfl⟩) fun _ h => h

theorem draw_page (d : DrawCmd) (e : Fpdf) : ((Fpdf.engine p).draw d e).page = e.page := by cases d <;> rfl

theorem drawAll_page (cmds : List DrawCmd) (e : Fpdf) : (drawAll p cmds e).page = e.page := by
  unfold drawAll
  induction cmds generalizing e with
  | nil => rfl
  | cons d cmds ih => rw [List.foldl_cons, ih, draw_page]

theorem drawAll_shown (cmds : List DrawCmd) (e : Fpdf) : shownOn (drawAll p cmds e) = shownOn e ++ cmds.map (.draw e.page) := by
  unfold drawAll
  induction cmds generalizing e with
  | nil => simp
  | cons d cmds ih =>
    rw [List.foldl_cons, ih, draw_page]
    have : shownOn ((Fpdf.engine p).draw d e) = shownOn e ++ [.draw e.page d] := by cases d <;> simp [shownOn, Fpdf.engine, Fpdf.draw]
    rw [this]
    simp

theorem drawBox_draws (x0 y0 x1 y1 : ℚ) (sty : Styles) : DrawsBox sty ⟨x0, y0, x1, y1⟩ (drawBox x0 y0 x1 y1 sty) := by
  intro pen hp
  refine ⟨?_, (Verif.Props.C46_compose pen [] x0 y0 x1 y1 sty).1⟩
  rw [Verif.Props.C46_ink pen hp]
  unfold boxInk Verif.Props.boxEdges
  by_cases ht : sty.box.border.top > 0 <;> by_cases hr : sty.box.border.right > 0 <;>
    by_cases hb : sty.box.border.bottom > 0 <;> by_cases hl : sty.box.border.left > 0 <;> simp [ht, hr, hb, hl]

theorem drawBoxM_asks (x0 y0 x1 y1 : ℚ) (sty : Styles) :
    Asks p c Any (fun a ps b => ps = [.box a.page sty ⟨x0, y0, x1, y1⟩] ∧ b = a) (drawBoxM (Fpdf.engine p) x0 y0 x1 y1 sty) := by
  intro s a r s' h1 _ h
  simp only [drawBoxM, Model.upd, Option.some.injEq, Prod.mk.injEq] at h
  rw [← h.2]
  refine ⟨[.box s.eng.page sty ⟨x0, y0, x1, y1⟩], a, ⟨by rw [h1.2], rfl⟩, ?_⟩
  exact ⟨.box _ _ _ (drawBox_draws _ _ _ _ _) (.nil _), ⟨h1.1, (drawAll_page _ _).trans h1.2⟩, trivial⟩

theorem renderText_asks (hc : Decent c) (hw : ∀ w, (ctx.hyphenate w).flatten <:+: w) (st : Styled) (iss : List Instr) :
    Asks p c Any (fun a => TextAsks (settingOf p ctx) (st.mutatedStyles ctx.classes a.styles) iss a) (renderText (Fpdf.engine p) ctx c st iss) := by
  unfold renderText
  refine Asks.ite (fun h => ?_) fun _ => ?_
  · rw [List.length_eq_zero_iff.mp h]
    exact (Asks.pure ()).mono (by rintro a ps b ⟨rfl, rfl⟩; exact textAsks_nil _ _ _)
  · refine Asks.get fun s a hs => ?_
    refine (Asks.after (Asks.ask _) fun _ => (writeTextFnc_asks hc hw iss _ _).before fun _ => resetStyles_asks).mono ?_
    rintro a' ps b h rfl
    rw [hs.1] at h
    exact h

theorem measured_nil (m : Surroundings) (block : Bool) (sty : Styles) (a : At) : measured m block sty [] a = a := rfl

theorem boxHeight_asks (sty : Styles) (iss : List Instr) (width : ℚ) :
    Moves p c Any (boxMeasured (settingOf p ctx) sty iss) (boxHeight (Fpdf.engine p) ctx sty iss width) := by
  refine Asks.nothing ?_
  intro s a r s' h1 _ h
  unfold boxHeight at h
  unfold boxMeasured
  split at h
  · rename_i hh
    rw [if_neg (not_lt.mpr hh)]
    split at h
    · simp only [Model.total, Option.some.injEq] at h
      have : _ = s' := congrArg Prod.snd h
      rw [← this]
      exact ⟨(textHeightFnc_stands sty iss width h1).2, (textHeightFnc_stands sty iss width h1).1, trivial⟩
    · rename_i hl
      rw [List.length_eq_zero_iff.mp (by omega : iss.length = 0)]
      simp only [Model.ask, Option.some.injEq, Prod.mk.injEq] at h
      rw [← h.2]
      exact ⟨.refl _, h1, trivial⟩
  · rename_i hh
    rw [if_pos (not_le.mp hh)]
    simp only [Pure.pure, StateT.pure, Option.some.injEq, Prod.mk.injEq] at h
    rw [← h.2]
    exact ⟨.refl _, h1, trivial⟩

theorem addPage_asks (hc : Decent c) : Asks p c Any (fun a ps b => ps = [.page a b]) c.addPage := by
  intro s a r s' h1 _ h
  obtain ⟨b, hb⟩ := hc.add h1 h
  exact ⟨_, b, rfl, .page h h1 hb (.nil _), hb, trivial⟩

theorem boxStart_asks (hc : Decent c) (height : ℚ) :
    Asks p c Any (fun a ps b => (ps = [] ∧ b = a) ∨ ps = [.page a b]) (boxStart (Fpdf.engine p) c height) := by
  unfold boxStart
  refine Asks.get fun s a hs => Asks.ite (fun _ => ?_) fun _ => ?_
  · exact ((addPage_asks hc).before fun _ => Asks.ask _).mono (by rintro a' ps b h rfl; exact .inr h)
  · exact (Asks.pure _).mono (by rintro a' ps b h rfl; exact .inl h)

theorem wide_eq (area : Area) (w : ℚ) : area.effectiveWidth w = wide w area := by
  unfold Area.effectiveWidth wide Area.width
  by_cases h : 0 ≤ w ∧ w ≤ area.x1 - area.x0
  · rw [if_pos h, if_neg (by rintro (h1 | h1) <;> linarith [h.1, h.2])]
  · rw [if_neg h, if_pos (by by_contra hc; push Not at hc; exact h hc)]

/-- A given height is taken. -/
theorem boxHeight_given {sty : Styles} {iss : List Instr} {width h : ℚ} {s s' : PState Fpdf} (hh : 0 < sty.dim.height)
    (hr : boxHeight (Fpdf.engine p) ctx sty iss width s = some (h, s')) : h = sty.dim.height := by
  unfold boxHeight at hr
  rw [if_neg (not_le.mpr hh)] at hr
  simp only [Pure.pure, StateT.pure, Option.some.injEq, Prod.mk.injEq] at hr
  exact hr.1.symm

theorem renderTextBox_asks (hc : Decent c) (hw : ∀ w, (ctx.hyphenate w).flatten <:+: w) (st : Styled) (iss : List Instr) (pa : Area) :
    Asks p c Any (BoxAsks (settingOf p ctx) pa st iss) (renderTextBox (Fpdf.engine p) ctx c st iss pa) := by
  unfold renderTextBox
  refine Asks.get fun s a0 hs => ?_
  have rest : ∀ (sty : Styles) (x y x' y' w z1 z2 z3 : ℚ), RectOf sty pa ⟨x, y, x', y'⟩ →
      Asks p c Any (fun a ps b => ∃ r ts, RectOf sty pa r ∧ TextAsks (settingOf p ctx) sty iss a ts b ∧ ps = .box a.page sty r :: ts) (do
      drawBoxM (Fpdf.engine p) x y x' y' sty
      upd ((Fpdf.engine p).setY z1)
      upd ((Fpdf.engine p).setX z2)
      if iss.length > 0 then writeTextFnc (Fpdf.engine p) ctx c iss w sty else pure ()
      upd ((Fpdf.engine p).setY z3)
      resetStyles (Fpdf.engine p)) := by
    intro sty x y x' y' w z1 z2 z3 hrect
    refine (drawBoxM_asks x y x' y' sty).bind (R' := TextAsks (settingOf p ctx) sty iss) (fun _ => ?_)
      (by rintro a ps b qs d ⟨rfl, rfl⟩ hq; exact ⟨_, qs, hrect, hq, rfl⟩)
    refine (any_setY _).after fun _ => (any_setX _).after fun _ => ?_
    refine Asks.ite (fun _ => ?_) fun h => ?_
    · exact (writeTextFnc_asks hc hw _ _ _).before fun _ => (any_setY _).after fun _ => resetStyles_asks
    · rw [List.length_eq_zero_iff.mp (by omega : iss.length = 0)]
      exact ((Asks.pure PUnit.unit).after fun _ => (any_setY _).after fun _ => resetStyles_asks).mono
        (by rintro a ps b ⟨rfl, rfl⟩; exact textAsks_nil _ _ _)
  intro s1 a1 r s' h1 h2 hr
  obtain ⟨h, s2, h3, h4⟩ := bind_some hr
  obtain ⟨ps, b, ⟨rfl, rfl⟩, g2, g3, -⟩ := boxHeight_asks (p := p) (c := c) _ _ _ s1 a1 h s2 h1 trivial h3
  have hrect : ∀ x0 y0 : ℚ, RectOf (st.mutatedStyles ctx.classes s.curr) pa ⟨x0, y0,
      x0 + boxWidth (st.mutatedStyles ctx.classes s.curr) pa + (st.mutatedStyles ctx.classes s.curr).box.padding.left +
        (st.mutatedStyles ctx.classes s.curr).box.padding.right,
      y0 + h + (st.mutatedStyles ctx.classes s.curr).box.padding.top + (st.mutatedStyles ctx.classes s.curr).box.padding.bottom⟩ := by
    intro x0 y0
    constructor
    · simp only [boxWidth, wide_eq]
      ring
    · intro hh
      rw [boxHeight_given hh h3]
      ring
  obtain ⟨ps, b, k1, k2, k3, -⟩ := ((boxStart_asks hc h).bind (R'' := fun a ps b =>
      (∃ r ts, RectOf (st.mutatedStyles ctx.classes s.curr) pa r ∧ TextAsks (settingOf p ctx) (st.mutatedStyles ctx.classes s.curr) iss a ts b ∧
        ps = .box a.page (st.mutatedStyles ctx.classes s.curr) r :: ts) ∨
      ∃ a2 qs, (∃ r ts, RectOf (st.mutatedStyles ctx.classes s.curr) pa r ∧ TextAsks (settingOf p ctx) (st.mutatedStyles ctx.classes s.curr) iss a2 ts b ∧
        qs = .box a2.page (st.mutatedStyles ctx.classes s.curr) r :: ts) ∧ ps = .page a a2 :: qs)
    (fun xy => rest _ _ _ _ _ _ _ _ _ (hrect (xy.1 + (st.mutatedStyles ctx.classes s.curr).dim.offsetX) (xy.2 + (st.mutatedStyles ctx.classes s.curr).dim.offsetY))) (by
      rintro a ps b qs d (⟨rfl, rfl⟩ | rfl) hq
      · exact .inl hq
      · exact .inr ⟨b, qs, hq, rfl⟩)) s2 _ r s' g3 trivial h4
  refine ⟨ps, b, ?_, .quiet' g2 k2, k3, trivial⟩
  rintro rfl
  rw [hs.1] at k1
  exact k1

theorem textBoxHeight_asks (st : Styled) (iss : List Instr) (pa : Area) :
    Moves p c Any (fun a => boxMeasured (settingOf p ctx) (st.mutatedStyles ctx.classes a.styles) iss a) (textBoxHeight (Fpdf.engine p) ctx st iss pa) := by
  unfold textBoxHeight
  refine Asks.get fun s a0 hs => ?_
  refine ((boxHeight_asks (st.mutatedStyles ctx.classes s.curr) iss (boxWidth (st.mutatedStyles ctx.classes s.curr) pa)).before fun h =>
    resetStyles_asks.after fun _ => Asks.pure h).mono ?_
  rintro a ps b h rfl
  rw [hs.1] at h
  exact h

theorem renderImage_asks (st : Styled) (source : Str) (pa : Area) :
    Asks p c Any (fun a ps b => ps = (settingOf p ctx).image a.page source ∧ b = a) (renderImage (Fpdf.engine p) ctx st source pa) := by
  unfold renderImage settingOf
  simp only
  cases ctx.describe (ctx.resolve source) with
  | none => exact Asks.pure ()
  | some d =>
    intro s a r s' h1 _ hr
    simp only [Option.some.injEq, Prod.mk.injEq] at hr
    rw [← hr.2]
    exact ⟨_, a, ⟨rfl, rfl⟩, h1.2 ▸ .image _ _ _ _ _ (.nil _), ⟨h1.1, h1.2⟩, trivial⟩

/-! ### Cells and tables -/

theorem renderCellItems_asks (hc : Decent c) (hw : ∀ w, (ctx.hyphenate w).flatten <:+: w) (v : Str) (pa : Area) : ∀ iss : List Instr,
    Asks p c Any (Turns (ItemAsks (settingOf p ctx) pa) iss) (renderCellItems (Fpdf.engine p) ctx c v pa iss) := by
  intro iss
  induction iss with
  | nil => exact (Asks.pure ()).mono (by rintro a ps b ⟨rfl, rfl⟩; exact .nil)
  | cons is iss ih =>
    have other : (∀ a, ItemAsks (settingOf p ctx) pa is a [] a) →
        Asks p c Any (Turns (ItemAsks (settingOf p ctx) pa) (is :: iss)) (renderCellItems (Fpdf.engine p) ctx c v pa iss) :=
      fun h => ih.mono fun a ps b hp => .cons (h a) hp
    cases is with
    | box st b =>
      have := Asks.moved (textBoxHeight_asks (p := p) (c := c) (ctx := ctx) st b pa) fun h => (any_setY (boxTop v pa h)).after fun _ =>
        renderTextBox_asks (ctx := ctx) hc hw st b pa
      have := this.bind (fun _ => ih) (R'' := Turns (ItemAsks (settingOf p ctx) pa) (.box st b :: iss)) fun a ps d qs e hp hq => .cons hp hq
      simpa only [renderCellItems, bind_assoc] using this
    | image st src =>
      exact (any_setY _).after fun _ => (renderImage_asks _ _ _).bind (fun _ => ih) fun a ps b qs d hp hq => .cons hp hq
    | _ => exact other fun a => ⟨rfl, rfl⟩

theorem renderCell_asks (hc : Decent c) (hw : ∀ w, (ctx.hyphenate w).flatten <:+: w) (pa : Area) (sty : Styles) (iss : List Instr) :
    Asks p c Any (CellAsks (settingOf p ctx) (sty, iss)) (renderCell (Fpdf.engine p) ctx c pa sty iss) := by
  have ht : Asks p c Any (fun a => TextAsks (settingOf p ctx) sty iss (measured (settingOf p ctx) false sty iss a))
      (renderCellText (Fpdf.engine p) ctx c pa sty iss) := by
    refine Asks.moved (Asks.nothing ?_) fun _ => (any_setY _).after fun _ => (any_setX _).after fun _ =>
      writeTextFnc_asks hc hw _ _ _
    intro s a r s' h1 _ h
    simp only [Model.total, Option.some.injEq] at h
    have : _ = s' := congrArg Prod.snd h
    rw [← this]
    exact ⟨(textHeight_stands _ _ _ h1).2, (textHeight_stands _ _ _ h1).1, trivial⟩
  unfold renderCell
  refine (drawBoxM_asks _ _ _ _ _).bind (R' := fun a ps b => ∃ a1 ts qs, TextAsks (settingOf p ctx) sty iss (measured (settingOf p ctx) false sty iss a) ts a1 ∧
      Turns (ItemAsks (settingOf p ctx) (within sty.box.padding pa)) iss a1 qs b ∧ ps = ts ++ qs) (fun _ => ?_)
    (by rintro a ps b qs d ⟨rfl, rfl⟩ ⟨a1, ts, us, h1, h2, rfl⟩; exact ⟨_, a1, ts, us, h1, h2, rfl⟩)
  refine Asks.ite (fun _ => ?_) fun h => ?_
  · exact ht.bind (fun _ => (any_setX _).after fun _ => renderCellItems_asks hc hw _ _ _) fun a ps b qs d hp hq => ⟨b, ps, qs, hp, hq, rfl⟩
  · rw [List.length_eq_zero_iff.mp (by omega : iss.length = 0)]
    refine Asks.after (any_setX _) fun _ => ?_
    exact (renderCellItems_asks hc hw _ _ []).mono fun a ps b hq => ⟨a, [], ps, textAsks_nil _ _ _, hq, rfl⟩

/-- The authored cells of a row with their styles. -/
def stCells (t : Tab) (ids : List Nat) : List (Styles × List Instr) := (ids.filter (isAuthored t)).map fun id => ((t.cell id).styles, (t.cell id).iss)

section
variable {t : Tab}

theorem authored_false {id : Nat} (hc : (t.cell id).spannedBy.isSome = true ∨ (t.cell id).zero = true) : isAuthored t id = false := by
  unfold isAuthored
  cases h1 : (t.cell id).spannedBy <;> cases h2 : (t.cell id).zero <;> simp_all

theorem authored_true {id : Nat} (hc : ¬ ((t.cell id).spannedBy.isSome = true ∨ (t.cell id).zero = true)) : isAuthored t id = true := by
  unfold isAuthored
  cases h1 : (t.cell id).spannedBy <;> cases h2 : (t.cell id).zero <;> simp_all

variable {s s' : PState Fpdf} {a : At}

theorem renderRowCells_asks (hc : Decent c) (hw : ∀ w, (ctx.hyphenate w).flatten <:+: w) {y : ℚ} : ∀ (ids : List Nat) (x : ℚ) (s s' : PState Fpdf) (a : At),
    Stands s a → renderRowCells (tableOps (Fpdf.engine p) ctx c t) t y x ids s = some s' →
    ∃ ps b, RowAsks (settingOf p ctx) (stCells t ids) a ps b ∧ Went p c s ps s' ∧ Stands s' b
  | [], x, s, s', a, hs, h => by
    simp only [renderRowCells, Option.some.injEq] at h
    exact ⟨[], a, .nil, h ▸ .nil _, h ▸ hs⟩
  | id :: ids, x, s, s', a, hs, h => by
    unfold renderRowCells at h
    simp only at h
    split at h
    · rename_i hn
      unfold stCells
      rw [List.filter_cons_of_neg (by simp [authored_false hn])]
      exact renderRowCells_asks hc hw ids _ _ _ _ hs h
    · rename_i hn
      unfold stCells
      rw [List.filter_cons_of_pos (authored_true hn)]
      split at h
      · exact absurd h (by simp)
      · rename_i s1 h1
        simp only [tableOps, Option.map_eq_some_iff] at h1
        obtain ⟨⟨u, s2⟩, h2, rfl⟩ := h1
        obtain ⟨ps, b, g1, g2, g3, -⟩ := renderCell_asks hc hw _ _ _ _ _ _ _ hs trivial h2
        obtain ⟨qs, d, g4, g5, g6⟩ := renderRowCells_asks hc hw ids _ _ _ _ g3 h
        exact ⟨ps ++ qs, d, .cons g1 g4, g2.append g5, g6⟩

theorem renderRow_asks (hc : Decent c) (hw : ∀ w, (ctx.hyphenate w).flatten <:+: w) {x0 y y' : ℚ} {row : TRow} (hs : Stands s a)
    (h : renderRow (tableOps (Fpdf.engine p) ctx c t) t x0 row y s = some (y', s')) :
    ∃ ps b, RowAsks (settingOf p ctx) (stCells t row.cells) a ps b ∧ Went p c s ps s' ∧ Stands s' b := by
  unfold renderRow at h
  split at h
  · exact absurd h (by simp)
  · rename_i s1 h1
    simp only [Option.some.injEq, Prod.mk.injEq] at h
    obtain ⟨ps, b, h2, h3, h4⟩ := renderRowCells_asks hc hw _ _ _ _ _ hs h1
    rw [← h.2]
    refine ⟨ps, b, h2, ?_, ⟨h4.1, h4.2⟩⟩
    have := h3.append (.quiet (s1 := { s1 with eng := (Fpdf.engine p).setX x0 s1.eng }) ⟨rfl, rfl⟩ (.nil _))
    rwa [List.append_nil] at this

theorem renderHeader_asks (hc : Decent c) (hw : ∀ w, (ctx.hyphenate w).flatten <:+: w) {x0 : ℚ} : ∀ (rows : List TRow) (y y' : ℚ) (s s' : PState Fpdf) (a : At),
    Stands s a → renderHeader (tableOps (Fpdf.engine p) ctx c t) t x0 rows y s = some (y', s') →
    ∃ ps b, Turns (RowAsks (settingOf p ctx)) (rows.map fun r => stCells t r.cells) a ps b ∧ Went p c s ps s' ∧ Stands s' b
  | [], y, y', s, s', a, hs, h => by
    simp only [renderHeader, Option.some.injEq, Prod.mk.injEq] at h
    exact ⟨[], a, .nil, h.2 ▸ .nil _, h.2 ▸ hs⟩
  | row :: rows, y, y', s, s', a, hs, h => by
    unfold renderHeader at h
    split at h
    · exact absurd h (by simp)
    · rename_i y1 s1 h1
      obtain ⟨ps, b, h2, h3, h4⟩ := renderRow_asks hc hw hs h1
      obtain ⟨qs, d, h5, h6, h7⟩ := renderHeader_asks hc hw rows _ _ _ _ _ h4 h
      exact ⟨ps ++ qs, d, .cons h2 h5, h3.append h6, h7⟩

/-- The authored cells of the table. -/
def stTab (t : Tab) : List (List (Styles × List Instr)) := t.rows.map fun r => stCells t r.cells

theorem renderRows_asks (hc : Decent c) (hw : ∀ w, (ctx.hyphenate w).flatten <:+: w) {rh : Int} {bottom x0 : ℚ} :
    ∀ (rows : List TRow) (i : Nat) (y y' : ℚ) (s s' : PState Fpdf) (a : At), Stands s a →
    renderRows (tableOps (Fpdf.engine p) ctx c t) t rh bottom x0 i rows y s = some (y', s') →
    ∃ ps b, RowsAsk (settingOf p ctx) ((stTab t).take rh.toNat) i (rows.map fun r => stCells t r.cells) a ps b ∧ Went p c s ps s' ∧ Stands s' b
  | [], i, y, y', s, s', a, hs, h => by
    simp only [renderRows, Option.some.injEq, Prod.mk.injEq] at h
    exact ⟨[], a, .nil, h.2 ▸ .nil _, h.2 ▸ hs⟩
  | row :: rows, i, y, y', s, s', a, hs, h => by
    unfold renderRows at h
    simp only at h
    split at h
    · exact absurd h (by simp)
    · rename_i y2 s2 hstart
      split at h
      · exact absurd h (by simp)
      · rename_i y3 s3 h3
        split at hstart
        · split at hstart
          · exact absurd hstart (by simp)
          · rename_i s1 h1
            simp only [tableOps, Option.map_eq_some_iff] at h1
            obtain ⟨⟨u, s1'⟩, h1, rfl⟩ := h1
            obtain ⟨a1, ha1⟩ := hc.add hs h1
            have head : ∃ hd a2, Turns (RowAsks (settingOf p ctx)) (if i = 0 then [] else (stTab t).take rh.toNat) a1 hd a2 ∧
                Went p c s1' hd s2 ∧ Stands s2 a2 := by
              split at hstart
              · rename_i hcnd
                rw [if_neg (by omega), stTab, ← List.map_take]
                exact renderHeader_asks hc hw _ _ _ _ _ _ ha1 hstart
              · rename_i hcnd
                simp only [Option.some.injEq, Prod.mk.injEq] at hstart
                refine ⟨[], a1, ?_, hstart.2 ▸ .nil _, hstart.2 ▸ ha1⟩
                split
                · exact .nil
                · rw [show rh.toNat = 0 by omega, List.take_zero]
                  exact .nil
            obtain ⟨hd, a2, g1, g2, g3⟩ := head
            obtain ⟨ps, b, hp1, hp2, hp3⟩ := renderRow_asks hc hw g3 h3
            obtain ⟨qs, d, hq1, hq2, hq3⟩ := renderRows_asks hc hw rows _ _ _ _ _ _ hp3 h
            exact ⟨_, d, .page g1 hp1 hq1, .page h1 hs ha1 ((g2.append hp2).append hq2), hq3⟩
        · simp only [Option.some.injEq, Prod.mk.injEq] at hstart
          obtain ⟨ps, b, hp1, hp2, hp3⟩ := renderRow_asks hc hw (hstart.2 ▸ hs) h3
          obtain ⟨qs, d, hq1, hq2, hq3⟩ := renderRows_asks hc hw rows _ _ _ _ _ _ hp3 h
          rw [← hstart.2] at hp2
          exact ⟨_, d, .same hp1 hq1, hp2.append hq2, hq3⟩

theorem renderLaid_asks (hc : Decent c) (hw : ∀ w, (ctx.hyphenate w).flatten <:+: w) {rh : Int} {bottom : ℚ} (hs : Stands s a)
    (h : renderLaid (tableOps (Fpdf.engine p) ctx c t) t rh bottom s = some s') :
    ∃ ps b, (RowsAsk (settingOf p ctx) ((stTab t).take rh.toNat) 0 (stTab t) a ps b ∨
      ∃ a2 qs, RowsAsk (settingOf p ctx) ((stTab t).take rh.toNat) 0 (stTab t) a2 qs b ∧ ps = .page a a2 :: qs) ∧
      Went p c s ps s' ∧ Stands s' b := by
  unfold renderLaid at h
  simp only at h
  split at h
  · exact absurd h (by simp)
  · rename_i y1 s1 hstart
    split at h
    · exact absurd h (by simp)
    · rename_i y2 s2 h2
      simp only [Option.some.injEq] at h
      have last : ∀ {ps s0 b}, Went p c s0 ps s2 → Stands s2 b → Went p c s0 ps s' ∧ Stands s' b := by
        intro ps s0 b h3 h4
        rw [← h]
        refine ⟨?_, ⟨h4.1, h4.2⟩⟩
        have := h3.append (.quiet (s1 := { s2 with eng := (Fpdf.engine p).setY y2 s2.eng }) ⟨rfl, rfl⟩ (.nil _))
        rwa [List.append_nil] at this
      split at hstart
      · split at hstart
        · exact absurd hstart (by simp)
        · rename_i s0 h1
          simp only [tableOps, Option.map_eq_some_iff] at h1
          obtain ⟨⟨u, s1'⟩, h1, rfl⟩ := h1
          obtain ⟨a1, ha1⟩ := hc.add hs h1
          simp only [Option.some.injEq, Prod.mk.injEq] at hstart
          obtain ⟨qs, b, h3, h4, h5⟩ := renderRows_asks hc hw _ _ _ _ _ _ _ (hstart.2 ▸ ha1) h2
          obtain ⟨h6, h7⟩ := last h4 h5
          exact ⟨_, b, .inr ⟨a1, qs, h3, rfl⟩, .page h1 hs ha1 (hstart.2 ▸ h6), h7⟩
      · simp only [Option.some.injEq, Prod.mk.injEq] at hstart
        obtain ⟨qs, b, h3, h4, h5⟩ := renderRows_asks hc hw _ _ _ _ _ _ _ (hstart.2 ▸ hs) h2
        obtain ⟨h6, h7⟩ := last h4 h5
        exact ⟨_, b, .inl h3, hstart.2 ▸ h6, h7⟩

end

/-! ### The cells of a table, and measuring them -/

theorem stylesAt_cell (cs : Classes) (rowSty : Styles) (n i : Nat) (st : Styled) :
    stylesAt cs (placeName b!"first-cell" b!"last-cell" i n) st rowSty = cellStyles cs rowSty n i st := by
  unfold placeName cellStyles
  split
  · rfl
  · split <;> rfl

theorem stylesAt_row (cs : Classes) (tabSty : Styles) (n i : Nat) (st : Styled) :
    stylesAt cs (placeName b!"first-row" b!"last-row" i n) st tabSty = rowStyles cs tabSty n i st := by
  unfold placeName rowStyles
  split
  · rfl
  · split <;> rfl

section
variable {σ : Type} {m : Measure σ} {cs : Classes} {page : Page} {curr : Styles} {st : Styled} {xrows : List TableRow} {s s' : σ} {t : Tab}

theorem stCells_eq (h : transformTable m cs page curr st xrows s = some (t, s')) {i : Nat} {xr : TableRow} (hi : xrows[i]? = some xr) :
    stCells t (idsOf t i) = xr.cells.mapIdx fun j c => (cellStyles cs (rowStyles cs (st.mutatedStyles cs curr) xrows.length i xr.st) xr.cells.length j c.st, c.iss) := by
  have hau := Verif.Props.C22_authored h i
  obtain ⟨H0, orig, cws, hl, hf, _⟩ := Verif.Props.table_laid_of h
  have hrow : (idsOf t i).filter (isAuthored t) = rowAt (makeTable cs (st.mutatedStyles cs curr) xrows) i := by
    rw [hf.row, ← hl.span.inv.auth i, idsOf_eq]
    exact List.filter_congr fun x hx => hl.span.inv.isAuthored_iff hx
  simp only [authoredIn, written, hi] at hau
  have hlen := congrArg List.length hau
  simp only [List.length_map] at hlen
  unfold stCells
  apply List.ext_getElem?
  intro j
  by_cases hj : j < xr.cells.length
  · have hj' : xr.cells[j]? = some xr.cells[j] := List.getElem?_eq_getElem hj
    obtain ⟨a, h1, h2⟩ := Verif.Props.makeTable_styles cs (st.mutatedStyles cs curr) xrows hi hj'
    have ha : a < H0.length := by
      rw [hf.row] at h1
      exact hf.lt (List.mem_of_getElem? h1)
    have hau := congrArg (fun l => l[j]?) hau
    simp only [List.getElem?_map, hrow, h1, hj', Option.map_some, Option.some.injEq, Prod.mk.injEq] at hau
    rw [List.getElem?_map, hrow, h1, List.getElem?_mapIdx, hj']
    simp only [Option.map_some, Option.some.injEq, Prod.mk.injEq]
    exact ⟨by rw [(hl.span.inv.authored a ha).1, ← hf.cell, h2], hau.1⟩
  · rw [List.getElem?_eq_none (by simp; omega), List.getElem?_eq_none (by simp; omega)]

theorem stTab_eq (h : transformTable m cs page curr st xrows s = some (t, s')) :
    stTab t = styledCells cs (st.mutatedStyles cs curr) xrows ++ List.replicate (t.rows.length - xrows.length) [] := by
  have hlen := Verif.Props.C22_rows h
  unfold stTab styledCells
  apply List.ext_getElem?
  intro r
  by_cases hr : r < t.rows.length
  · have h1 : t.rows[r]? = some t.rows[r] := List.getElem?_eq_getElem hr
    have h2 : idsOf t r = t.rows[r].cells := by simp only [idsOf, h1]
    rw [List.getElem?_map, h1, Option.map_some, ← h2]
    by_cases hx : r < xrows.length
    · rw [List.getElem?_append_left (by simpa using hx), List.getElem?_mapIdx, List.getElem?_eq_getElem hx, Option.map_some]
      rw [stCells_eq h (List.getElem?_eq_getElem hx)]
      simp only [stylesAt_cell, stylesAt_row]
    · rw [List.getElem?_append_right (by simpa using hx), List.getElem?_replicate, if_pos (by simp; omega)]
      have hau := congrArg List.length (Verif.Props.C22_authored h r)
      simp only [authoredIn, written, List.getElem?_eq_none (l := xrows) (by omega : xrows.length ≤ r), List.length_map, List.length_nil] at hau
      rw [Option.some.injEq]
      exact List.map_eq_nil_iff.mpr (List.length_eq_zero_iff.mp hau)
  · rw [List.getElem?_eq_none (by simpa using hr), List.getElem?_eq_none (by simp; omega)]

end

theorem stCells_shape {t t' : Tab} (h : Shape t t') (ids : List Nat) : stCells t' ids = stCells t ids := by
  have : ∀ x, isAuthored t' x = isAuthored t x ∧ (t'.cell x).styles = (t.cell x).styles ∧ (t'.cell x).iss = (t.cell x).iss := by
    intro x
    obtain ⟨h1, h2, -, -, h3, -, -, h4⟩ := (h.2.2.2.2 x).1
    exact ⟨by unfold isAuthored; rw [h3, h4], h1, h2⟩
  unfold stCells
  simp only [funext fun x => (this x).1, this]

theorem stTab_shape {t t' : Tab} (h : Shape t t') : stTab t' = stTab t := by
  unfold stTab
  apply List.ext_getElem?
  intro r
  have h1 := h.2.2.2.1 r
  by_cases hr : r < t.rows.length
  · have hr' : r < t'.rows.length := by rw [h.2.2.1]; exact hr
    simp only [rowAt, List.getElem?_eq_getElem hr, List.getElem?_eq_getElem hr', Option.getD_some] at h1
    rw [List.getElem?_map, List.getElem?_map, List.getElem?_eq_getElem hr, List.getElem?_eq_getElem hr', Option.map_some, Option.map_some, h1,
      stCells_shape h]
  · rw [List.getElem?_eq_none (by rw [List.length_map, h.2.2.1]; omega), List.getElem?_eq_none (by simpa using hr)]

/-- Measuring the cells one after the other. -/
def measureAll (p : Paper) (ctx : Ctx) (cells : List (Styles × List Instr)) (a : At) : At :=
  cells.foldl (fun a cell => boxMeasured (settingOf p ctx) cell.1 cell.2 a) a

theorem minHeightsRow_stands {H0 : List TCell} {orig : List (List Nat)} (r : Nat) : ∀ (ids : List Nat) (t : Tab) (s : PState Fpdf) (a : At), Inv H0 orig t →
    (∀ x ∈ ids, x ∈ rowAt t r) → Stands s a →
    Stands (minHeightsRow (textHeightFnc (Fpdf.engine p) ctx) ids t s).2 (measureAll p ctx (stCells t ids) a)
  | [], _, _, _, _, _, hp => hp
  | id :: ids, t, s, a, hi, hmem, hp => by
    have hb := hmem id (by simp)
    obtain ⟨p1, _, _⟩ := assignCellMinHeight_spec (textHeightFnc (Fpdf.engine p) ctx) hi hb s
    have rest := fun a' (h1 : Stands (assignCellMinHeight (textHeightFnc (Fpdf.engine p) ctx) id t s).2 a') =>
      minHeightsRow_stands r ids _ _ a' (hi.core p1.shape.1 (fun x => (p1.shape.2.2.2.2 x).1) p1.shape.2.2.2.1)
      (fun x hx => (p1.shape.2.2.2.1 r).symm ▸ hmem x (by simp [hx])) h1
    rw [stCells_shape p1.shape] at rest
    by_cases hc : (t.cell id).spannedBy.isSome = true ∨ (t.cell id).zero = true
    · have e : stCells t (id :: ids) = stCells t ids := by
        unfold stCells
        rw [List.filter_cons_of_neg (by simp [authored_false hc])]
      rw [e]
      refine rest a ?_
      unfold assignCellMinHeight
      simp only
      rw [if_pos hc]
      exact hp
    · have e : stCells t (id :: ids) = ((t.cell id).styles, (t.cell id).iss) :: stCells t ids := by
        unfold stCells
        rw [List.filter_cons_of_pos (authored_true hc), List.map_cons]
      rw [e]
      refine rest _ ?_
      unfold assignCellMinHeight boxMeasured
      simp only
      rw [if_neg hc]
      split
      · exact hp
      · exact (textHeightFnc_stands _ _ _ hp).1

theorem minHeights_stands {H0 : List TCell} {orig : List (List Nat)} : ∀ (rs : List TRow) (t : Tab) (s : PState Fpdf) (a : At), Inv H0 orig t →
    (∀ r ∈ rs, r ∈ t.rows) → Stands s a →
    Stands (minHeights (textHeightFnc (Fpdf.engine p) ctx) rs t s).2 (measureAll p ctx (rs.map fun r => stCells t r.cells).flatten a)
  | [], _, _, _, _, _, hp => hp
  | r :: rs, t, s, a, hi, hmem, hp => by
    obtain ⟨i, _, hrow⟩ := hi.cell_mem (hmem r (by simp))
    have h1 := minHeightsRow_stands (p := p) (ctx := ctx) i r.cells t s a hi (fun x hx => by rw [hrow]; exact hx) hp
    obtain ⟨p1, _, _⟩ := minHeightsRow_spec (textHeightFnc (Fpdf.engine p) ctx) i r.cells t s hi (fun x hx => by rw [hrow]; exact hx)
    have := minHeights_stands rs _ _ _ (hi.core p1.shape.1 (fun x => (p1.shape.2.2.2.2 x).1) p1.shape.2.2.2.1)
      (fun r' hr' => by rw [p1.2.1]; exact hmem r' (by simp [hr'])) h1
    rw [List.map_cons, List.flatten_cons]
    unfold measureAll at this ⊢
    rw [List.foldl_append]
    simp only [stCells_shape p1.shape] at this
    exact this

theorem transformTable_stands {page : Page} {curr : Styles} {st : Styled} {rows : List TableRow} {s s' : PState Fpdf} {t : Tab} {a : At}
    (h : transformTable (textHeightFnc (Fpdf.engine p) ctx) ctx.classes page curr st rows s = some (t, s')) (hs : Stands s a) :
    Stands s' (measureAll p ctx (styledCells ctx.classes (st.mutatedStyles ctx.classes curr) rows).flatten a) := by
  have heq := stTab_eq h
  have hf := (makeTable_fresh ctx.classes (st.mutatedStyles ctx.classes curr) rows).1
  obtain ⟨t1, h1, hs1⟩ := processSpans_spec hf
  obtain ⟨t2, cws, h2, sh12, _⟩ := assignColumnWidths_spec hs1 (page.effectiveWidth (st.mutatedStyles ctx.classes curr).dim.width)
  have hs2 := hs1.shape sh12
  obtain ⟨sh23, _⟩ := assignHeights_spec (textHeightFnc (Fpdf.engine p) ctx) hs2.inv s
  unfold transformTable at h
  simp only [h1, h2, Option.some.injEq] at h
  have e2 : s' = (minHeights (textHeightFnc (Fpdf.engine p) ctx) t2.rows t2 s).2 := (congrArg Prod.snd h).symm
  have e1 : t = (assignHeights (textHeightFnc (Fpdf.engine p) ctx) t2 s).1 := (congrArg Prod.fst h).symm
  rw [← e1] at sh23
  have e3 : (styledCells ctx.classes (st.mutatedStyles ctx.classes curr) rows).flatten = (stTab t2).flatten := by
    rw [← stTab_shape sh23, heq, List.flatten_append]
    simp
  rw [e2, e3]
  exact minHeights_stands _ _ _ _ hs2.inv (fun _ h => h) hs

theorem rowsAsk_empty (m : Surroundings) (head : List (List (Styles × List Instr))) (a : At) : ∀ (rows : List (List (Styles × List Instr))) (i : Nat),
    (∀ r ∈ rows, r = []) → RowsAsk m head i rows a [] a
  | [], _, _ => .nil
  | r :: rows, i, h => by
    have := RowsAsk.same (m := m) (head := head) (i := i) (row := r) (ps := []) (a := a) (b := a) (by rw [h r (by simp)]; exact .nil)
      (rowsAsk_empty m head a rows (i + 1) fun r' hr => h r' (by simp [hr]))
    exact this

theorem renderTable_asks (hc : Decent c) (hw : ∀ w, (ctx.hyphenate w).flatten <:+: w) (st : Styled) (rh : Int) (rows : List TableRow) :
    Asks p c Any (TableAsks (settingOf p ctx) st rh rows) (renderTable (Fpdf.engine p) ctx c st rh rows) := by
  unfold renderTable
  intro s a x s' hs _ hr
  obtain ⟨s0, s0', h0, hr⟩ := bind_some hr
  simp only [MonadState.get, getThe, MonadStateOf.get, StateT.get, Pure.pure, Option.some.injEq, Prod.mk.injEq] at h0
  obtain ⟨rfl, rfl⟩ := h0
  generalize ht : transformTable (textHeightFnc (Fpdf.engine p) ctx) ctx.classes (Page.mk ((Fpdf.engine p).printableArea s.eng)) s.curr st rows s = o at hr
  match o, ht, hr with
  | none, _, hr => exact absurd hr (by simp)
  | some (t, s1), ht, hr =>
    simp only at hr
    have hd : Hush s s1 := transformTable_inv (P := fun s' => Hush s s')
      (fun sty iss w s' hs' => hs'.trans (textHeightFnc_hush sty iss w s')) ht (.refl _)
    have hst := transformTable_stands ht hs
    have heq := stTab_eq ht
    rw [hs.1] at hst heq
    obtain ⟨u, s2, h2, h10⟩ := bind_some hr
    clear hr
    have h2 : s2 = s1 := by
      simp only [MonadStateOf.set, set, StateT.set, Pure.pure, Option.some.injEq, Prod.mk.injEq] at h2
      exact h2.2.symm
    subst h2
    by_cases hcol : t.columnCount = 0
    · rw [if_pos hcol] at h10
      obtain ⟨ps, b, ⟨rfl, rfl⟩, h3, h4, _⟩ := resetStyles_asks (p := p) (c := c) _ _ _ _ hst trivial h10
      refine ⟨[], _, ⟨t.rows.length - rows.length, .inl ?_⟩, .quiet hd h3, h4, trivial⟩
      show RowsAsk (settingOf p ctx) (List.take rh.toNat (styledCells ctx.classes (st.mutatedStyles ctx.classes a.styles) rows ++ _)) 0
        (styledCells ctx.classes (st.mutatedStyles ctx.classes a.styles) rows ++ _) _ _ _
      rw [← heq]
      refine rowsAsk_empty _ _ _ _ _ ?_
      intro r hrow
      obtain ⟨row, h4, rfl⟩ := List.mem_map.mp hrow
      have := (Verif.Props.C21_shape ht).1 row h4
      rw [hcol] at this
      simp [stCells, List.length_eq_zero_iff.mp this]
    · rw [if_neg hcol] at h10
      obtain ⟨pa, s3, h3, h10⟩ := bind_some h10
      simp only [Model.ask, Option.some.injEq, Prod.mk.injEq] at h3
      obtain ⟨-, rfl⟩ := h3
      obtain ⟨v, s4, h4, h10⟩ := bind_some h10
      simp only [Option.map_eq_some_iff, Prod.mk.injEq] at h4
      obtain ⟨s5, h5, -, rfl⟩ := h4
      obtain ⟨ps, b, h6, h7, h8⟩ := renderLaid_asks hc hw hst h5
      obtain ⟨rs, b', ⟨rfl, rfl⟩, h9, h11, _⟩ := resetStyles_asks (p := p) (c := c) _ _ _ _ h8 trivial h10
      refine ⟨ps, _, ⟨t.rows.length - rows.length, ?_⟩, ?_, h11, trivial⟩
      · rw [heq] at h6; exact h6
      · have := (Went.quiet hd h7).append h9
        simpa using this

/-! ### Instructions -/

theorem renderGridM_asks (rows : List (Styled × List Str)) : Still p c Any (renderGridM rows) := by
  unfold renderGridM
  split
  · intro s a x s' _ _ h; exact absurd h (by simp)
  · exact Asks.pure ()

theorem processInstr_asks (hc : Decent c) (hw : ∀ w, (ctx.hyphenate w).flatten <:+: w) (i : Instr) :
    Asks p c Any (InstrAsks (settingOf p ctx) i) (processInstr (Fpdf.engine p) ctx c i) := by
  cases i with
  | font st =>
    intro s a x s' hs _ h
    have h : some ((), changeFont (Fpdf.engine p) (st.mutatedStyles ctx.classes s.curr).font s) = some (x, s') := h
    simp only [Option.some.injEq, Prod.mk.injEq] at h
    refine ⟨[], _, ⟨rfl, rfl⟩, ?_, ?_, trivial⟩
    · rw [← h.2]
      exact .quiet (hush_font _ s) (.nil _)
    · rw [← h.2, hs.1]
      exact stands_changeFont hs _
  | lineFeed n => exact Asks.upd (shown_feed n) fun _ h => h
  | setX x => exact any_setX x
  | setY y => exact any_setY y
  | box st iss =>
    intro s a x s' hs h0 h
    obtain ⟨pa, s1, h1, h2⟩ := bind_some h
    simp only [Model.ask, Option.some.injEq, Prod.mk.injEq] at h1
    obtain ⟨rfl, rfl⟩ := h1
    exact renderTextBox_asks hc hw st iss _ _ _ _ _ hs h0 h2
  | text st iss => exact renderText_asks hc hw _ _
  | table st rh rows => exact renderTable_asks hc hw _ _ _
  | image st src => exact (Asks.ask _).after fun pa => renderImage_asks _ _ _
  | grid st rows parts => exact renderGridM_asks _
  | pageBreak => exact addPage_asks hc
  | _ => exact Asks.pure ()

theorem processInstrs_asks (hc : Decent c) (hw : ∀ w, (ctx.hyphenate w).flatten <:+: w) : ∀ iss : List Instr,
    Asks p c Any (PartAsks (settingOf p ctx) iss) (processInstrs (Fpdf.engine p) ctx c iss)
  | [] => (Asks.pure ()).mono (by rintro a ps b ⟨rfl, rfl⟩; exact .nil)
  | i :: is => (processInstr_asks hc hw i).bind (fun _ => processInstrs_asks hc hw is) fun a ps b qs d hp hq => .cons hp hq

/-! ### Pages -/

theorem Stands.unique {s : PState Fpdf} {a b : At} (h : Stands s a) (h' : Stands s b) : a = b := by
  have h1 : a.styles.font = b.styles.font := by rw [← h.1, ← h'.1]
  have h2 : a.page = b.page := by rw [← h.2, ← h'.2]
  cases a; cases b
  simp only [At.styles] at h1 h2
  rw [h1, h2]

/-- The document grew by these texts, images and pages. -/
def Grown (s s' : PState Fpdf) (ds : List Shown) : Prop := s.eng.page ≤ s'.eng.page ∧ shownOn s'.eng = shownOn s.eng ++ ds

/-- What holds of the calls with headers and footers nested up to depth `n`. -/
structure Draws (p : Paper) (ctx : Ctx) (n : Nat) : Prop where
  decent : Decent (callsAt (Fpdf.engine p) ctx n)
  shows : ∀ s ps s', 0 < s.eng.page → Went p (callsAt (Fpdf.engine p) ctx n) s ps s' →
    ∃ ds, Showing (settingOf p ctx) ctx.header ctx.footer s.eng.page ps ds s'.eng.page ∧ Grown s s' ds ∧ (s'.eng.page = s.eng.page → OnePage s.eng.page ps ds)

theorem callback_shows {n : Nat} (hw : ∀ w, (ctx.hyphenate w).flatten <:+: w) (hn : Draws p ctx n) {iss : List Instr} {s s' : PState Fpdf} {a : At}
    (h : callback (Fpdf.engine p) ctx (callsAt (Fpdf.engine p) ctx n) iss s = some ((), s')) (hp : 0 < s.eng.page) (hs : Stands s a)
    (hk : s'.eng.page = s.eng.page) : ∃ ds b, HeadOrFoot (settingOf p ctx) iss a ds b ∧ shownOn s'.eng = shownOn s.eng ++ ds ∧ Stands s' b := by
  unfold callback at h
  obtain ⟨xy, s1, h1, h⟩ := bind_some h
  obtain ⟨u, s2, h2, h⟩ := bind_some h
  obtain ⟨u', s3, h3, h⟩ := bind_some h
  obtain ⟨u4, s4, h4, h⟩ := bind_some h
  obtain ⟨u5, s5, h5, hl⟩ := bind_some h
  simp only [Model.ask, Option.some.injEq, Prod.mk.injEq] at h1
  obtain ⟨-, rfl⟩ := h1
  simp only [modify, modifyGet, MonadStateOf.modifyGet, StateT.modifyGet, Pure.pure, Option.some.injEq, Prod.mk.injEq, true_and] at h2
  simp only [upd, Option.some.injEq, Prod.mk.injEq] at h4 h5
  obtain ⟨ps, b, h6, h7, h8, -⟩ := processInstrs_asks hn.decent hw iss s2 a u' s3 (by rw [← h2]; exact hs) trivial h3
  obtain ⟨ds, -, ⟨-, h11⟩, h9⟩ := hn.shows _ _ _ (by rw [← h2]; exact hp) h7
  have e1 : s5.eng = s'.eng := by
    have h6 := congrArg (Option.map fun q : Unit × PState Fpdf => q.2.eng) hl
    exact Option.some.inj h6
  have e2 : s5.curr = s'.curr := by
    have h6 := congrArg (Option.map fun q : Unit × PState Fpdf => q.2.curr) hl
    exact Option.some.inj h6
  have e3 : s3.eng.page = s.eng.page := by
    rw [← hk, ← e1, ← h5.2, ← h4.2]; rfl
  have e4 : s2.eng.page = a.page := by rw [← h2]; exact hs.2
  rw [e4] at h9
  refine ⟨ds, b, ⟨ps, h6, h9 ?_, ?_⟩, ?_, ?_, ?_⟩
  · rw [e3]; exact hs.2
  · rw [← h8.2, e3, hs.2]
  · rw [← e1, ← h5.2, ← h4.2]
    rw [← h2] at h11
    exact h11
  · rw [← e2, ← h5.2, ← h4.2]; exact h8.1
  · rw [← e1, ← h5.2, ← h4.2]; exact h8.2

/-- A run of an operation of the library. -/
private abbrev runL {α : Type} (p : Paper) (ctx : Ctx) (n : Nat) (pr : Prog Fpdf α) : M Fpdf α :=
  runProg (callback (Fpdf.engine p) ctx (callsAt (Fpdf.engine p) ctx n) ctx.header) (callback (Fpdf.engine p) ctx (callsAt (Fpdf.engine p) ctx n) ctx.footer) pr

/-- A new page, then `k`. -/
theorem turn_shows {α : Type} {n : Nat} (hw : ∀ w, (ctx.hyphenate w).flatten <:+: w) (hn : Draws p ctx n) {f : Font} {col : RGB} {e : Fpdf}
    {k : Fpdf → Unit → Prog Fpdf α} {s : PState Fpdf} {a : At} {r : α × PState Fpdf} (h1 : s.curr = a.styles) (h2 : e.page = a.page)
    (h : runL p ctx n (Fpdf.andThen (Fpdf.turn p f col e) k) s = some r) :
    ∃ hd b e1 s1, HeadOrFoot (settingOf p ctx) ctx.header { a with page := a.page + 1 } hd b ∧ s1.curr = b.styles ∧
      e1.page = b.page ∧ e1.font = f ∧ e1.color = col ∧ shownOn e1 = shownOn e ++ .page :: hd ∧ runL p ctx n (k e1 ()) s1 = some r := by
  unfold runL Fpdf.turn Fpdf.andThen runProg at h
  split at h
  · exact absurd h (by simp)
  · rename_i s1 h3
    obtain ⟨hd, b, g1, g2, g3⟩ := callback_shows hw hn (a := { a with page := a.page + 1 }) h3 (by simp) ⟨h1, by simp [h2]⟩ (Props.header_page h3 rfl)
    refine ⟨hd, b, _, s1, g1, g3.1, ?_, ?_, ?_, ?_, h⟩
    · exact g3.2
    · rfl
    · rfl
    · refine Eq.trans g2 ?_
      simp [shownOn]

/-- Footer, new page and header, then `k`. -/
theorem addPage_shows {α : Type} {n : Nat} (hw : ∀ w, (ctx.hyphenate w).flatten <:+: w) (hn : Draws p ctx n) {e : Fpdf} (hp : 0 < e.page)
    {k : Fpdf → Unit → Prog Fpdf α} {s : PState Fpdf} {a : At} {r : α × PState Fpdf} (h1 : s.curr = a.styles) (h2 : e.page = a.page)
    (h : runL p ctx n (Fpdf.andThen (Fpdf.addPage p e) k) s = some r) :
    ∃ ns b e1 s1, NewPage (settingOf p ctx) ctx.header ctx.footer a ns b ∧ b.page = a.page + 1 ∧ s1.curr = b.styles ∧
      e1.page = b.page ∧ e1.font = e.font ∧ e1.color = e.color ∧ shownOn e1 = shownOn e ++ ns ∧ runL p ctx n (k e1 ()) s1 = some r := by
  unfold Fpdf.addPage at h
  rw [if_pos hp] at h
  unfold runL Fpdf.andThen runProg at h
  split at h
  · exact absurd h (by simp)
  · rename_i s1 h3
    obtain ⟨ft, b, g1, g2, g3⟩ := callback_shows hw hn (a := a) h3 hp ⟨h1, h2⟩ (Props.footer_page h3 rfl hp)
    obtain ⟨hd, b', e1, s2, k1, k3, k4, k5, k6, k7, k8⟩ := turn_shows hw hn (a := b) g3.1 g3.2 h
    have hb : b.page = a.page := g1.choose_spec.2.2
    rw [hb] at k1
    refine ⟨_, b', e1, s2, .mk g1 k1, k1.choose_spec.2.2, k3, k4, k5, k6, ?_, k8⟩
    have : shownOn s1.eng = shownOn e ++ ft := g2
    rw [k7, ← List.append_assoc, ← this]

/-- A text: on the current page or on a new one. -/
theorem writeText_shows {n : Nat} (hw : ∀ w, (ctx.hyphenate w).flatten <:+: w) (hn : Draws p ctx n) {t : Str} {s s1 : PState Fpdf} {a : At}
    (hp : 0 < s.eng.page) (hs : Stands s a) (h : (callsAt (Fpdf.engine p) ctx (n + 1)).writeText t s = some ((), s1)) :
    ∃ b, Stands s1 b ∧ s1.eng.color = s.eng.color ∧
      (b = a ∧ shownOn s1.eng = shownOn s.eng ++ [.text a.page s.eng.font s.eng.color t] ∨
        ∃ ns, NewPage (settingOf p ctx) ctx.header ctx.footer a ns b ∧ b.page = a.page + 1 ∧ shownOn s1.eng = shownOn s.eng ++ (ns ++ [.text b.page s.eng.font s.eng.color t])) := by
  change runL p ctx n (Fpdf.writeText p t s.eng) s = _ at h
  unfold Fpdf.writeText at h
  split at h
  · obtain ⟨ns, b, e1, s3, g1, g2, g3, g4, g5, g6, g7, g8⟩ := addPage_shows hw hn hp hs.1 hs.2 h
    simp only [runL, runProg, Option.some.injEq, Prod.mk.injEq, true_and] at g8
    refine ⟨b, ?_, ?_, .inr ⟨ns, g1, g2, ?_⟩⟩
    · rw [← g8]; exact ⟨g3, g4⟩
    · rw [← g8]; exact g6
    · have : shownOn s1.eng = shownOn e1 ++ [.text e1.page e1.font e1.color t] := by rw [← g8]; simp [shownOn, Fpdf.put]
      rw [this, g7, g4, g5, g6, List.append_assoc]
  · simp only [runL, runProg, Option.some.injEq, Prod.mk.injEq, true_and] at h
    refine ⟨a, ?_, ?_, .inl ⟨rfl, ?_⟩⟩
    · rw [← h]; exact ⟨hs.1, hs.2⟩
    · rw [← h]; rfl
    · rw [← h, ← hs.2]; simp [shownOn, Fpdf.put]

theorem newPage_shows {n : Nat} (hw : ∀ w, (ctx.hyphenate w).flatten <:+: w) (hn : Draws p ctx n) {s s1 : PState Fpdf} {a : At}
    (hp : 0 < s.eng.page) (hs : Stands s a) (h : (callsAt (Fpdf.engine p) ctx (n + 1)).addPage s = some ((), s1)) :
    ∃ b ns, Stands s1 b ∧ b.page = a.page + 1 ∧ NewPage (settingOf p ctx) ctx.header ctx.footer a ns b ∧ shownOn s1.eng = shownOn s.eng ++ ns := by
  change runL p ctx n (Fpdf.addPage p s.eng) s = _ at h
  rw [← andThen_done (Fpdf.addPage p s.eng)] at h
  obtain ⟨ns, b, e1, s3, g1, g2, g3, g4, g5, g6, g7, g8⟩ := addPage_shows hw hn hp hs.1 hs.2 h
  simp only [runL, runProg, Option.some.injEq, Prod.mk.injEq, true_and] at g8
  rw [← g8]
  exact ⟨b, ns, ⟨g3, g4⟩, g2, g1, g7⟩

/-- After a new page, the first one or another. -/
theorem addPage_after {α : Type} {n : Nat} (hw : ∀ w, (ctx.hyphenate w).flatten <:+: w) (hn : Draws p ctx n) {e : Fpdf}
    {k : Fpdf → Unit → Prog Fpdf α} {s : PState Fpdf} {a : At} {r : α × PState Fpdf} (h1 : s.curr = a.styles) (h2 : e.page = a.page)
    (h : runL p ctx n (Fpdf.andThen (Fpdf.addPage p e) k) s = some r) :
    ∃ (b : At) (e1 : Fpdf) (s1 : PState Fpdf), s1.curr = b.styles ∧ e1.page = b.page ∧ e1.color = e.color ∧ runL p ctx n (k e1 ()) s1 = some r := by
  by_cases hp : 0 < e.page
  · obtain ⟨ns, b, e1, s3, g1, g2, g3, g4, g5, g6, g7, g8⟩ := addPage_shows hw hn hp h1 h2 h
    exact ⟨b, e1, s3, g3, g4, g6, g8⟩
  · unfold Fpdf.addPage at h
    rw [if_neg hp] at h
    obtain ⟨hd, b', e1, s2, -, k3, k4, k5, k6, k7, k8⟩ := turn_shows hw hn h1 h2 h
    exact ⟨b', e1, s2, k3, k4, k6, k8⟩

theorem decent_succ {n : Nat} (hw : ∀ w, (ctx.hyphenate w).flatten <:+: w) (hn : Draws p ctx n) : Decent (callsAt (Fpdf.engine p) ctx (n + 1)) where
  write := by
    intro t s s1 a hs h
    change runL p ctx n (Fpdf.writeText p t s.eng) s = _ at h
    unfold Fpdf.writeText at h
    split at h
    · obtain ⟨b, e1, s3, g3, g4, g6, g8⟩ := addPage_after hw hn hs.1 hs.2 h
      simp only [runL, runProg, Option.some.injEq, Prod.mk.injEq, true_and] at g8
      rw [← g8]
      exact ⟨⟨b, g3, g4⟩, g6⟩
    · simp only [runL, runProg, Option.some.injEq, Prod.mk.injEq, true_and] at h
      rw [← h]
      exact ⟨⟨a, hs.1, hs.2⟩, rfl⟩
  add := by
    intro s s1 a hs h
    change runL p ctx n (Fpdf.addPage p s.eng) s = _ at h
    rw [← andThen_done (Fpdf.addPage p s.eng)] at h
    obtain ⟨b, e1, s3, g3, g4, g6, g8⟩ := addPage_after hw hn hs.1 hs.2 h
    simp only [runL, runProg, Option.some.injEq, Prod.mk.injEq, true_and] at g8
    rw [← g8]
    exact ⟨b, g3, g4⟩

theorem draws (hw : ∀ w, (ctx.hyphenate w).flatten <:+: w) (n : Nat) : Draws p ctx n := by
  induction n with
  | zero =>
    refine ⟨⟨fun _ h => absurd h (by simp [callsAt]), fun _ h => absurd h (by simp [callsAt])⟩, ?_⟩
    intro s ps s' hp h
    induction h with
    | nil s => exact ⟨[], .nil, ⟨le_refl _, by simp⟩, fun _ => .nil⟩
    | quiet h1 _ ih =>
      obtain ⟨ds, h2, ⟨h3, h4⟩, h5⟩ := ih (h1.1 ▸ hp)
      rw [h1.1] at h2 h3 h5
      exact ⟨ds, h2, ⟨h3, by rw [h4, h1.2]⟩, h5⟩
    | box sty r cmds h1 _ ih =>
      obtain ⟨ds, h2, ⟨h3, h4⟩, h5⟩ := ih ((drawAll_page cmds _).symm ▸ hp)
      rw [drawAll_page] at h2 h3 h5
      exact ⟨_, .box h1 h2, ⟨h3, by rw [h4, drawAll_shown, List.append_assoc]⟩, fun h => .box h1 (h5 h)⟩
    | image src x y w h _ ih =>
      obtain ⟨ds, h2, ⟨h3, h4⟩, h5⟩ := ih hp
      exact ⟨_, .image h2, ⟨h3, by rw [h4]; simp [shownOn, Fpdf.engine]⟩, fun h => .image (h5 h)⟩
    | text h1 => exact absurd h1 (by simp [callsAt])
    | page h1 => exact absurd h1 (by simp [callsAt])
  | succ n ihn =>
    refine ⟨decent_succ hw ihn, ?_⟩
    intro s ps s' hp h
    induction h with
    | nil s => exact ⟨[], .nil, ⟨le_refl _, by simp⟩, fun _ => .nil⟩
    | quiet h1 _ ih =>
      obtain ⟨ds, h2, ⟨h3, h4⟩, h5⟩ := ih (h1.1 ▸ hp)
      rw [h1.1] at h2 h3 h5
      exact ⟨ds, h2, ⟨h3, by rw [h4, h1.2]⟩, h5⟩
    | box sty r cmds h1 _ ih =>
      obtain ⟨ds, h2, ⟨h3, h4⟩, h5⟩ := ih ((drawAll_page cmds _).symm ▸ hp)
      rw [drawAll_page] at h2 h3 h5
      exact ⟨_, .box h1 h2, ⟨h3, by rw [h4, drawAll_shown, List.append_assoc]⟩, fun h => .box h1 (h5 h)⟩
    | image src x y w h _ ih =>
      obtain ⟨ds, h2, ⟨h3, h4⟩, h5⟩ := ih hp
      exact ⟨_, .image h2, ⟨h3, by rw [h4]; simp [shownOn, Fpdf.engine]⟩, fun h => .image (h5 h)⟩
    | @text s s1 s2 f col t a b ps h1 hf hcol hs hs1 _ ih =>
      obtain ⟨b', g1, g2, g4⟩ := writeText_shows hw ihn hp hs h1
      obtain rfl := g1.unique hs1
      rw [hf, hcol] at g4
      have e1 := hs.2
      have e2 := g1.2
      rcases g4 with ⟨rfl, g4⟩ | ⟨ns, g4, g6, g5⟩
      · obtain ⟨ds, h5, ⟨h6, h7⟩, h8⟩ := ih (by omega)
        have e3 : s1.eng.page = s.eng.page := by omega
        rw [e3] at h5 h6 h8
        exact ⟨_, .text e1.symm h5, ⟨h6, by rw [h7, g4, e1]; simp⟩, fun h => .text e1.symm (h8 h)⟩
      · obtain ⟨ds, h5, ⟨h6, h7⟩, -⟩ := ih (by omega)
        have e3 : s1.eng.page = s.eng.page + 1 := by omega
        rw [e3] at h5
        exact ⟨_, .turned e1.symm g4 h5, ⟨by omega, by rw [h7, g5, e1, g6]; simp⟩, fun h => absurd h (by omega)⟩
    | @page s s1 s2 a b ps h1 hs hs1 _ ih =>
      obtain ⟨b', ns, g1, g2, g3, g4⟩ := newPage_shows hw ihn hp hs h1
      obtain rfl := g1.unique hs1
      have e1 := hs.2
      have e2 := g1.2
      obtain ⟨ds, h5, ⟨h6, h7⟩, -⟩ := ih (by omega)
      have e3 : s1.eng.page = s.eng.page + 1 := by omega
      rw [e3] at h5
      exact ⟨_, .page e1.symm g3 h5, ⟨by omega, by rw [h7, g4]; simp⟩, fun h => absurd h (by omega)⟩

theorem process_shows (hw : ∀ w, (ctx.hyphenate w).flatten <:+: w) {n : Nat} {r : PdfResult} {s' : PState Fpdf}
    (h : process (Fpdf.engine p) ctx n (newProcessor (Fpdf.new p)) = some (r, s')) :
    ∃ hd a ds b ft, HeadOrFoot (settingOf p ctx) ctx.header ⟨defaultStyle.font, 1⟩ hd a ∧ Shows (settingOf p ctx) ctx.header ctx.footer ctx.body a ds b ∧
      ((∃ d, HeadOrFoot (settingOf p ctx) ctx.footer b ft d) ∨ r.failed = true ∧ ft = []) ∧
      shownOn s'.eng = .page :: (hd ++ ds ++ ft) ∧ s'.eng.page = b.page := by
  unfold process at h
  obtain ⟨u1, s1, h1, h⟩ := bind_some h
  obtain ⟨u2, s2, h2, h⟩ := bind_some h
  obtain ⟨u3, s3, h3, h⟩ := bind_some h
  obtain ⟨u4, s4, h4, h⟩ := bind_some h
  obtain ⟨u5, s5, h5, h⟩ := bind_some h
  obtain ⟨fl, s6, h6, h⟩ := bind_some h
  simp only [upd, Option.some.injEq, Prod.mk.injEq] at h1
  simp only [MonadState.get, getThe, MonadStateOf.get, StateT.get, Pure.pure, Option.some.injEq, Prod.mk.injEq] at h2
  simp only [changeFontM, changeFont, Option.some.injEq, Prod.mk.injEq] at h3
  simp only [Model.ask, Option.some.injEq, Prod.mk.injEq] at h6
  obtain ⟨-, rfl⟩ := h6
  have e3 : s3.eng.page = 0 ∧ shownOn s3.eng = [] ∧ s3.curr = At.styles ⟨defaultStyle.font, 0⟩ := by
    rw [← h3.2, ← h2.1, ← h2.2, ← h1.2]
    exact ⟨rfl, rfl, rfl⟩
  cases n with
  | zero => exact absurd h4 (by simp [callsAt])
  | succ n =>
    change runL p ctx n (Fpdf.addPage p s3.eng) s3 = _ at h4
    have h4' : runL p ctx n (Fpdf.andThen (Fpdf.turn p s3.eng.font s3.eng.color s3.eng) fun e a => .done e a) s3 = some (u4, s4) := by
      rw [andThen_done, ← h4]
      unfold Fpdf.addPage
      rw [if_neg (by omega)]
    obtain ⟨hd, b, e1, s7, g1, g3, k1, -, -, k2, g4⟩ := turn_shows hw (draws hw n) e3.2.2 e3.1 h4'
    simp only [runL, runProg, Option.some.injEq, Prod.mk.injEq] at g4
    rw [e3.2.1, List.nil_append] at k2
    have hs4 : Stands s4 b := by rw [← g4.2]; exact ⟨g3, k1⟩
    obtain ⟨ps, d, g5, g6, hs5, -⟩ := processInstrs_asks (draws hw (n + 1)).decent hw ctx.body _ _ _ _ hs4 trivial h5
    have hb1 : b.page = 1 := g1.choose_spec.2.2
    have hp4 : s4.eng.page = 1 := by rw [hs4.2, hb1]
    obtain ⟨ds, g7, ⟨g8, g9⟩, -⟩ := (draws hw (n + 1)).shows _ _ _ (by omega) g6
    rw [hs4.2, hs5.2] at g7
    have e4 : shownOn s4.eng = .page :: hd := by rw [← g4.2]; exact k2
    rw [e4] at g9
    split at h
    · simp only [Pure.pure, StateT.pure, Option.some.injEq, Prod.mk.injEq] at h
      refine ⟨hd, b, ds, d, [], g1, ⟨ps, g5, g7⟩, .inr ⟨by rw [← h.1], rfl⟩, ?_, ?_⟩
      · rw [← h.2, g9]
        simp
      · rw [← h.2]; exact hs5.2
    · change runL p ctx n (Fpdf.writePDF s5.eng) s5 = _ at h
      unfold runL Fpdf.writePDF runProg at h
      split at h
      · exact absurd h (by simp)
      · rename_i s8 h8
        have hk := Props.footer_page h8 rfl (by show 0 < s5.eng.page; omega)
        obtain ⟨ft, b', j1, j2, j3⟩ := callback_shows hw (draws hw n) (a := d) h8 (by show 0 < s5.eng.page; omega) ⟨hs5.1, hs5.2⟩ hk
        simp only [runProg, Option.some.injEq, Prod.mk.injEq] at h
        refine ⟨hd, b, ds, d, ft, g1, ⟨ps, g5, g7⟩, .inl ⟨b', j1⟩, ?_, ?_⟩
        · have : shownOn s8.eng = shownOn s5.eng ++ ft := j2
          rw [← h.2]
          show shownOn s8.eng = _
          rw [this, g9]
          simp
        · rw [← h.2]
          show s8.eng.page = _
          rw [hk]
          exact hs5.2

end Verif.Proofs
