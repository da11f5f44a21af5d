import Verif.Spec.Typeset
import Verif.Proofs.Filling
import Verif.Proofs.Fill
import Verif.Proofs.Sim
import Verif.Proofs.Laying
/-
Proofs about setting documents word by word (C116).
-/
namespace Verif.Proofs
open Verif.Go Verif.Model Verif.Spec Verif.Props

variable {p : Paper} {ctx : Ctx} {n : Nat} {m : Bool} {turn : Option (Typist → Typist)}

/-- The processor is where the typist is, with the same fonts, and has written the same; `m`: in header or footer. -/
structure Draft (m : Bool) (t : Typist) (s : PState Fpdf) : Prop where
  page : s.eng.page = t.page
  x : s.eng.x = t.x
  y : s.eng.y = t.y
  held : s.eng.font = t.held
  out : s.eng.out = t.out
  pos : 0 < s.eng.page
  inside : s.eng.inHeaderFooter = m
  prevent : s.prevent = m
  curr : s.curr = { defaultStyle with font := t.font }

theorem draft_eng {t t' : Typist} {s : PState Fpdf} {e : Fpdf} (h : Draft m t s) (hp : e.page = t'.page) (hx : e.x = t'.x) (hy : e.y = t'.y) (hf : e.font = t'.held)
    (ho : e.out = t'.out) (hq : 0 < e.page) (hi : e.inHeaderFooter = m) (hc : t.font = t'.font) : Draft m t' { s with eng := e } :=
  ⟨hp, hx, hy, hf, ho, hq, hi, h.prevent, by rw [← hc]; exact h.curr⟩

theorem draft_font {t : Typist} {s : PState Fpdf} {f : Font} (h : Draft m t s) : Draft m { t with font := f, held := f } (changeFont (Fpdf.engine p) f s) :=
  ⟨h.page, h.x, h.y, rfl, h.out, h.pos, h.inside, h.prevent, by simp only [changeFont, h.curr]⟩

/-- What a new page is for the typist: in header and footer there is none. -/
def Can (p : Paper) (ctx : Ctx) (n : Nat) : Bool → Option (Typist → Typist) → Prop
  | true, none => True
  | false, some f => ∀ t s a s', Draft false t s → (callsAt (Fpdf.engine p) ctx n).addPage s = some (a, s') →
    Draft false (f t) s' ∧ s'.eng.color = s.eng.color ∧ (f t).held = t.held
  | _, _ => False

section
variable (hc : Can p ctx n m turn)
include hc

theorem can_body {f : Typist → Typist} (h : turn = some f) : m = false ∧ ∀ t s a s', Draft m t s → (callsAt (Fpdf.engine p) ctx n).addPage s = some (a, s') →
    Draft m (f t) s' ∧ s'.eng.color = s.eng.color ∧ (f t).held = t.held := by
  subst h
  cases m with
  | true => exact hc.elim
  | false => exact ⟨rfl, hc⟩

theorem can_none (h : turn = none) : m = true := by
  subst h
  cases m with
  | true => rfl
  | false => exact hc.elim

theorem writeText_draft {t : Typist} {s s' : PState Fpdf} {a : Unit} {w : Str} {f : Font} (hs : Draft m { t with font := f, held := f } s)
    (hr : (callsAt (Fpdf.engine p) ctx n).writeText w s = some (a, s')) :
    Draft m (t.word p turn s.eng.color none (f, w)) s' ∧ s'.eng.color = s.eng.color := by
  cases n with
  | zero => exact absurd hr (by simp [callsAt])
  | succ n =>
    have hr' : runProg (callback (Fpdf.engine p) ctx (callsAt (Fpdf.engine p) ctx n) ctx.header)
        (callback (Fpdf.engine p) ctx (callsAt (Fpdf.engine p) ctx n) ctx.footer) (Fpdf.writeText p w s.eng) s = some (a, s') := hr
    unfold Fpdf.writeText at hr'
    have hfh : Fpdf.fontHeight s.eng = lineHeight f := by show lineHeight s.eng.font = _; rw [hs.held]
    have hput : ∀ {t : Typist} {s : PState Fpdf} {c : RGB}, Draft m t s → t.held = f → s.eng.color = c →
        Draft m { t with x := t.x + p.metric f w, out := t.out ++ [.text t.page t.x t.y f c w] } { s with eng := Fpdf.put p w s.eng } := by
      intro t s c hs hf hc
      refine draft_eng hs hs.page ?_ hs.y hs.held ?_ hs.pos hs.inside rfl
      · show s.eng.x + p.metric s.eng.font w = _
        rw [hs.x, hs.held, hf]
      · show s.eng.out ++ [.text s.eng.page s.eng.x s.eng.y s.eng.font s.eng.color w] = _
        rw [hs.out, hs.page, hs.x, hs.y, hs.held, hf, hc]
    unfold Typist.word Typist.turnIf
    cases hT : turn with
    | none =>
      have hm := can_none hc hT
      rw [if_neg (by rw [hs.inside, hm]; simp)] at hr'
      simp only [runProg, Option.some.injEq, Prod.mk.injEq] at hr'
      rw [← hr'.2]
      exact ⟨hput (t := { t with font := f, held := f }) hs rfl rfl, rfl⟩
    | some nx =>
      obtain ⟨hm, hnx⟩ := can_body hc hT
      by_cases hc : p.height - p.margins.bottom < t.y + lineHeight f
      · rw [if_pos ⟨by rw [hfh, hs.y]; exact hc, by rw [hs.inside, hm]; rfl⟩] at hr'
        rw [runProg_andThen (g := fun e => Fpdf.put p w { e with x := s.eng.x })] at hr'
        obtain ⟨q, hq, hr'⟩ := Option.map_eq_some_iff.mp hr'
        obtain ⟨h1, h2, h3⟩ := hnx _ s q.1 q.2 hs hq
        have k := hput (t := { nx { t with font := f, held := f } with x := t.x }) (s := { q.2 with eng := { q.2.eng with x := s.eng.x } }) (c := s.eng.color)
          (draft_eng h1 h1.page hs.x h1.y h1.held h1.out h1.pos h1.inside rfl) h3 h2
        simp only [Prod.mk.injEq] at hr'
        rw [← hr'.2]
        refine ⟨?_, h2⟩
        simp only [Option.map_some, Option.getD_some, if_pos hc]
        exact k
      · rw [if_neg (by rw [hfh, hs.y]; exact fun h => hc h.1)] at hr'
        simp only [runProg, Option.some.injEq, Prod.mk.injEq] at hr'
        rw [← hr'.2]
        simp only [Option.map_some, Option.getD_some, if_neg hc]
        exact ⟨hput (t := { t with font := f, held := f }) hs rfl rfl, rfl⟩

theorem writeItems_draft {c : RGB} : ∀ (items : List TextItem) (t : Typist) (s : PState Fpdf) (a : Unit) (s' : PState Fpdf), Draft m t s → s.eng.color = c →
    writeItems (Fpdf.engine p) (callsAt (Fpdf.engine p) ctx n) items s = some (a, s') →
    Draft m ((items.map fun i => (i.sty.font, i.text)).foldl (Typist.word p turn c none) t) s' ∧ s'.eng.color = c := by
  intro items
  induction items with
  | nil =>
    intro t s a s' hs hc hr
    simp only [writeItems, Pure.pure, StateT.pure, Option.some.injEq, Prod.mk.injEq] at hr
    rw [← hr.2]
    exact ⟨hs, hc⟩
  | cons i is ih =>
    intro t s a s' hs hcol hr
    simp only [writeItems] at hr
    obtain ⟨_, s1, g1, hr⟩ := bind_some hr
    obtain ⟨_, s2, g2, hr⟩ := bind_some hr
    simp only [changeFontM, Option.some.injEq, Prod.mk.injEq] at g1
    have k1 := draft_font (p := p) (f := i.sty.font) hs
    rw [g1.2] at k1
    obtain ⟨k2, c2⟩ := writeText_draft hc k1 g2
    have c1 : s1.eng.color = c := by rw [← g1.2]; exact hcol
    rw [c1] at k2 c2
    exact ih _ s2 a s' k2 c2 hr

theorem writeSpaced_draft {c : RGB} {gap : ℚ} : ∀ (items : List TextItem) (t : Typist) (s : PState Fpdf) (a : Unit) (s' : PState Fpdf), Draft m t s →
    s.eng.color = c → writeSpaced (Fpdf.engine p) (callsAt (Fpdf.engine p) ctx n) gap items s = some (a, s') →
    Draft m ((items.map fun i => (i.sty.font, trimSpace i.text)).foldl (Typist.word p turn c (some gap)) t) s' ∧ s'.eng.color = c := by
  intro items
  induction items with
  | nil =>
    intro t s a s' hs hc hr
    simp only [writeSpaced, Pure.pure, StateT.pure, Option.some.injEq, Prod.mk.injEq] at hr
    rw [← hr.2]
    exact ⟨hs, hc⟩
  | cons i is ih =>
    intro t s a s' hs hcol hr
    simp only [writeSpaced] at hr
    obtain ⟨_, s1, g1, hr⟩ := bind_some hr
    obtain ⟨_, s2, g2, hr⟩ := bind_some hr
    obtain ⟨xy, s3, g3, hr⟩ := bind_some hr
    obtain ⟨_, s4, g4, hr⟩ := bind_some hr
    simp only [changeFontM, ask, upd, Option.some.injEq, Prod.mk.injEq] at g1 g3 g4
    have k1 := draft_font (p := p) (f := i.sty.font) hs
    rw [g1.2] at k1
    obtain ⟨k2, c2⟩ := writeText_draft hc k1 g2
    have c1 : s1.eng.color = c := by rw [← g1.2]; exact hcol
    rw [c1] at k2 c2
    have e4 : s4 = { s2 with eng := Fpdf.setX p (s2.eng.x + gap) s2.eng } := by rw [← g4.2, ← g3.2, ← g3.1]; rfl
    refine ih _ s4 a s' ?_ ?_ hr
    · rw [e4]
      refine draft_eng k2 k2.page ?_ k2.y k2.held k2.out k2.pos k2.inside rfl
      show acrossAt p (s2.eng.x + gap) = _
      rw [k2.x]
      rfl
    · rw [e4]; exact c2

omit hc in
theorem feed_draft {t : Typist} {s : PState Fpdf} {d : ℚ} (hs : Draft m t s) : Draft m (t.feed p d) { s with eng := Fpdf.lineFeed p d s.eng } := by
  refine draft_eng hs hs.page rfl ?_ hs.held ?_ hs.pos hs.inside rfl
  · show s.eng.y + lineHeight s.eng.font * d = t.y + lineHeight t.held * d
    rw [hs.y, hs.held]
  · show s.eng.out ++ [.feed s.eng.page] = t.out ++ [.feed t.page]
    rw [hs.out, hs.page]

theorem writeLines_draft {sty : Styles} {x0 W : ℚ} (hb : sty.align.h ≠ b!"block") : ∀ (lines : List TextLine) (t : Typist) (s : PState Fpdf) (a : Unit) (s' : PState Fpdf),
    Draft m t s → s.eng.color = sty.color.text → writeLines (Fpdf.engine p) (callsAt (Fpdf.engine p) ctx n) sty x0 W lines s = some (a, s') →
    Draft m (lines.foldl (Typist.line p turn sty x0 W) t) s' := by
  intro lines
  induction lines with
  | nil =>
    intro t s a s' hs _ hr
    simp only [writeLines, Pure.pure, StateT.pure, Option.some.injEq, Prod.mk.injEq] at hr
    exact hr.2 ▸ hs
  | cons l ls ih =>
    intro t s a s' hs hcol hr
    simp only [writeLines] at hr
    obtain ⟨_, s1, g1, hr⟩ := bind_some hr
    obtain ⟨_, s2, g2, hr⟩ := bind_some hr
    obtain ⟨_, s3, g3, hr⟩ := bind_some hr
    have hns : ¬ Stretched sty l := fun h => hb h.1
    have k1 : Draft m { t with x := ((startSet sty x0 W l).map (acrossAt p)).getD t.x } s1 ∧ s1.eng.color = sty.color.text := by
      have go : ∀ x, Draft m { t with x := acrossAt p x } { s with eng := Fpdf.setX p x s.eng } := fun x => draft_eng hs hs.page rfl hs.y hs.held hs.out hs.pos hs.inside rfl
      unfold alignLine at g1
      unfold startSet indent
      by_cases h1 : sty.align.h = b!"left"
      · rw [if_pos h1] at g1
        simp only [upd, Option.some.injEq, Prod.mk.injEq] at g1
        rw [← g1.2]
        refine ⟨?_, hcol⟩
        rw [if_pos (.inl h1), if_neg (by rw [h1]; decide), if_neg (by rw [h1]; decide), add_zero]
        exact go x0
      · rw [if_neg h1] at g1
        by_cases h2 : sty.align.h = b!"center"
        · rw [if_pos h2] at g1
          simp only [upd, Option.some.injEq, Prod.mk.injEq] at g1
          rw [← g1.2]
          refine ⟨?_, hcol⟩
          rw [if_pos (.inr (.inl h2)), if_neg (by rw [h2]; decide), if_pos h2]
          exact go _
        · rw [if_neg h2] at g1
          by_cases h3 : sty.align.h = b!"right"
          · rw [if_pos h3] at g1
            simp only [upd, Option.some.injEq, Prod.mk.injEq] at g1
            rw [← g1.2]
            refine ⟨?_, hcol⟩
            rw [if_pos (.inr (.inr (.inl h3))), if_pos h3, ← add_sub_assoc]
            exact go _
          · rw [if_neg h3] at g1
            simp only [Pure.pure, StateT.pure, Option.some.injEq, Prod.mk.injEq] at g1
            rw [← g1.2, if_neg (by simp only [h1, h2, h3, hb, or_self, not_false_eq_true])]
            exact ⟨hs, hcol⟩
    obtain ⟨k2, c2⟩ := writeItems_draft hc l.items _ s1 _ s2 k1.1 k1.2 g2
    simp only [upd, Option.some.injEq, Prod.mk.injEq] at g3
    have k3 := feed_draft (p := p) (d := sty.dim.lineSpacing) k2
    have e3 : s3 = { s2 with eng := Fpdf.lineFeed p sty.dim.lineSpacing s2.eng } := by rw [← g3.2]; rfl
    rw [← e3] at k3
    have el : t.line p turn sty x0 W l = ((l.items.map fun i => (i.sty.font, i.text)).foldl (Typist.word p turn sty.color.text none)
        { t with x := ((startSet sty x0 W l).map (acrossAt p)).getD t.x }).feed p sty.dim.lineSpacing := by
      unfold Typist.line wordsSet gapSet
      simp only [if_neg hns]
    rw [List.foldl_cons, el]
    exact ih _ s3 a s' k3 (by rw [e3]; exact c2) hr

theorem writeHyphLines_draft {sty : Styles} {x0 W : ℚ} (hb : sty.align.h = b!"block") : ∀ (lines : List TextLine) (t : Typist) (s : PState Fpdf) (a : Unit) (s' : PState Fpdf),
    Draft m t s → s.eng.color = sty.color.text → writeHyphLines (Fpdf.engine p) (callsAt (Fpdf.engine p) ctx n) sty x0 W lines s = some (a, s') →
    Draft m (lines.foldl (Typist.line p turn sty x0 W) t) s' := by
  intro lines
  induction lines with
  | nil =>
    intro t s a s' hs _ hr
    simp only [writeHyphLines, Pure.pure, StateT.pure, Option.some.injEq, Prod.mk.injEq] at hr
    exact hr.2 ▸ hs
  | cons l ls ih =>
    intro t s a s' hs hcol hr
    simp only [writeHyphLines] at hr
    obtain ⟨_, s1, g1, hr⟩ := bind_some hr
    obtain ⟨_, s2, g2, hr⟩ := bind_some hr
    obtain ⟨_, s3, g3, hr⟩ := bind_some hr
    simp only [upd, Option.some.injEq, Prod.mk.injEq] at g1
    have es : startSet sty x0 W l = some x0 := by
      unfold startSet indent
      rw [if_pos (.inr (.inr (.inr hb))), if_neg (by rw [hb]; decide), if_neg (by rw [hb]; decide), add_zero]
    have k1 : Draft m { t with x := ((startSet sty x0 W l).map (acrossAt p)).getD t.x } s1 ∧ s1.eng.color = sty.color.text := by
      rw [← g1.2, es]
      exact ⟨draft_eng hs hs.page rfl hs.y hs.held hs.out hs.pos hs.inside rfl, hcol⟩
    have k2 : Draft m ((wordsSet sty l).foldl (Typist.word p turn sty.color.text (gapSet sty W l)) { t with x := ((startSet sty x0 W l).map (acrossAt p)).getD t.x }) s2 ∧
        s2.eng.color = sty.color.text := by
      unfold writeHyphLine at g2
      by_cases hst : Stretched sty l
      · have h2 := hst.2.1
        have h3 := hst.2.2
        rw [if_neg (by rintro (h | h); omega; rw [h3] at h; exact absurd h (by decide))] at g2
        have := writeSpaced_draft hc l.items _ s1 _ s2 k1.1 k1.2 g2
        unfold wordsSet gapSet
        simp only [if_pos hst]
        push_cast at this
        exact this
      · rw [if_pos (by
          by_contra hcon
          rw [not_or] at hcon
          exact hst ⟨hb, by omega, by simpa using hcon.2⟩)] at g2
        have := writeItems_draft hc l.items _ s1 _ s2 k1.1 k1.2 g2
        unfold wordsSet gapSet
        simp only [if_neg hst]
        exact this
    obtain ⟨k2, c2⟩ := k2
    simp only [upd, Option.some.injEq, Prod.mk.injEq] at g3
    have k3 := feed_draft (p := p) (d := sty.dim.lineSpacing) k2
    have e3 : s3 = { s2 with eng := Fpdf.lineFeed p sty.dim.lineSpacing s2.eng } := by rw [← g3.2]; rfl
    rw [← e3] at k3
    rw [List.foldl_cons]
    exact ih _ s3 a s' k3 (by rw [e3]; exact c2) hr

end

/-! ### Measuring -/

theorem linesLoop_eng {width : ℚ} {sty : Styles} {cs : Classes} : ∀ (iss : List Instr) (acc : List TextLine × TextLine) (s : PState Fpdf),
    (linesLoop (Fpdf.engine p) cs width sty iss acc s).2.eng.font = fontLeft s.eng.font (tokens cs s.eng.page sty iss) := by
  intro iss
  induction iss with
  | nil => intro acc s; rfl
  | cons is iss ih =>
    intro acc s
    have text : ∀ (isty : Styles) (t : Str),
        tokens cs s.eng.page sty (is :: iss) = (wordsOf s.eng.page t).map (fun w => some (isty, w)) ++ tokens cs s.eng.page sty iss →
        (∃ acc', linesLoop (Fpdf.engine p) cs width sty (is :: iss) acc s =
          (if norm (Fpdf.engine p) s.eng t = [] then linesLoop (Fpdf.engine p) cs width sty iss acc s
           else linesLoop (Fpdf.engine p) cs width sty iss acc' (changeFont (Fpdf.engine p) isty.font s))) →
        (linesLoop (Fpdf.engine p) cs width sty (is :: iss) acc s).2.eng.font = fontLeft s.eng.font (tokens cs s.eng.page sty (is :: iss)) := by
      rintro isty t htok ⟨acc', hloop⟩
      have hn : wordsOf s.eng.page t = (split 32 (norm (Fpdf.engine p) s.eng t)).filter (· ≠ []) := by
        rw [wordsOf, piecesOf, ← Verif.Props.C02_exact]; rfl
      rw [hloop, htok]
      show _ = fontOver _ _
      rw [filterMap_somes, fontOver_append]
      by_cases h0 : norm (Fpdf.engine p) s.eng t = []
      · rw [if_pos h0, hn, h0]
        exact ih acc s
      · rw [if_neg h0]
        have h1 := split_norm (s := tr (Fpdf.engine p) s.eng t) h0
        have h2 : wordsOf s.eng.page t ≠ [] := by
          rw [hn]
          exact fun h => split_ne_nil 32 (norm (Fpdf.engine p) s.eng t) (h1.symm.trans h)
        rw [fontOver_same _ _ h2]
        exact ih acc' (changeFont (Fpdf.engine p) isty.font s)
    cases is with
    | textBlock t => exact text sty t rfl ⟨_, rfl⟩
    | paragraph st t => exact text (st.mutatedStyles cs sty) t rfl ⟨_, rfl⟩
    | lineBreak => exact ih _ s
    | _ => exact ih acc s

theorem linesLoopHyph_eng {hyph : Str → List Str} {width : ℚ} {sty : Styles} {cs : Classes} : ∀ (iss : List Instr) (acc : List TextLine × TextLine) (s : PState Fpdf),
    (linesLoopHyph (Fpdf.engine p) hyph cs width sty iss acc s).2.eng.font = fontLeft s.eng.font (blockTokens cs s.eng.page sty iss) := by
  intro iss
  induction iss with
  | nil => intro acc s; rfl
  | cons is iss ih =>
    intro acc s
    have text : ∀ (isty : Styles) (t : Str),
        blockTokens cs s.eng.page sty (is :: iss) = (piecesOf s.eng.page t).map (fun w => some (isty, w)) ++ blockTokens cs s.eng.page sty iss →
        (∃ acc', linesLoopHyph (Fpdf.engine p) hyph cs width sty (is :: iss) acc s =
          linesLoopHyph (Fpdf.engine p) hyph cs width sty iss acc' (changeFont (Fpdf.engine p) isty.font s)) →
        (linesLoopHyph (Fpdf.engine p) hyph cs width sty (is :: iss) acc s).2.eng.font = fontLeft s.eng.font (blockTokens cs s.eng.page sty (is :: iss)) := by
      rintro isty t htok ⟨acc', hloop⟩
      rw [hloop, htok]
      show _ = fontOver _ _
      rw [filterMap_somes, fontOver_append, fontOver_same _ _ (ws := piecesOf s.eng.page t) (split_ne_nil _ _)]
      exact ih acc' (changeFont (Fpdf.engine p) isty.font s)
    cases is with
    | textBlock t => exact text sty t rfl ⟨_, rfl⟩
    | paragraph st t => exact text (st.mutatedStyles cs sty) t rfl ⟨_, rfl⟩
    | lineBreak => exact ih _ s
    | _ => exact ih acc s

/-- Two fonts of a state. -/
theorem draft_fonts {t : Typist} {s : PState Fpdf} {f g : Font} (h : ∃ f g, Draft m { t with font := f, held := g } s) (hf : s.curr.font = f) (hg : s.eng.font = g) :
    Draft m { t with font := f, held := g } s := by
  obtain ⟨f', g', k⟩ := h
  exact ⟨k.page, k.x, k.y, hg, k.out, k.pos, k.inside, k.prevent, by rw [← hf, k.curr]⟩

theorem draft_curr {t : Typist} {s : PState Fpdf} (h : Draft m t s) : s.curr.font = t.font := by rw [h.curr]

/-- What breaking a text into lines leaves behind. -/
theorem plainLines_draft {W : ℚ} {sty : Styles} {iss : List Instr} {t : Typist} {s : PState Fpdf} (hs : Draft m t s) :
    let r := textLines (Fpdf.engine p) ctx.classes iss W sty s
    let ws := tokens ctx.classes t.page sty iss
    r.1 = plainLines p ctx t.page W sty iss ∧ Draft m { t with font := fontLeft t.font ws, held := fontLeft t.held ws } r.2 ∧ r.2.eng.color = s.eng.color := by
  have hP := (textLines_both (p := p) (ctx := ctx) (K := fun _ => True) (P := fun u => (∃ f g, Draft m { t with font := f, held := g } u) ∧ u.eng.color = s.eng.color)
    (W := W) (sty := sty) (iss := iss) (fun y _ _ h => ⟨by obtain ⟨⟨f', g', h⟩, _⟩ := h; exact ⟨y.font, y.font, draft_font (t := { t with font := f', held := g' }) h⟩, h.2⟩) trivial (fun _ _ _ => trivial)
    ⟨⟨t.font, t.held, hs⟩, rfl⟩).2
  refine ⟨?_, draft_fonts hP.1 ?_ ?_, hP.2⟩
  · unfold plainLines
    rw [textLines_eq (measures_paper p), wrapped_fill, ← hs.page]
    rfl
  · rw [← hs.page, ← draft_curr hs]; exact linesLoop_leaves iss _ s
  · rw [← hs.page, ← hs.held]; exact linesLoop_eng iss _ s

theorem textLines_draft {W : ℚ} {sty : Styles} {iss : List Instr} {t : Typist} {s : PState Fpdf} (hb : sty.align.h ≠ b!"block") (hs : Draft m t s) :
    let r := textLines (Fpdf.engine p) ctx.classes iss W sty s
    let ws := wordsOn ctx t.page sty iss
    r.1 = setLines p ctx t.page W sty iss ∧ Draft m { t with font := fontLeft t.font ws, held := fontLeft t.held ws } r.2 ∧ r.2.eng.color = s.eng.color := by
  have hw : wordsOn ctx t.page sty iss = tokens ctx.classes t.page sty iss := by unfold wordsOn; rw [if_neg hb]
  have hl : setLines p ctx t.page W sty iss = plainLines p ctx t.page W sty iss := by unfold setLines; rw [if_neg hb]
  rw [hw, hl]
  exact plainLines_draft hs

theorem textLinesHyph_draft {W : ℚ} {sty : Styles} {iss : List Instr} {t : Typist} {s : PState Fpdf} (hb : sty.align.h = b!"block") (hs : Draft m t s) :
    let r := textLinesHyphenated (Fpdf.engine p) ctx.hyphenate ctx.classes iss W sty s
    let ws := wordsOn ctx t.page sty iss
    r.1 = setLines p ctx t.page W sty iss ∧ Draft m { t with font := fontLeft t.font ws, held := fontLeft t.held ws } r.2 ∧ r.2.eng.color = s.eng.color := by
  have hw : wordsOn ctx t.page sty iss = blockTokens ctx.classes s.eng.page sty iss := by unfold wordsOn; rw [if_pos hb, hs.page]
  have hP := (textLinesHyph_both (p := p) (ctx := ctx) (K := fun _ => True) (P := fun u => (∃ f g, Draft m { t with font := f, held := g } u) ∧ u.eng.color = s.eng.color)
    (W := W) (sty := sty) (iss := iss) (fun y _ _ h => ⟨by obtain ⟨⟨f', g', h⟩, _⟩ := h; exact ⟨y.font, y.font, draft_font (t := { t with font := f', held := g' }) h⟩, h.2⟩) trivial (fun _ _ _ => trivial)
    ⟨⟨t.font, t.held, hs⟩, rfl⟩).2
  refine ⟨?_, draft_fonts hP.1 ?_ ?_, hP.2⟩
  · unfold setLines
    simp only [if_pos hb]
    rw [textLinesHyph_eq (measures_paper p), wrappedHyph_fill, ← hs.page]
    rfl
  · rw [hw, ← draft_curr hs]; exact linesLoopHyph_leaves iss _ s
  · rw [hw, ← hs.held]; exact linesLoopHyph_eng iss _ s

/-! ### Texts, boxes -/

theorem draft_held {t : Typist} {s : PState Fpdf} {f : Font} (hs : Draft m t s) : Draft m { t with held := f } { s with eng := (Fpdf.engine p).changeFont f s.eng } :=
  draft_eng hs hs.page hs.x hs.y rfl hs.out hs.pos hs.inside rfl

theorem draft_color {t : Typist} {s : PState Fpdf} {c : RGB} (hs : Draft m t s) : Draft m t { s with eng := (Fpdf.engine p).setTextColor c s.eng } :=
  draft_eng hs hs.page hs.x hs.y hs.held hs.out hs.pos hs.inside rfl

section
variable (hc : Can p ctx n m turn)
include hc

theorem writeTextFnc_draft {sty : Styles} {iss : List Instr} {W : ℚ} {t : Typist} {s s' : PState Fpdf} {a : Unit} (hs : Draft m t s)
    (hr : writeTextFnc (Fpdf.engine p) ctx (callsAt (Fpdf.engine p) ctx n) iss W sty s = some (a, s')) : Draft m (t.text p ctx turn W sty iss) s' := by
  unfold writeTextFnc at hr
  unfold Typist.text
  by_cases hb : sty.align.h = b!"block"
  · rw [if_pos hb] at hr
    unfold writeTextHyphenated at hr
    obtain ⟨_, s1, g1, hr⟩ := bind_some hr
    obtain ⟨_, s2, g2, hr⟩ := bind_some hr
    obtain ⟨lines, s3, g3, hr⟩ := bind_some hr
    obtain ⟨xy, s4, g4, hr⟩ := bind_some hr
    simp only [upd, total, ask, Option.some.injEq, Prod.mk.injEq] at g1 g2 g3 g4
    have k2 : Draft m { t with held := sty.font } s2 ∧ s2.eng.color = sty.color.text := by
      rw [← g2.2, ← g1.2]
      exact ⟨draft_color (draft_held hs), rfl⟩
    obtain ⟨e1, k3, c3⟩ := textLinesHyph_draft (p := p) (ctx := ctx) (W := W) (iss := iss) hb k2.1
    rw [show textLinesHyphenated (Fpdf.engine p) ctx.hyphenate ctx.classes iss W sty s2 = (lines, s3) from g3] at e1 k3 c3
    have e4 : s3 = s4 := g4.2
    rw [← e4] at hr
    have ex : xy.1 = t.x := by rw [← g4.1]; exact k3.x
    rw [ex, show lines = _ from e1] at hr
    exact writeHyphLines_draft hc hb _ _ s3 a s' k3 (by rw [c3, k2.2]) hr
  · rw [if_neg hb] at hr
    unfold Model.writeText at hr
    obtain ⟨_, s1, g1, hr⟩ := bind_some hr
    obtain ⟨_, s2, g2, hr⟩ := bind_some hr
    obtain ⟨lines, s3, g3, hr⟩ := bind_some hr
    obtain ⟨xy, s4, g4, hr⟩ := bind_some hr
    simp only [upd, total, ask, Option.some.injEq, Prod.mk.injEq] at g1 g2 g3 g4
    have k2 : Draft m { t with held := sty.font } s2 ∧ s2.eng.color = sty.color.text := by
      rw [← g2.2, ← g1.2]
      exact ⟨draft_color (draft_held hs), rfl⟩
    obtain ⟨e1, k3, c3⟩ := textLines_draft (p := p) (ctx := ctx) (W := W) (iss := iss) hb k2.1
    rw [show textLines (Fpdf.engine p) ctx.classes iss W sty s2 = (lines, s3) from g3] at e1 k3 c3
    have e4 : s3 = s4 := g4.2
    rw [← e4] at hr
    have ex : xy.1 = t.x := by rw [← g4.1]; exact k3.x
    rw [ex, show lines = _ from e1] at hr
    exact writeLines_draft hc hb _ _ s3 a s' k3 (by rw [c3, k2.2]) hr

omit hc in
theorem reset_draft {t : Typist} {s s' : PState Fpdf} {a : Unit} (hs : Draft m t s) (hr : resetStyles (Fpdf.engine p) s = some (a, s')) : Draft m t.reset s' := by
  simp only [resetStyles, Option.some.injEq, Prod.mk.injEq] at hr
  rw [← hr.2]
  exact draft_eng hs hs.page hs.x hs.y (draft_curr hs) hs.out hs.pos hs.inside rfl

theorem renderText_draft {st : Styled} {iss : List Instr} {t : Typist} {s s' : PState Fpdf} {a : Unit} (hs : Draft m t s)
    (hr : renderText (Fpdf.engine p) ctx (callsAt (Fpdf.engine p) ctx n) st iss s = some (a, s')) : Draft m (t.step p ctx turn (.text st iss)) s' := by
  unfold renderText at hr
  simp only [Typist.step]
  by_cases h0 : iss = []
  · rw [if_pos (by simp [h0])] at hr
    simp only [Pure.pure, StateT.pure, Option.some.injEq, Prod.mk.injEq] at hr
    rw [if_pos h0]
    exact hr.2 ▸ hs
  · rw [if_neg (by simpa using h0)] at hr
    rw [if_neg h0]
    replace hr := get_bind hr
    obtain ⟨pa, s2, g2, hr⟩ := bind_some hr
    obtain ⟨_, s3, g3, hr⟩ := bind_some hr
    simp only [ask, Option.some.injEq, Prod.mk.injEq] at g2
    rw [← g2.1, ← g2.2, hs.curr] at g3
    rw [wideSet_eq]
    exact reset_draft (writeTextFnc_draft hc hs g3) hr

omit hc in
theorem tallSet_eq (n : Nat) (h sp : ℚ) : tallSet n h sp = linesHeight n h sp := by
  unfold tallSet linesHeight
  simp only
  ring

omit hc in
theorem boxSetAt_eq (v : Str) (a : Area) (h : ℚ) : boxSetAt v a.y0 h = boxTop v a h := by
  unfold boxSetAt boxTop
  split
  · ring
  · split <;> ring

omit hc in
theorem textSetAt_eq (v : Str) (a : Area) (h : ℚ) : textSetAt v a.y0 a.y1 h = textTop v a h := by
  unfold textSetAt textTop Area.height
  simp only
  split
  · ring
  · split <;> ring

/-- A row as it is laid out by the code. -/
def laidRow (tab : Tab) (r : TRow) : SetRow :=
  ⟨r.height, tab.maxCellHeight r, r.cells.map fun x => ((tab.cell x).width,
    if (tab.cell x).spannedBy.isSome ∨ (tab.cell x).zero then none else some ⟨(tab.cell x).styles, (tab.cell x).iss, (tab.dim x).1, (tab.dim x).2⟩)⟩

omit hc in
theorem laidRows_map (tab : Tab) : laidRows tab = tab.rows.map (laidRow tab) := rfl

omit hc in
theorem headSet_eq (tab : Tab) (rh : Int) : (((laidRows tab).take (rh + 1).toNat).map (·.reach)).sum = headHeight tab rh := by
  unfold headHeight
  rw [laidRows_map, ← List.map_take, List.map_map]
  generalize tab.rows.take (rh + 1).toNat = rows
  suffices ∀ x : ℚ, x + (rows.map ((·.reach) ∘ laidRow tab)).sum = rows.foldl (fun h r => h + tab.maxCellHeight r) x by simpa using this 0
  induction rows with
  | nil => simp
  | cons r rows ih => intro x; rw [List.foldl_cons, ← ih, List.map_cons, List.sum_cons, ← add_assoc]; rfl

omit hc in
/-- Measuring a text. -/
theorem textHeightFnc_draft {sty : Styles} {iss : List Instr} {W : ℚ} {t : Typist} {s : PState Fpdf} (hs : Draft m t s) :
    let r := textHeightFnc (Fpdf.engine p) ctx sty iss W s
    let q := Typist.measure p ctx sty iss W t
    q.1 = r.1 ∧ Draft m q.2 r.2 := by
  have k1 := draft_held (p := p) (f := sty.font) hs
  simp only [textHeightFnc]
  by_cases hb : sty.align.h = b!"block"
  · rw [if_pos hb]
    obtain ⟨e1, k2, _⟩ := textLinesHyph_draft (p := p) (ctx := ctx) (W := W) (iss := iss) hb k1
    simp only [textHeightHyphenated]
    refine ⟨?_, k2⟩
    rw [e1]
    show tallSet _ _ _ = linesHeight _ (lineHeight _) _
    rw [k2.held, tallSet_eq]
    rfl
  · rw [if_neg hb]
    obtain ⟨e1, k2, _⟩ := textLines_draft (p := p) (ctx := ctx) (W := W) (iss := iss) hb k1
    simp only [textHeight]
    refine ⟨?_, k2⟩
    rw [e1]
    show tallSet _ _ _ = linesHeight _ (lineHeight _) _
    rw [k2.held, tallSet_eq]
    rfl

omit hc in
theorem boxHeight_draft {sty : Styles} {iss : List Instr} {W height : ℚ} {t : Typist} {s s' : PState Fpdf} (hs : Draft m t s)
    (hr : boxHeight (Fpdf.engine p) ctx sty iss W s = some (height, s')) :
    height = (t.contents p ctx sty iss W).1 ∧ Draft m (t.contents p ctx sty iss W).2 s' := by
  unfold boxHeight at hr
  unfold Typist.contents
  by_cases h0 : sty.dim.height ≤ 0
  · rw [if_pos h0] at hr
    rw [if_neg (not_lt.mpr h0)]
    rcases iss with _ | ⟨i, iss⟩
    · rw [if_neg (by simp)] at hr
      simp only [ask, Option.some.injEq, Prod.mk.injEq] at hr
      rw [if_pos rfl, ← hr.1, ← hr.2]
      refine ⟨?_, hs⟩
      rw [← hs.held]
      rfl
    · rw [if_pos (by simp)] at hr
      rw [if_neg (by simp)]
      obtain ⟨g1, g2⟩ := textHeightFnc_draft (p := p) (ctx := ctx) (sty := sty) (iss := i :: iss) (W := W) hs
      simp only [total, Option.some.injEq] at hr
      rw [hr] at g1 g2
      exact ⟨g1.symm, g2⟩
  · rw [if_neg h0] at hr
    simp only [Pure.pure, StateT.pure, Option.some.injEq, Prod.mk.injEq] at hr
    rw [if_pos (not_le.mp h0), ← hr.1, ← hr.2]
    exact ⟨rfl, hs⟩

theorem boxStart_draft {height : ℚ} {xy : ℚ × ℚ} {t : Typist} {s s' : PState Fpdf} (hk : Draft m t s)
    (hr : boxStart (Fpdf.engine p) (callsAt (Fpdf.engine p) ctx n) height s = some (xy, s')) :
    let t' := t.turnIf turn (p.height - p.margins.bottom ≤ t.y + height)
    Draft m t' s' ∧ xy = (t'.x, t'.y) := by
  unfold boxStart at hr
  replace hr := get_bind hr
  have ey : ((Fpdf.engine p).getXY s.eng) = (t.x, t.y) := Prod.ext hk.x hk.y
  have stay : some (((Fpdf.engine p).getXY s.eng), s) = some (xy, s') → Draft m t s' ∧ xy = (t.x, t.y) := by
    intro h
    simp only [Option.some.injEq, Prod.mk.injEq] at h
    rw [← h.2, ← h.1]
    exact ⟨hk, ey⟩
  unfold Typist.turnIf
  cases hT : turn with
  | none =>
    simp only [if_neg (show ¬ ((!s.prevent) = true ∧ ((Fpdf.engine p).getXY s.eng).2 + height ≥ (Fpdf.engine p).pageHeight s.eng - ((Fpdf.engine p).margins s.eng).bottom) from by
      rw [hk.prevent, can_none hc hT]; simp)] at hr
    exact stay hr
  | some nx =>
    obtain ⟨hm, hnx⟩ := can_body hc hT
    have ec : ((!s.prevent) = true ∧ ((Fpdf.engine p).getXY s.eng).2 + height ≥ (Fpdf.engine p).pageHeight s.eng - ((Fpdf.engine p).margins s.eng).bottom) ↔
        p.height - p.margins.bottom ≤ t.y + height := by
      rw [hk.prevent, hm, ey]
      exact ⟨fun h => h.2, fun h => ⟨rfl, h⟩⟩
    by_cases h : p.height - p.margins.bottom ≤ t.y + height
    · simp only [if_pos (ec.mpr h)] at hr
      simp only [Option.map_some, Option.getD_some, if_pos h]
      obtain ⟨_, s1, g1, hr⟩ := bind_some hr
      have k1 := (hnx _ _ _ _ hk g1).1
      simp only [ask, Option.some.injEq, Prod.mk.injEq] at hr
      rw [← hr.2, ← hr.1]
      exact ⟨k1, Prod.ext k1.x k1.y⟩
    · simp only [if_neg (fun h' => h (ec.mp h'))] at hr
      simp only [Option.map_some, Option.getD_some, if_neg h]
      exact stay hr

omit hc in
/-- Drawing. -/
theorem drawAll_out (cmds : List DrawCmd) (e : Fpdf) : let e' := cmds.foldl (fun e c => Fpdf.draw c e) e
    e'.out = e.out ++ cmds.map (.draw e.page) ∧ e'.page = e.page ∧ e'.inHeaderFooter = e.inHeaderFooter ∧ e'.font = e.font := by
  induction cmds generalizing e with
  | nil => simp
  | cons c cmds ih =>
    obtain ⟨h1, h2, h3, h4⟩ := ih (Fpdf.draw c e)
    have k : (Fpdf.draw c e).out = e.out ++ [.draw e.page c] ∧ (Fpdf.draw c e).page = e.page ∧ (Fpdf.draw c e).inHeaderFooter = e.inHeaderFooter ∧
        (Fpdf.draw c e).font = e.font := by
      cases c <;> exact ⟨rfl, rfl, rfl, rfl⟩
    rw [k.1, k.2.1] at h1
    rw [k.2.1] at h2
    rw [k.2.2.1] at h3
    rw [k.2.2.2] at h4
    refine ⟨?_, h2, h3, h4⟩
    rw [List.foldl_cons, h1]
    simp

omit hc in
/-- The frame of a box. -/
theorem drawBox_draft {x0 y0 x1 y1 : ℚ} {sty : Styles} {t : Typist} {s : PState Fpdf} (hs : Draft m t s) :
    Draft m (t.frame x0 y0 x1 y1 sty) { s with eng := (drawBox x0 y0 x1 y1 sty).foldl (fun e c => Fpdf.draw c e) s.eng } := by
  obtain ⟨d1, d2, d3, d4⟩ := drawAll_out (drawBox x0 y0 x1 y1 sty) s.eng
  refine draft_eng hs (d2.trans hs.page) ?_ ?_ (d4.trans hs.held) ?_ (lt_of_lt_of_eq hs.pos d2.symm) (d3.trans hs.inside) rfl
  · simp only [drawBox, List.foldl_cons, List.foldl_nil, edge]
    split <;> rfl
  · simp only [drawBox, List.foldl_cons, List.foldl_nil, edge]
    split <;> rfl
  · refine d1.trans ?_
    rw [hs.out, hs.page]
    rfl

omit hc in
theorem goY_draft {y : ℚ} {t : Typist} {s : PState Fpdf} (hs : Draft m t s) : Draft m (t.goY p y) { s with eng := Fpdf.setY p y s.eng } := by
  refine draft_eng hs hs.page ?_ rfl hs.held hs.out hs.pos hs.inside rfl
  show acrossAt p s.eng.x = acrossAt p t.x
  rw [hs.x]

theorem renderTextBox_draft {pa : Area} {st : Styled} {iss : List Instr} {t : Typist} {s s' : PState Fpdf} {a : Unit} (hk : Draft m t s)
    (hr : renderTextBox (Fpdf.engine p) ctx (callsAt (Fpdf.engine p) ctx n) st iss pa s = some (a, s')) : Draft m (t.box p ctx turn pa st iss) s' := by
  unfold renderTextBox at hr
  replace hr := get_bind hr
  rw [hk.curr] at hr
  unfold Typist.box Typist.styles
  simp only
  generalize st.mutatedStyles ctx.classes { defaultStyle with font := t.font } = sty at *
  have ew : boxWidth sty pa = Typist.inside pa sty := by
    unfold Typist.inside
    rw [wideSet_eq]
    rfl
  simp only [ew] at hr
  clear ew
  generalize Typist.inside pa sty = W at *
  obtain ⟨height, s1, g1, hr⟩ := bind_some hr
  obtain ⟨xy, s2, g2, hr⟩ := bind_some hr
  obtain ⟨_, s3, g3, hr⟩ := bind_some hr
  obtain ⟨_, s4, g4, hr⟩ := bind_some hr
  obtain ⟨_, s5, g5, hr⟩ := bind_some hr
  have hr : ((if iss.length > 0 then writeTextFnc (Fpdf.engine p) ctx (callsAt (Fpdf.engine p) ctx n) iss W sty else pure ()) >>= fun _ =>
      upd ((Fpdf.engine p).setY (xy.2 + sty.dim.offsetY + height + sty.box.padding.top + sty.box.padding.bottom)) >>= fun _ =>
      resetStyles (Fpdf.engine p)) s5 = some (a, s') := by
    rw [← hr]
    split <;> rfl
  obtain ⟨_, s6, g6, hr⟩ := bind_some hr
  obtain ⟨_, s7, g7, hr⟩ := bind_some hr
  obtain ⟨eh, k1⟩ := boxHeight_draft hk g1
  simp only [← eh]
  generalize (t.contents p ctx sty iss W).2 = t1 at *
  obtain ⟨k2, exy⟩ := boxStart_draft hc k1 g2
  generalize t1.turnIf turn (p.height - p.margins.bottom ≤ t1.y + height) = t2 at *
  rw [exy] at g3 g4 g5 g7
  simp only [drawBoxM, upd, Option.some.injEq, Prod.mk.injEq] at g3 g4 g5 g7
  have k5 : Draft m { (t2.frame (t2.x + sty.dim.offsetX) (t2.y + sty.dim.offsetY) (t2.x + sty.dim.offsetX + W + sty.box.padding.left + sty.box.padding.right)
      (t2.y + sty.dim.offsetY + height + sty.box.padding.top + sty.box.padding.bottom) sty) with x := acrossAt p (t2.x + sty.dim.offsetX + sty.box.padding.left), y := heightAt p (t2.y + sty.dim.offsetY + sty.box.padding.top) } s5 := by
    rw [← g5.2, ← g4.2, ← g3.2]
    have k := drawBox_draft (x0 := t2.x + sty.dim.offsetX) (y0 := t2.y + sty.dim.offsetY) (x1 := t2.x + sty.dim.offsetX + W + sty.box.padding.left + sty.box.padding.right)
      (y1 := t2.y + sty.dim.offsetY + height + sty.box.padding.top + sty.box.padding.bottom) (sty := sty) k2
    exact ⟨k.page, rfl, rfl, k.held, k.out, k.pos, k.inside, k.prevent, k.curr⟩
  generalize ({ (t2.frame (t2.x + sty.dim.offsetX) (t2.y + sty.dim.offsetY) (t2.x + sty.dim.offsetX + W + sty.box.padding.left + sty.box.padding.right)
      (t2.y + sty.dim.offsetY + height + sty.box.padding.top + sty.box.padding.bottom) sty) with x := acrossAt p (t2.x + sty.dim.offsetX + sty.box.padding.left), y := heightAt p (t2.y + sty.dim.offsetY + sty.box.padding.top) } : Typist) = u at *
  have k6 : Draft m (if iss = [] then u else u.text p ctx turn W sty iss) s6 := by
    by_cases h0 : iss = []
    · rw [if_neg (by simp [h0])] at g6
      simp only [Pure.pure, StateT.pure, Option.some.injEq, Prod.mk.injEq] at g6
      rw [if_pos h0, ← g6.2]
      exact k5
    · rw [if_pos (List.length_pos_iff.mpr h0)] at g6
      rw [if_neg h0]
      exact writeTextFnc_draft hc k5 g6
  generalize (if iss = [] then u else u.text p ctx turn W sty iss) = v at *
  refine reset_draft (s := s7) ?_ hr
  rw [← g7.2]
  exact goY_draft k6

omit hc in
theorem renderImage_draft {pa : Area} {st : Styled} {src : Str} {t : Typist} {s s' : PState Fpdf} {a : Unit} (hs : Draft m t s)
    (hr : renderImage (Fpdf.engine p) ctx st src pa s = some (a, s')) : Draft m (t.image ctx pa st src) s' := by
  unfold renderImage at hr
  unfold Typist.image Typist.styles
  cases hd : ctx.describe (ctx.resolve src) with
  | none =>
    simp only [hd, Pure.pure, StateT.pure, Option.some.injEq, Prod.mk.injEq] at hr ⊢
    exact hr.2 ▸ hs
  | some d =>
    simp only [hd, Option.some.injEq, Prod.mk.injEq] at hr ⊢
    rw [← hr.2]
    refine draft_eng hs hs.page hs.x hs.y hs.held ?_ hs.pos hs.inside rfl
    show s.eng.out ++ [Mark.image s.eng.page (ctx.resolve src) (placeImage d (st.mutatedStyles ctx.classes s.curr) s.eng.x s.eng.y pa).x
      (placeImage d (st.mutatedStyles ctx.classes s.curr) s.eng.x s.eng.y pa).y (placeImage d (st.mutatedStyles ctx.classes s.curr) s.eng.x s.eng.y pa).width
      (placeImage d (st.mutatedStyles ctx.classes s.curr) s.eng.x s.eng.y pa).height] = _
    rw [hs.out, hs.page, hs.curr, hs.x, hs.y]

/-! ### Tables -/

theorem renderCellItems_draft {v : Str} {inner : Area} : ∀ (iss : List Instr) (t : Typist) (s : PState Fpdf) (a : Unit) (s' : PState Fpdf), Draft m t s →
    renderCellItems (Fpdf.engine p) ctx (callsAt (Fpdf.engine p) ctx n) v inner iss s = some (a, s') → Draft m (t.items p ctx turn v inner iss) s' := by
  intro iss
  induction iss with
  | nil =>
    intro t s a s' hs hr
    simp only [renderCellItems, Pure.pure, StateT.pure, Option.some.injEq, Prod.mk.injEq] at hr
    exact hr.2 ▸ hs
  | cons i is ih =>
    intro t s a s' hs hr
    cases i with
    | box st iss =>
      simp only [renderCellItems] at hr
      obtain ⟨height, s1, g1, hr⟩ := bind_some hr
      obtain ⟨_, s2, g2, hr⟩ := bind_some hr
      obtain ⟨_, s3, g3, hr⟩ := bind_some hr
      unfold textBoxHeight at g1
      replace g1 := get_bind g1
      obtain ⟨h0, s4, g4, g1⟩ := bind_some g1
      obtain ⟨_, s5, g5, g1⟩ := bind_some g1
      simp only [Pure.pure, StateT.pure, Option.some.injEq, Prod.mk.injEq] at g1
      rw [g1.1, hs.curr] at g4
      obtain ⟨eh, k4⟩ := boxHeight_draft hs g4
      have k5 := reset_draft k4 g5
      rw [g1.2] at k5
      simp only [upd, Option.some.injEq, Prod.mk.injEq] at g2
      simp only [Typist.items]
      have k2 : Draft m ((t.contents p ctx (t.styles ctx st) iss (Typist.inside inner (t.styles ctx st))).2.reset.goY p
          (boxSetAt v inner.y0 (t.contents p ctx (t.styles ctx st) iss (Typist.inside inner (t.styles ctx st))).1)) s2 := by
        rw [boxSetAt_eq, ← g2.2, eh]
        have ew : boxWidth (t.styles ctx st) inner = Typist.inside inner (t.styles ctx st) := by
          unfold Typist.inside
          rw [wideSet_eq]
          rfl
        rw [← ew]
        exact goY_draft k5
      exact ih _ s3 a s' (renderTextBox_draft hc k2 g3) hr
    | image st src =>
      simp only [renderCellItems] at hr
      obtain ⟨_, s2, g2, hr⟩ := bind_some hr
      obtain ⟨_, s3, g3, hr⟩ := bind_some hr
      simp only [upd, Option.some.injEq, Prod.mk.injEq] at g2
      have k2 : Draft m (t.goY p inner.y0) s2 := by rw [← g2.2]; exact goY_draft hs
      simp only [Typist.items]
      exact ih _ s3 a s' (renderImage_draft k2 g3) hr
    | _ => exact ih t s a s' hs hr

theorem renderCell_draft {pa : Area} {sty : Styles} {iss : List Instr} {t : Typist} {s s' : PState Fpdf} {a : Unit} (hs : Draft m t s)
    (hr : renderCell (Fpdf.engine p) ctx (callsAt (Fpdf.engine p) ctx n) pa sty iss s = some (a, s')) : Draft m (t.cell p ctx turn pa sty iss) s' := by
  unfold renderCell at hr
  obtain ⟨_, s1, g1, hr⟩ := bind_some hr
  have hr : ((if iss.length > 0 then renderCellText (Fpdf.engine p) ctx (callsAt (Fpdf.engine p) ctx n) pa sty iss else pure ()) >>= fun _ =>
      upd ((Fpdf.engine p).setX (pa.withPadding sty.box.padding).x0) >>= fun _ =>
      renderCellItems (Fpdf.engine p) ctx (callsAt (Fpdf.engine p) ctx n) sty.align.v (pa.withPadding sty.box.padding) iss) s1 = some (a, s') := by
    rw [← hr]
    split <;> rfl
  obtain ⟨_, s2, g2, hr⟩ := bind_some hr
  obtain ⟨_, s3, g3, hr⟩ := bind_some hr
  simp only [drawBoxM, upd, Option.some.injEq, Prod.mk.injEq] at g1 g3
  have k1 : Draft m (t.frame pa.x0 pa.y0 pa.x1 pa.y1 sty) s1 := by rw [← g1.2]; exact drawBox_draft hs
  unfold Typist.cell
  simp only
  generalize t.frame pa.x0 pa.y0 pa.x1 pa.y1 sty = t1 at *
  by_cases h0 : iss = []
  · rw [if_neg (by simp [h0])] at g2
    simp only [Pure.pure, StateT.pure, Option.some.injEq, Prod.mk.injEq] at g2
    rw [h0] at hr
    simp only [renderCellItems, Pure.pure, StateT.pure, Option.some.injEq, Prod.mk.injEq] at hr
    rw [if_pos h0, ← hr.2, ← g3.2, ← g2.2]
    exact draft_eng k1 k1.page rfl k1.y k1.held k1.out k1.pos k1.inside rfl
  · rw [if_pos (List.length_pos_iff.mpr h0)] at g2
    rw [if_neg h0]
    unfold renderCellText at g2
    obtain ⟨h, s4, g4, g2⟩ := bind_some g2
    obtain ⟨_, s5, g5, g2⟩ := bind_some g2
    obtain ⟨_, s6, g6, g2⟩ := bind_some g2
    simp only [total, upd, Option.some.injEq, Prod.mk.injEq, textHeight] at g4 g5 g6
    obtain ⟨e1, k4, _⟩ := plainLines_draft (p := p) (ctx := ctx) (W := (pa.withPadding sty.box.padding).width) (sty := sty) (iss := iss) (draft_held (p := p) (f := sty.font) k1)
    rw [e1] at g4
    have eh : linesHeight (plainLines p ctx t1.page (pa.withPadding sty.box.padding).width sty iss).length (lineHeight (fontLeft sty.font (tokens ctx.classes t1.page sty iss)))
        sty.dim.lineSpacing = h := by
      rw [← g4.1]
      show _ = linesHeight _ (lineHeight _) _
      rw [k4.held]
    rw [g4.2] at k4
    have k6 : Draft m { t1.look sty (tokens ctx.classes t1.page sty iss) with x := acrossAt p (pa.withPadding sty.box.padding).x0, y := heightAt p (textTop sty.align.v (pa.withPadding sty.box.padding) h) } s6 := by
      rw [← g6.2, ← g5.2]
      exact ⟨k4.page, rfl, rfl, k4.held, k4.out, k4.pos, k4.inside, k4.prevent, k4.curr⟩
    have k2 := writeTextFnc_draft hc k6 g2
    refine renderCellItems_draft hc iss _ s3 a s' ?_ hr
    rw [← g3.2]
    have e2 : tallSet (plainLines p ctx (t1.look sty (tokens ctx.classes t1.page sty iss)).page (pa.x1 - sty.box.padding.right - (pa.x0 + sty.box.padding.left)) sty iss).length
        (lineHeight (t1.look sty (tokens ctx.classes t1.page sty iss)).held) sty.dim.lineSpacing = h := (tallSet_eq _ _ _).trans eh
    have e3 : textSetAt sty.align.v (pa.y0 + sty.box.padding.top) (pa.y1 - sty.box.padding.bottom) h = textTop sty.align.v (pa.withPadding sty.box.padding) h :=
      textSetAt_eq _ (pa.withPadding sty.box.padding) h
    rw [e2, e3]
    exact draft_eng k2 k2.page rfl k2.y k2.held k2.out k2.pos k2.inside rfl

variable {tab : Tab}

theorem renderRowCells_draft {y : ℚ} : ∀ (ids : List Nat) (x : ℚ) (t : Typist) (s s' : PState Fpdf), Draft m t s →
    renderRowCells (tableOps (Fpdf.engine p) ctx (callsAt (Fpdf.engine p) ctx n) tab) tab y x ids s = some s' → Draft m (t.cells p ctx turn y x (ids.map fun x => ((tab.cell x).width,
      if (tab.cell x).spannedBy.isSome ∨ (tab.cell x).zero then none else some ⟨(tab.cell x).styles, (tab.cell x).iss, (tab.dim x).1, (tab.dim x).2⟩))) s' := by
  intro ids
  induction ids with
  | nil =>
    intro x t s s' hs hr
    simp only [renderRowCells, Option.some.injEq] at hr
    exact hr ▸ hs
  | cons id ids ih =>
    intro x t s s' hs hr
    simp only [renderRowCells] at hr
    rw [List.map_cons]
    by_cases h0 : (tab.cell id).spannedBy.isSome = true ∨ (tab.cell id).zero = true
    · rw [if_pos h0] at hr ⊢
      exact ih _ _ s s' hs hr
    · rw [if_neg h0] at hr ⊢
      rw [Typist.cells]
      cases h1 : (tableOps (Fpdf.engine p) ctx (callsAt (Fpdf.engine p) ctx n) tab).renderCell ⟨x, y, x + (tab.dim id).1, y + (tab.dim id).2⟩ id s with
      | none => rw [h1] at hr; exact absurd hr (by simp)
      | some s1 =>
        rw [h1] at hr
        obtain ⟨q, hq, e⟩ := Option.map_eq_some_iff.mp h1
        exact ih _ _ s1 s' (e ▸ renderCell_draft (a := q.1) hc hs hq) hr

theorem renderRow_draft {x0 y : ℚ} {r : TRow} {t : Typist} {s : PState Fpdf} {q : ℚ × PState Fpdf} (hs : Draft m t s)
    (hr : renderRow (tableOps (Fpdf.engine p) ctx (callsAt (Fpdf.engine p) ctx n) tab) tab x0 r y s = some q) :
    q.1 = (Typist.row p ctx turn x0 (y, t) (laidRow tab r)).1 ∧ Draft m (Typist.row p ctx turn x0 (y, t) (laidRow tab r)).2 q.2 := by
  unfold renderRow at hr
  split at hr
  · exact absurd hr (by simp)
  · rename_i s1 h1
    have k1 := renderRowCells_draft hc _ _ _ _ _ hs h1
    simp only [Option.some.injEq] at hr
    rw [← hr]
    exact ⟨rfl, draft_eng k1 k1.page rfl k1.y k1.held k1.out k1.pos k1.inside rfl⟩

theorem renderHeader_draft {x0 : ℚ} : ∀ (rs : List TRow) (y : ℚ) (t : Typist) (s : PState Fpdf) (q : ℚ × PState Fpdf), Draft m t s →
    renderHeader (tableOps (Fpdf.engine p) ctx (callsAt (Fpdf.engine p) ctx n) tab) tab x0 rs y s = some q →
    q.1 = ((rs.map (laidRow tab)).foldl (Typist.row p ctx turn x0) (y, t)).1 ∧ Draft m ((rs.map (laidRow tab)).foldl (Typist.row p ctx turn x0) (y, t)).2 q.2 := by
  intro rs
  induction rs with
  | nil =>
    intro y t s q hs hr
    simp only [renderHeader, Option.some.injEq] at hr
    rw [← hr]
    exact ⟨rfl, hs⟩
  | cons r rs ih =>
    intro y t s q hs hr
    unfold renderHeader at hr
    split at hr
    · exact absurd hr (by simp)
    · rename_i y1 s1 h1
      obtain ⟨e1, k1⟩ := renderRow_draft hc hs h1
      simp only at e1 k1
      rw [List.map_cons, List.foldl_cons]
      have := ih _ _ _ _ k1 hr
      rw [e1] at this
      exact this

theorem renderRows_draft {rh : Int} {x0 : ℚ} : ∀ (rs : List TRow) (i : Nat) (y : ℚ) (t : Typist) (s : PState Fpdf) (q : ℚ × PState Fpdf), Draft m t s →
    renderRows (tableOps (Fpdf.engine p) ctx (callsAt (Fpdf.engine p) ctx n) tab) tab rh (p.height - p.margins.bottom) x0 i rs y s = some q →
    q.1 = (Typist.rows p ctx turn (laidRows tab) rh x0 i (rs.map (laidRow tab)) (y, t)).1 ∧ Draft m (Typist.rows p ctx turn (laidRows tab) rh x0 i (rs.map (laidRow tab)) (y, t)).2 q.2 := by
  intro rs
  induction rs with
  | nil =>
    intro i y t s q hs hr
    simp only [renderRows, Option.some.injEq] at hr
    rw [← hr]
    exact ⟨rfl, hs⟩
  | cons r rs ih =>
    intro i y t s q hs hr
    have fin : ∀ (at_ : ℚ × Typist) (s2 : PState Fpdf) (q1 : ℚ × PState Fpdf), Draft m at_.2 s2 →
        renderRow (tableOps (Fpdf.engine p) ctx (callsAt (Fpdf.engine p) ctx n) tab) tab x0 r at_.1 s2 = some q1 →
        renderRows (tableOps (Fpdf.engine p) ctx (callsAt (Fpdf.engine p) ctx n) tab) tab rh (p.height - p.margins.bottom) x0 (i + 1) rs q1.1 q1.2 = some q →
        q.1 = (Typist.rows p ctx turn (laidRows tab) rh x0 (i + 1) (rs.map (laidRow tab)) (Typist.row p ctx turn x0 at_ (laidRow tab r))).1 ∧
          Draft m (Typist.rows p ctx turn (laidRows tab) rh x0 (i + 1) (rs.map (laidRow tab)) (Typist.row p ctx turn x0 at_ (laidRow tab r))).2 q.2 := by
      intro at_ s2 q1 k h1 h
      obtain ⟨e1, k1⟩ := renderRow_draft hc k h1
      have := ih _ _ _ _ _ k1 h
      rw [e1] at this
      exact this
    unfold renderRows at hr
    rw [List.map_cons]
    unfold Typist.rows
    have er : (laidRow tab r).reach = tab.maxCellHeight r := rfl
    simp only [er] at hr ⊢
    cases hT : turn with
    | none =>
      rw [if_neg (by
        show ¬ ((!s.prevent) = true ∧ _)
        rw [hs.prevent, can_none hc hT]; simp)] at hr
      rw [hT] at fin
      simp only at hr
      split at hr
      · exact absurd hr (by simp)
      · rename_i y3 s3 h3
        exact fin (y, t) s (y3, s3) hs h3 hr
    | some nx =>
      obtain ⟨hm, hnx⟩ := can_body hc hT
      rw [hT] at fin
      have ec : ((!(tableOps (Fpdf.engine p) ctx (callsAt (Fpdf.engine p) ctx n) tab).prevent s) = true ∧ y + tab.maxCellHeight r > p.height - p.margins.bottom) ↔
          p.height - p.margins.bottom < y + tab.maxCellHeight r := by
        show ((!s.prevent) = true ∧ _) ↔ _
        rw [hs.prevent, hm]
        exact ⟨fun h => h.2, fun h => ⟨rfl, h⟩⟩
      by_cases h : p.height - p.margins.bottom < y + tab.maxCellHeight r
      · simp only [if_pos (ec.mpr h)] at hr
        simp only [Option.map_some, Option.getD_some, if_pos h]
        cases h1 : (tableOps (Fpdf.engine p) ctx (callsAt (Fpdf.engine p) ctx n) tab).addPage s with
        | none => rw [h1] at hr; exact absurd hr (by simp)
        | some s1 =>
          simp only [h1] at hr
          obtain ⟨q1, hq, e⟩ := Option.map_eq_some_iff.mp h1
          have k1 : Draft m (nx t) s1 := e ▸ (hnx _ _ q1.1 _ hs hq).1
          have ey : ((tableOps (Fpdf.engine p) ctx (callsAt (Fpdf.engine p) ctx n) tab).getXY s1).2 = (nx t).y := k1.y
          rw [ey] at hr
          unfold Typist.again
          by_cases hd : 0 < i ∧ 0 < rh
          · rw [if_pos hd] at hr ⊢
            cases h2 : renderHeader (tableOps (Fpdf.engine p) ctx (callsAt (Fpdf.engine p) ctx n) tab) tab x0 (tab.rows.take rh.toNat) (nx t).y s1 with
            | none => rw [h2] at hr; exact absurd hr (by simp)
            | some q2 =>
              simp only [h2] at hr
              obtain ⟨e2, k2⟩ := renderHeader_draft hc _ _ _ _ _ k1 h2
              rw [hT, List.map_take, ← laidRows_map] at e2 k2
              split at hr
              · exact absurd hr (by simp)
              · rename_i y3 s3 h3
                rw [e2] at h3
                exact fin _ q2.2 (y3, s3) k2 h3 hr
          · rw [if_neg hd] at hr ⊢
            simp only at hr
            split at hr
            · exact absurd hr (by simp)
            · rename_i y3 s3 h3
              exact fin ((nx t).y, nx t) s1 (y3, s3) k1 h3 hr
      · simp only [if_neg (fun h' => h (ec.mp h'))] at hr
        simp only [Option.map_some, Option.getD_some, if_neg h]
        split at hr
        · exact absurd hr (by simp)
        · rename_i y3 s3 h3
          exact fin (y, t) s (y3, s3) hs h3 hr

theorem renderLaid_draft {rh : Int} {t : Typist} {s s' : PState Fpdf} (hs : Draft m t s)
    (hr : renderLaid (tableOps (Fpdf.engine p) ctx (callsAt (Fpdf.engine p) ctx n) tab) tab rh (p.height - p.margins.bottom) s = some s') :
    let t' := t.turnIf turn (p.height - p.margins.bottom < t.y + (((laidRows tab).take (rh + 1).toNat).map (·.reach)).sum)
    let r := Typist.rows p ctx turn (laidRows tab) rh t.x 0 (laidRows tab) (t'.y, t')
    Draft m (r.2.goY p r.1) s' := by
  have fin : ∀ (t1 : Typist) (s1 : PState Fpdf) (q : ℚ × PState Fpdf), Draft m t1 s1 →
      renderRows (tableOps (Fpdf.engine p) ctx (callsAt (Fpdf.engine p) ctx n) tab) tab rh (p.height - p.margins.bottom) t.x 0 tab.rows t1.y s1 = some q →
      some ((tableOps (Fpdf.engine p) ctx (callsAt (Fpdf.engine p) ctx n) tab).setY q.1 q.2) = some s' →
      Draft m ((Typist.rows p ctx turn (laidRows tab) rh t.x 0 (laidRows tab) (t1.y, t1)).2.goY p (Typist.rows p ctx turn (laidRows tab) rh t.x 0 (laidRows tab) (t1.y, t1)).1) s' := by
    intro t1 s1 q k h1 h
    obtain ⟨e1, k1⟩ := renderRows_draft hc _ _ _ _ _ _ k h1
    rw [← laidRows_map] at e1 k1
    simp only [Option.some.injEq] at h
    rw [← h, ← e1]
    exact goY_draft k1
  unfold renderLaid at hr
  simp only [headSet_eq] at hr ⊢
  have ex : ((tableOps (Fpdf.engine p) ctx (callsAt (Fpdf.engine p) ctx n) tab).getXY s).1 = t.x := hs.x
  have ey : ((tableOps (Fpdf.engine p) ctx (callsAt (Fpdf.engine p) ctx n) tab).getXY s).2 = t.y := hs.y
  rw [ex, ey] at hr
  unfold Typist.turnIf
  cases hT : turn with
  | none =>
    rw [if_neg (by
      show ¬ ((!s.prevent) = true ∧ _)
      rw [hs.prevent, can_none hc hT]; simp)] at hr
    rw [hT] at fin
    simp only at hr
    split at hr
    · exact absurd hr (by simp)
    · rename_i y3 s3 h3
      exact fin t s (y3, s3) hs h3 hr
  | some nx =>
    obtain ⟨hm, hnx⟩ := can_body hc hT
    rw [hT] at fin
    have ec : ((!(tableOps (Fpdf.engine p) ctx (callsAt (Fpdf.engine p) ctx n) tab).prevent s) = true ∧ t.y + headHeight tab rh > p.height - p.margins.bottom) ↔
        p.height - p.margins.bottom < t.y + headHeight tab rh := by
      show ((!s.prevent) = true ∧ _) ↔ _
      rw [hs.prevent, hm]
      exact ⟨fun h => h.2, fun h => ⟨rfl, h⟩⟩
    by_cases h : p.height - p.margins.bottom < t.y + headHeight tab rh
    · simp only [if_pos (ec.mpr h)] at hr
      simp only [Option.map_some, Option.getD_some, if_pos h]
      cases h1 : (tableOps (Fpdf.engine p) ctx (callsAt (Fpdf.engine p) ctx n) tab).addPage s with
      | none => rw [h1] at hr; exact absurd hr (by simp)
      | some s1 =>
        simp only [h1] at hr
        obtain ⟨q1, hq, e⟩ := Option.map_eq_some_iff.mp h1
        have k1 : Draft m (nx t) s1 := e ▸ (hnx _ _ q1.1 _ hs hq).1
        have ey : ((tableOps (Fpdf.engine p) ctx (callsAt (Fpdf.engine p) ctx n) tab).getXY s1).2 = (nx t).y := k1.y
        rw [ey] at hr
        split at hr
        · exact absurd hr (by simp)
        · rename_i y3 s3 h3
          exact fin (nx t) s1 (y3, s3) k1 h3 hr
    · simp only [if_neg (fun h' => h (ec.mp h'))] at hr
      simp only [Option.map_some, Option.getD_some, if_neg h]
      split at hr
      · exact absurd hr (by simp)
      · rename_i y3 s3 h3
        exact fin t s (y3, s3) hs h3 hr

theorem renderTable_draft {st : Styled} {rh : Int} {trows : List TableRow} {t : Typist} {s s' : PState Fpdf} {a : Unit} (hk : Draft m t s)
    (hr : renderTable (Fpdf.engine p) ctx (callsAt (Fpdf.engine p) ctx n) st rh trows s = some (a, s')) : Draft m (t.table p ctx turn st rh trows) s' := by
  unfold renderTable at hr
  replace hr := get_bind hr
  rw [hk.curr, show (Fpdf.engine p).printableArea s.eng = printable p from rfl] at hr
  unfold Typist.table
  cases hT : transformTable (textHeightFnc (Fpdf.engine p) ctx) ctx.classes (Page.mk (printable p)) { defaultStyle with font := t.font } st trows s with
  | none => rw [hT] at hr; exact absurd hr (by simp)
  | some q =>
    obtain ⟨tab, s1⟩ := q
    rw [hT] at hr
    obtain ⟨u, hu, hs1, _⟩ := transformTable_two (T := fun _ => True) (R := fun s t => Draft m t s) (m := textHeightFnc (Fpdf.engine p) ctx)
      (m' := Typist.measure p ctx) (rh := rh) (fun sty iss w s u _ h => textHeightFnc_draft (p := p) (ctx := ctx) (sty := sty) (iss := iss) (W := w) h)
      (fun _ _ _ _ => trivial) hT hk
    have hlay := layTable_eq hu
    rw [show (Page.mk (printable p)).effectiveWidth = wideSet ((printable p).x1 - (printable p).x0) from funext fun w => tableWidth_eq _ w] at hlay
    unfold Typist.styles
    simp only at hlay hr ⊢
    rw [hlay, ← C122_columns hT]
    simp only
    obtain ⟨_, s2, g2, hr⟩ := bind_some hr
    have e2 : s2 = s1 := by
      have g2 : some (PUnit.unit, s1) = some (_, s2) := g2
      exact (Prod.mk.inj (Option.some.inj g2)).2.symm
    rw [e2] at hr
    clear g2 e2 s2
    by_cases h0 : tab.columnCount = 0
    · rw [if_pos h0] at hr ⊢
      exact reset_draft hs1 hr
    · rw [if_neg h0] at hr ⊢
      obtain ⟨pa, s3, g3, hr⟩ := bind_some hr
      obtain ⟨_, s4, g4, hr⟩ := bind_some hr
      simp only [ask, Option.some.injEq, Prod.mk.injEq] at g3
      rw [← g3.1, ← g3.2] at g4
      obtain ⟨s5, h5, e5⟩ := Option.map_eq_some_iff.mp g4
      simp only [Prod.mk.injEq] at e5
      rw [e5.2] at h5
      exact reset_draft (renderLaid_draft hc hs1 h5) hr

/-! ### Instructions -/

theorem processInstr_draft {i : Instr} (hi : m = true → i ≠ .pageBreak) {t : Typist} {s s' : PState Fpdf} {a : Unit} (hk : Draft m t s)
    (hr : processInstr (Fpdf.engine p) ctx (callsAt (Fpdf.engine p) ctx n) i s = some (a, s')) : Draft m (t.step p ctx turn i) s' := by
  cases i with
  | table st rh rows => exact renderTable_draft hc hk hr
  | font st =>
    simp only [processInstr] at hr
    replace hr := get_bind hr
    simp only [changeFontM, Option.some.injEq, Prod.mk.injEq] at hr
    rw [← hr.2, hk.curr]
    exact draft_font hk
  | lineFeed lines =>
    simp only [processInstr, upd, Option.some.injEq, Prod.mk.injEq] at hr
    rw [← hr.2]
    exact feed_draft hk
  | setX x =>
    simp only [processInstr, upd, Option.some.injEq, Prod.mk.injEq] at hr
    rw [← hr.2]
    exact draft_eng hk hk.page rfl hk.y hk.held hk.out hk.pos hk.inside rfl
  | setY y =>
    simp only [processInstr, upd, Option.some.injEq, Prod.mk.injEq] at hr
    rw [← hr.2]
    exact goY_draft hk
  | pageBreak =>
    simp only [processInstr] at hr
    simp only [Typist.step]
    unfold Typist.turnIf
    cases hT : turn with
    | none => exact absurd rfl (hi (can_none hc hT))
    | some nx => exact ((can_body hc hT).2 _ _ _ _ hk hr).1
  | text st iss => exact renderText_draft hc hk hr
  | box st iss => exact renderTextBox_draft hc hk hr
  | image st src =>
    simp only [processInstr] at hr
    obtain ⟨pa, s1, g1, hr⟩ := bind_some hr
    simp only [ask, Option.some.injEq, Prod.mk.injEq] at g1
    rw [← g1.1, ← g1.2] at hr
    exact renderImage_draft hk hr
  | grid st rows g =>
    have e := renderGrid_at hr
    exact e ▸ hk
  | _ =>
    simp only [processInstr, Pure.pure, StateT.pure, Option.some.injEq, Prod.mk.injEq] at hr
    exact hr.2 ▸ hk

theorem processInstrs_draft : ∀ (iss : List Instr), (m = true → .pageBreak ∉ iss) → ∀ (t : Typist) (s : PState Fpdf) (a : Unit) (s' : PState Fpdf), Draft m t s →
    processInstrs (Fpdf.engine p) ctx (callsAt (Fpdf.engine p) ctx n) iss s = some (a, s') → Draft m (iss.foldl (Typist.step p ctx turn) t) s' := by
  intro iss
  induction iss with
  | nil =>
    intro _ t s a s' hk hr
    simp only [processInstrs, Pure.pure, StateT.pure, Option.some.injEq, Prod.mk.injEq] at hr
    exact hr.2 ▸ hk
  | cons i iss ih =>
    intro hi t s a s' hk hr
    unfold processInstrs at hr
    obtain ⟨_, s1, g1, hr⟩ := bind_some hr
    exact ih (fun h h' => hi h (List.mem_cons_of_mem _ h')) _ s1 a s' (processInstr_draft hc (fun h e => hi h (by rw [e]; simp)) hk g1) hr

end

/-! ### Header, footer, documents -/

/-- Header and footer: only what they put on the page and the font they leave stays. -/
theorem callback_draft {iss : List Instr} (hn : .pageBreak ∉ iss) {t : Typist} {s s' : PState Fpdf} {a : Unit}
    (hr : callback (Fpdf.engine p) ctx (callsAt (Fpdf.engine p) ctx n) iss s = some (a, s')) (hk : Draft true t { s with prevent := true }) :
    let u := iss.foldl (Typist.step p ctx none) t
    s'.eng.page = u.page ∧ s'.eng.x = acrossAt p (acrossAt p t.x) ∧ s'.eng.y = heightAt p t.y ∧ s'.eng.out = u.out ∧ 0 < s'.eng.page ∧ s'.prevent = false ∧
      s'.curr = { defaultStyle with font := u.font } := by
  rw [callback_eq] at hr
  obtain ⟨q, hq, he⟩ := Option.map_eq_some_iff.mp hr
  have k := processInstrs_draft (p := p) (ctx := ctx) (n := n) (m := true) (turn := none) trivial iss (fun _ => hn) t _ q.1 q.2 hk hq
  simp only [Prod.mk.injEq] at he
  rw [← he.2]
  refine ⟨k.page, ?_, ?_, k.out, k.pos, rfl, k.curr⟩
  · show acrossAt p (acrossAt p s.eng.x) = _
    rw [show s.eng.x = t.x from hk.x]
  · show heightAt p s.eng.y = _
    rw [show s.eng.y = t.y from hk.y]

section
variable (hh : .pageBreak ∉ ctx.header) (hft : .pageBreak ∉ ctx.footer) (ht : 0 ≤ p.margins.top) (hm : 0 ≤ p.margins.left)
include hh ht hm

/-- A new page and its header. -/
theorem turn_draft {t : Typist} {s s' : PState Fpdf} {e : Fpdf} {a : Unit} (hp : e.page = t.page) (ho : e.out = t.out) (hc : s.curr = { defaultStyle with font := t.font })
    (hr : runProg (callback (Fpdf.engine p) ctx (callsAt (Fpdf.engine p) ctx n) ctx.header) (callback (Fpdf.engine p) ctx (callsAt (Fpdf.engine p) ctx n) ctx.footer)
      (Fpdf.turn p t.held c e) s = some (a, s')) : Draft false (t.head p ctx) s' ∧ s'.eng.color = c := by
  unfold Fpdf.turn at hr
  simp only [runProg] at hr
  split at hr
  · exact absurd hr (by simp)
  · rename_i s1 h1
    have k := callback_draft (t := { t with page := t.page + 1, x := p.margins.left, y := p.margins.top, out := t.out ++ [.page] }) hh h1
      ⟨by show e.page + 1 = _; rw [hp], rfl, rfl, rfl, by show e.out ++ _ = _; rw [ho], Nat.succ_pos _, rfl, rfl, hc⟩
    simp only [Option.some.injEq, Prod.mk.injEq] at hr
    rw [← hr.2]
    obtain ⟨k1, k2, k3, k4, k5, k6, k7⟩ := k
    refine ⟨⟨k1, ?_, ?_, rfl, k4, k5, rfl, k6, k7⟩, rfl⟩
    · refine k2.trans ?_
      show acrossAt p (acrossAt p p.margins.left) = p.margins.left
      unfold acrossAt
      rw [if_pos hm, if_pos hm]
    · refine k3.trans ?_
      show heightAt p p.margins.top = p.margins.top
      unfold heightAt
      rw [if_pos ht]

include hft

theorem next_draft : Can p ctx n false (some (Typist.next p ctx)) := by
  intro t s a s' hs hr
  cases n with
  | zero => exact absurd hr (by simp [callsAt])
  | succ n =>
    have hr' : runProg (callback (Fpdf.engine p) ctx (callsAt (Fpdf.engine p) ctx n) ctx.header)
        (callback (Fpdf.engine p) ctx (callsAt (Fpdf.engine p) ctx n) ctx.footer) (Fpdf.addPage p s.eng) s = some (a, s') := hr
    unfold Fpdf.addPage at hr'
    rw [if_pos hs.pos] at hr'
    simp only [runProg] at hr'
    split at hr'
    · exact absurd hr' (by simp)
    · rename_i s1 h1
      obtain ⟨k1, _, _, k4, _, k6, k7⟩ := callback_draft (t := t) hft h1 ⟨hs.page, hs.x, hs.y, hs.held, hs.out, hs.pos, rfl, rfl, hs.curr⟩
      rw [hs.held] at hr'
      obtain ⟨g1, g2⟩ := turn_draft (t := { t.foot p ctx with held := t.held }) hh ht hm (by exact k1) (by exact k4) k7 hr'
      exact ⟨g1, g2, rfl⟩

theorem process_typeset {s' : PState Fpdf} {r : PdfResult} (hr : process (Fpdf.engine p) ctx n (newProcessor (Fpdf.new p)) = some (r, s')) :
    let t := typeset p ctx ctx.body
    s'.eng.out = (t.foot p ctx).out ∧ s'.eng.page = (t.foot p ctx).page ∨ r.failed = true ∧ s'.eng.out = t.out ∧ s'.eng.page = t.page := by
  unfold process at hr
  obtain ⟨_, s1, h1, hr⟩ := bind_some hr
  replace hr := get_bind hr
  obtain ⟨_, s2, h2, hr⟩ := bind_some hr
  obtain ⟨_, s3, h3, hr⟩ := bind_some hr
  obtain ⟨_, s4, h4, hr⟩ := bind_some hr
  obtain ⟨failed, s5, h5, hr⟩ := bind_some hr
  simp only [upd, changeFontM, Option.some.injEq, Prod.mk.injEq] at h1 h2
  have e2 : s2 = ⟨{ Fpdf.new p with pageCountAlias := b!"{np}", font := defaultStyle.font, failed := (Fpdf.new p).failed || !p.known defaultStyle.font }, defaultStyle, false⟩ := by
    rw [← h2.2, ← h1.2]; rfl
  have k3 : Draft false (Typist.head p ctx ⟨0, p.margins.left, p.margins.top, defaultStyle.font, defaultStyle.font, []⟩) s3 := by
    cases n with
    | zero => exact absurd h3 (by simp [callsAt])
    | succ n =>
      have h3' : runProg (callback (Fpdf.engine p) ctx (callsAt (Fpdf.engine p) ctx n) ctx.header)
          (callback (Fpdf.engine p) ctx (callsAt (Fpdf.engine p) ctx n) ctx.footer) (Fpdf.addPage p s2.eng) s2 = some ((), s3) := h3
      unfold Fpdf.addPage at h3'
      rw [if_neg (by rw [e2]; simp [Fpdf.new])] at h3'
      refine (turn_draft (t := ⟨0, p.margins.left, p.margins.top, defaultStyle.font, defaultStyle.font, []⟩) (s := s2) (n := n) (e := s2.eng) (c := s2.eng.color) (a := ()) hh ht hm ?_ ?_ ?_ ?_).1
      · rw [e2]; rfl
      · rw [e2]; rfl
      · rw [e2]
      · rw [show s2.eng.font = defaultStyle.font by rw [e2]] at h3'
        exact h3'
  have k4 := processInstrs_draft (next_draft hh hft ht hm) ctx.body (fun h => absurd h (by simp)) _ s3 _ s4 k3 h4
  simp only [ask, Option.some.injEq, Prod.mk.injEq] at h5
  rw [h5.2] at k4
  split at hr
  · simp only [Pure.pure, StateT.pure, Option.some.injEq, Prod.mk.injEq] at hr
    rw [← hr.2, ← hr.1]
    exact .inr ⟨rfl, k4.out, k4.page⟩
  · have hr' : runProg (callback (Fpdf.engine p) ctx (callsAt (Fpdf.engine p) ctx (n - 1)) ctx.header)
          (callback (Fpdf.engine p) ctx (callsAt (Fpdf.engine p) ctx (n - 1)) ctx.footer) (Fpdf.writePDF s5.eng) s5 = some (r, s') := hr
    simp only [Fpdf.writePDF, runProg] at hr'
    split at hr'
    · exact absurd hr' (by simp)
    · rename_i s6 h6
      obtain ⟨k1, _, _, k4', _⟩ := callback_draft (t := typeset p ctx ctx.body) hft h6 ⟨k4.page, k4.x, k4.y, k4.held, k4.out, k4.pos, rfl, rfl, k4.curr⟩
      simp only [Option.some.injEq, Prod.mk.injEq] at hr'
      rw [← hr'.2]
      exact .inl ⟨k4', k1⟩

end

/-! ### The height of the paper -/

/-- The lines of a text are a matter of its words. -/
theorem setLines_words (page : Nat) (W : ℚ) (sty : Styles) (iss : List Instr) : setLines p ctx page W sty iss =
    if sty.align.h = b!"block" then (wrappedHyph ctx.hyphenate p.metric W (wordsOn ctx page sty iss)).map (lineOfH p.metric)
    else (wrapped p.metric W (wordsOn ctx page sty iss)).map (lineOf p.metric) := by
  unfold setLines plainLines wordsOn
  by_cases hb : sty.align.h = b!"block"
  · simp only [if_pos hb]
    rw [wrappedHyph_fill]
  · simp only [if_neg hb]
    rw [wrapped_fill]

/-- Equally far from the left, with the same font, having set the same texts. -/
structure Level (t t' : Typist) : Prop where
  x : t.x = t'.x
  font : t.font = t'.font
  out : columns t.out = columns t'.out

theorem columns_append (a b : List Mark) : columns (a ++ b) = columns a ++ columns b := List.filterMap_append

section
variable {p' : Paper} (hp : SameColumns p p') {t t' : Typist} (hh : ctx.header = []) (hft : ctx.footer = [])

include hh hft in
/-- The next page without header and footer. -/
theorem next_bare (t : Typist) : t.next p ctx = { t with page := t.page + 1, x := p.margins.left, y := p.margins.top, out := t.out ++ [.page] } := by
  unfold Typist.next Typist.head Typist.foot
  rw [hh, hft]
  rfl

include hp

theorem acrossAt_same (x : ℚ) : acrossAt p x = acrossAt p' x := by unfold acrossAt; rw [hp.width]

include hh hft

theorem level_next (h : Level t t') : Level (t.next p ctx) (t'.next p' ctx) := by
  rw [next_bare hh hft, next_bare hh hft]
  exact ⟨hp.left, h.font, by show columns (t.out ++ _) = columns (t'.out ++ _); rw [columns_append, columns_append, h.out]⟩

theorem level_word {c : RGB} {gap : Option ℚ} {w : Font × Str} (h : Level t t') :
    Level (t.word p (some (Typist.next p ctx)) c gap w) (t'.word p' (some (Typist.next p' ctx)) c gap w) := by
  have key : ∀ {u : Typist} {q : Paper}, let u' := ({ u with font := w.1, held := w.1 } : Typist).turnIf (some (Typist.next q ctx)) (q.height - q.margins.bottom < u.y + lineHeight w.1)
      u'.font = w.1 ∧ columns u'.out = columns u.out := by
    intro u q
    simp only [Typist.turnIf, Option.map_some, Option.getD_some]
    split
    · rw [next_bare hh hft]
      exact ⟨rfl, by show columns (u.out ++ _) = _; rw [columns_append]; exact List.append_nil _⟩
    · exact ⟨rfl, rfl⟩
  obtain ⟨a1, a2⟩ := key (u := t) (q := p)
  obtain ⟨b1, b2⟩ := key (u := t') (q := p')
  unfold Typist.word
  simp only at a1 a2 b1 b2 ⊢
  refine ⟨?_, by simp only [a1, b1], ?_⟩
  · simp only [h.x, hp.metric, show acrossAt p = acrossAt p' from funext (acrossAt_same hp)]
  · rw [columns_append, columns_append, a2, b2, h.out]
    simp only [columns, List.filterMap_cons, List.filterMap_nil, h.x]

theorem level_words {c : RGB} {gap : Option ℚ} (ws : List (Font × Str)) : ∀ {t t' : Typist}, Level t t' →
    Level (ws.foldl (Typist.word p (some (Typist.next p ctx)) c gap) t) (ws.foldl (Typist.word p' (some (Typist.next p' ctx)) c gap) t') := by
  induction ws with
  | nil => intro t t' h; exact h
  | cons w ws ih => intro t t' h; exact ih (level_word hp hh hft h)

omit hh hft in
theorem level_feed {d : ℚ} (h : Level t t') : Level (t.feed p d) (t'.feed p' d) :=
  ⟨hp.left, h.font, by show columns (t.out ++ _) = columns (t'.out ++ _); rw [columns_append, columns_append, h.out]; rfl⟩

theorem level_line {sty : Styles} {x0 W : ℚ} {l : TextLine} (h : Level t t') : Level (t.line p (some (Typist.next p ctx)) sty x0 W l) (t'.line p' (some (Typist.next p' ctx)) sty x0 W l) := by
  unfold Typist.line
  refine level_feed hp (level_words hp hh hft _ ⟨?_, h.font, h.out⟩)
  show ((startSet sty x0 W l).map (acrossAt p)).getD t.x = ((startSet sty x0 W l).map (acrossAt p')).getD t'.x
  rw [show acrossAt p = acrossAt p' from funext (acrossAt_same hp), h.x]

theorem level_lines {sty : Styles} {x0 W : ℚ} (ls : List TextLine) : ∀ {t t' : Typist}, Level t t' →
    Level (ls.foldl (Typist.line p (some (Typist.next p ctx)) sty x0 W) t) (ls.foldl (Typist.line p' (some (Typist.next p' ctx)) sty x0 W) t') := by
  induction ls with
  | nil => intro t t' h; exact h
  | cons l ls ih => intro t t' h; exact ih (level_line hp hh hft h)

theorem level_text {sty : Styles} {W : ℚ} {iss : List Instr} (hw : ∀ page page' sty, wordsOn ctx page sty iss = wordsOn ctx page' sty iss) (h : Level t t') :
    Level (t.text p ctx (some (Typist.next p ctx)) W sty iss) (t'.text p' ctx (some (Typist.next p' ctx)) W sty iss) := by
  unfold Typist.text
  rw [setLines_words, setLines_words, hw t.page t'.page, hp.metric, h.x]
  refine level_lines hp hh hft _ ⟨h.x, ?_, h.out⟩
  show fontLeft _ _ = fontLeft _ _
  rw [h.font]

theorem level_steps : ∀ (body : List Instr), PageFree ctx body → ∀ {t t' : Typist}, Level t t' → Level (body.foldl (Typist.step p ctx (some (Typist.next p ctx))) t) (body.foldl (Typist.step p' ctx (some (Typist.next p' ctx))) t') := by
  intro body
  induction body with
  | nil => intro _ t t' h; exact h
  | cons i is ih =>
    intro hb t t' h
    refine ih (fun j hj => hb j (List.mem_cons_of_mem _ hj)) ?_
    have hi := hb i (by simp)
    cases i with
    | box st iss => exact hi.elim
    | table st rh rows => exact hi.elim
    | font st => exact ⟨h.x, by show Styles.font (t.styles ctx st) = Styles.font (t'.styles ctx st); unfold Typist.styles; rw [h.font], h.out⟩
    | lineFeed lines => exact level_feed hp h
    | setX x => exact ⟨acrossAt_same hp x, h.font, h.out⟩
    | setY y => exact ⟨by show acrossAt p t.x = acrossAt p' t'.x; rw [h.x, acrossAt_same hp], h.font, h.out⟩
    | pageBreak => exact level_next hp hh hft h
    | text st iss =>
      have ew : ∀ W, (printable p).effectiveWidth W = (printable p').effectiveWidth W := by
        intro W
        unfold Area.effectiveWidth Area.width printable
        simp only [hp.width, hp.left, hp.right]
      simp only [Typist.step]
      split
      · exact h
      · unfold Typist.styles
        rw [wideSet_eq, wideSet_eq, ew, h.font]
        have k := level_text hp hh hft (sty := st.mutatedStyles ctx.classes { defaultStyle with font := t'.font })
          (W := (printable p').effectiveWidth (st.mutatedStyles ctx.classes { defaultStyle with font := t'.font }).dim.width) hi h
        exact ⟨k.x, k.font, k.out⟩
    | image st src =>
      show Level (t.image ctx (printable p) st src) (t'.image ctx (printable p') st src)
      unfold Typist.image
      cases ctx.describe (ctx.resolve src) with
      | none => exact h
      | some d => exact ⟨h.x, h.font, by simp only [columns_append, h.out]; rfl⟩
    | _ => exact h

theorem typeset_columns {body : List Instr} (hb : PageFree ctx body) : columns (typeset p ctx body).out = columns (typeset p' ctx body).out :=
  (level_steps hp hh hft body hb (by unfold Typist.head; rw [hh]; exact ⟨hp.left, rfl, rfl⟩)).out

end
end Verif.Proofs
