import Verif.Spec.Filling
import Verif.Proofs.Stacked
import Verif.Proofs.Writing
import Verif.Proofs.Fill
/-
Proofs about lines that fill page after page (C115).
-/
namespace Verif.Proofs
open Verif.Go Verif.Model Verif.Spec Verif.Props

variable {p : Paper} {ctx : Ctx} {F : Font → Prop} {n : Nat}

/-- The processor is on a page, outside header and footer, and these texts are on the pages. -/
structure On (F : Font → Prop) (at_ : Nat × ℚ) (sp : List Spot) (s : PState Fpdf) : Prop where
  page : s.eng.page = at_.1
  y : s.eng.y = at_.2
  pos : 0 < s.eng.page
  outside : s.eng.inHeaderFooter = false
  curr : Cur F s.curr
  spots : spots s.eng.out = sp

theorem on_eng {at_ : Nat × ℚ} {sp : List Spot} {s : PState Fpdf} {e : Fpdf} (h : On F at_ sp s) (hp : e.page = s.eng.page) (hy : e.y = s.eng.y)
    (hi : e.inHeaderFooter = s.eng.inHeaderFooter) (ho : e.out = s.eng.out) : On F at_ sp { s with eng := e } where
  page := by rw [← h.page, ← hp]
  y := by rw [← h.y, ← hy]
  pos := by show 0 < e.page; rw [hp]; exact h.pos
  outside := by rw [← h.outside, ← hi]
  curr := h.curr
  spots := by rw [← h.spots, ← ho]

theorem on_font {at_ : Nat × ℚ} {sp : List Spot} {s : PState Fpdf} {f : Font} (hf : F f) (h : On F at_ sp s) : On F at_ sp (changeFont (Fpdf.engine p) f s) where
  page := h.page
  y := h.y
  pos := h.pos
  outside := h.outside
  curr := cur_font hf h.curr
  spots := h.spots

theorem callback_empty (c : Calls Fpdf) (s : PState Fpdf) : callback (Fpdf.engine p) ctx c [] s =
    some ((), { s with eng := Fpdf.setY p s.eng.y (Fpdf.setX p s.eng.x s.eng), prevent := false }) := rfl

theorem wideSet_eq (a : Area) (w : ℚ) : wideSet (a.x1 - a.x0) w = a.effectiveWidth w := by
  unfold wideSet Area.effectiveWidth Area.width
  simp only
  by_cases h : 0 ≤ w ∧ w ≤ a.x1 - a.x0
  · rw [if_pos h, if_neg (by rintro (h1 | h1) <;> linarith [h.1, h.2])]
  · rw [if_neg h, if_pos (by by_contra h1; exact h (by simpa [not_or] using h1))]

section
variable (hh : ctx.header = []) (hft : ctx.footer = []) (ht : 0 ≤ p.margins.top)
include hh hft ht

/-- A new page without header and footer. -/
theorem addPage_on {at_ : Nat × ℚ} {sp : List Spot} {s s' : PState Fpdf} {a : Unit} (hs : On F at_ sp s)
    (hr : (callsAt (Fpdf.engine p) ctx n).addPage s = some (a, s')) : On F (at_.1 + 1, p.margins.top) sp s' ∧ s'.eng.font = s.eng.font := by
  cases n with
  | zero => exact absurd hr (by simp [callsAt])
  | succ n =>
    have hr' : runProg (callback (Fpdf.engine p) ctx (callsAt (Fpdf.engine p) ctx n) ctx.header)
        (callback (Fpdf.engine p) ctx (callsAt (Fpdf.engine p) ctx n) ctx.footer) (Fpdf.addPage p s.eng) s = some (a, s') := hr
    unfold Fpdf.addPage at hr'
    rw [if_pos hs.pos, hh, hft] at hr'
    simp only [runProg, callback_empty, Fpdf.turn, Option.some.injEq, Prod.mk.injEq] at hr'
    rw [← hr'.2]
    refine ⟨⟨?_, ?_, Nat.succ_pos _, rfl, hs.curr, ?_⟩, rfl⟩
    · show s.eng.page + 1 = _
      rw [hs.page]
    · show (if p.margins.top ≥ 0 then p.margins.top else _) = _
      rw [if_pos ht]
    · show spots (s.eng.out ++ [.page]) = sp
      rw [← hs.spots]
      simp [Spec.spots]

/-- A text is written where it stands. -/
theorem writeText_on {at_ : Nat × ℚ} {sp : List Spot} {s s' : PState Fpdf} {a : Unit} {t : Str} (hs : On F at_ sp s)
    (hr : (callsAt (Fpdf.engine p) ctx n).writeText t s = some (a, s')) {H : ℚ} (hH : lineHeight s.eng.font = H) :
    On F (lineAt p at_ H [t]) (sp ++ [((lineAt p at_ H [t]).1, (lineAt p at_ H [t]).2, t)]) s' ∧ s'.eng.font = s.eng.font := by
  cases n with
  | zero => exact absurd hr (by simp [callsAt])
  | succ n =>
    have hr' : runProg (callback (Fpdf.engine p) ctx (callsAt (Fpdf.engine p) ctx n) ctx.header)
        (callback (Fpdf.engine p) ctx (callsAt (Fpdf.engine p) ctx n) ctx.footer) (Fpdf.writeText p t s.eng) s = some (a, s') := hr
    unfold Fpdf.writeText at hr'
    have hput : ∀ {s : PState Fpdf} {at_ : Nat × ℚ} {sp : List Spot}, On F at_ sp s → On F at_ (sp ++ [(at_.1, at_.2, t)]) { s with eng := Fpdf.put p t s.eng } := by
      intro s at_ sp hs
      refine ⟨hs.page, hs.y, hs.pos, hs.outside, hs.curr, ?_⟩
      show spots (s.eng.out ++ [_]) = _
      rw [← hs.spots, ← hs.page, ← hs.y]
      simp [Spec.spots]
    have hfh : Fpdf.fontHeight s.eng = H := hH
    by_cases hc : p.height - p.margins.bottom < at_.2 + H
    · have e : lineAt p at_ H [t] = (at_.1 + 1, p.margins.top) := by unfold lineAt; rw [if_pos ⟨by simp, hc⟩]
      rw [if_pos ⟨by rw [hfh, hs.y]; exact hc, by rw [hs.outside]; rfl⟩] at hr'
      rw [runProg_andThen (g := fun e => Fpdf.put p t { e with x := s.eng.x })] at hr'
      obtain ⟨q, hq, hr'⟩ := Option.map_eq_some_iff.mp hr'
      obtain ⟨h1, h2⟩ := addPage_on (n := n + 1) (a := q.1) (s' := q.2) hh hft ht hs hq
      have h3 := hput (on_eng (e := { q.2.eng with x := s.eng.x }) h1 rfl rfl rfl rfl)
      simp only [Prod.mk.injEq] at hr'
      rw [← hr'.2, e]
      exact ⟨h3, h2⟩
    · have e : lineAt p at_ H [t] = at_ := by unfold lineAt; rw [if_neg (by simp [hc])]
      rw [if_neg (by rw [hfh, hs.y]; exact fun h => hc h.1)] at hr'
      simp only [runProg, Option.some.injEq, Prod.mk.injEq] at hr'
      rw [← hr'.2, e]
      exact ⟨hput hs, rfl⟩

omit hh hft ht in
/-- The first word of a line decides where the others stand. -/
theorem lineAt_fits {at_ : Nat × ℚ} {H : ℚ} {t : Str} {ts : List Str} (hf : p.margins.top + H ≤ p.height - p.margins.bottom) :
    lineAt p (lineAt p at_ H [t]) H ts = lineAt p at_ H [t] ∧ lineAt p at_ H (t :: ts) = lineAt p at_ H [t] := by
  unfold lineAt
  by_cases hc : p.height - p.margins.bottom < at_.2 + H
  · simp [hc, not_lt.mpr hf]
  · simp [hc]

variable {H : ℚ} (hH : p.margins.top + H ≤ p.height - p.margins.bottom)
include hH

theorem writeItems_on : ∀ (items : List TextItem) (at_ : Nat × ℚ) (sp : List Spot) (s : PState Fpdf) (a : Unit) (s' : PState Fpdf), On F at_ sp s →
    lineHeight s.eng.font = H → (∀ i ∈ items, Fit F H i.sty.font) → writeItems (Fpdf.engine p) (callsAt (Fpdf.engine p) ctx n) items s = some (a, s') →
    On F (lineAt p at_ H (items.map (·.text))) (sp ++ items.map fun i => ((lineAt p at_ H (items.map (·.text))).1, (lineAt p at_ H (items.map (·.text))).2, i.text)) s' ∧
      lineHeight s'.eng.font = H := by
  intro items
  induction items with
  | nil =>
    intro at_ sp s a s' hs hf _ hr
    simp only [writeItems, Pure.pure, StateT.pure, Option.some.injEq, Prod.mk.injEq] at hr
    rw [← hr.2]
    have : lineAt p at_ H [] = at_ := by simp [lineAt]
    simp only [List.map_nil, List.append_nil, this]
    exact ⟨hs, hf⟩
  | cons i is ih =>
    intro at_ sp s a s' hs hf hi hr
    simp only [writeItems] at hr
    obtain ⟨_, s1, g1, hr⟩ := bind_some hr
    obtain ⟨_, s2, g2, hr⟩ := bind_some hr
    simp only [changeFontM, Option.some.injEq, Prod.mk.injEq] at g1
    have k1 := on_font (p := p) (hi i (by simp)).1 hs
    rw [g1.2] at k1
    have f1 : lineHeight s1.eng.font = H := by rw [← g1.2]; exact (hi i (by simp)).2
    obtain ⟨k2, f2⟩ := writeText_on hh hft ht k1 g2 f1
    obtain ⟨k3, f3⟩ := ih _ _ s2 a s' k2 (by rw [f2]; exact f1) (fun j hj => hi j (List.mem_cons_of_mem _ hj)) hr
    rw [(lineAt_fits (at_ := at_) (t := i.text) (ts := is.map (·.text)) hH).1] at k3
    simp only [List.map_cons, (lineAt_fits (at_ := at_) (t := i.text) (ts := is.map (·.text)) hH).2]
    refine ⟨?_, f3⟩
    simpa using k3

theorem writeSpaced_on {gap : ℚ} : ∀ (items : List TextItem) (at_ : Nat × ℚ) (sp : List Spot) (s : PState Fpdf) (a : Unit) (s' : PState Fpdf), On F at_ sp s →
    lineHeight s.eng.font = H → (∀ i ∈ items, Fit F H i.sty.font) → writeSpaced (Fpdf.engine p) (callsAt (Fpdf.engine p) ctx n) gap items s = some (a, s') →
    On F (lineAt p at_ H (items.map fun i => trimSpace i.text)) (sp ++ items.map fun i => ((lineAt p at_ H (items.map fun i => trimSpace i.text)).1,
      (lineAt p at_ H (items.map fun i => trimSpace i.text)).2, trimSpace i.text)) s' ∧ lineHeight s'.eng.font = H := by
  intro items
  induction items with
  | nil =>
    intro at_ sp s a s' hs hf _ hr
    simp only [writeSpaced, Pure.pure, StateT.pure, Option.some.injEq, Prod.mk.injEq] at hr
    rw [← hr.2]
    have : lineAt p at_ H [] = at_ := by simp [lineAt]
    simp only [List.map_nil, List.append_nil, this]
    exact ⟨hs, hf⟩
  | cons i is ih =>
    intro at_ sp s a s' hs hf hi hr
    simp only [writeSpaced] at hr
    obtain ⟨_, s1, g1, hr⟩ := bind_some hr
    obtain ⟨_, s2, g2, hr⟩ := bind_some hr
    obtain ⟨xy, s3, g3, hr⟩ := bind_some hr
    obtain ⟨_, s4, g4, hr⟩ := bind_some hr
    simp only [changeFontM, ask, upd, Option.some.injEq, Prod.mk.injEq] at g1 g3 g4
    have k1 := on_font (p := p) (hi i (by simp)).1 hs
    rw [g1.2] at k1
    have f1 : lineHeight s1.eng.font = H := by rw [← g1.2]; exact (hi i (by simp)).2
    obtain ⟨k2, f2⟩ := writeText_on hh hft ht k1 g2 f1
    have k4 := on_eng (e := Fpdf.setX p (xy.1 + gap) s2.eng) k2 rfl rfl rfl rfl
    have e4 : s4 = { s2 with eng := Fpdf.setX p (xy.1 + gap) s2.eng } := by rw [← g4.2, ← g3.2]; rfl
    rw [← e4] at k4
    have f4 : lineHeight s4.eng.font = H := by rw [e4]; show lineHeight s2.eng.font = H; rw [f2]; exact f1
    obtain ⟨k3, f3⟩ := ih _ _ s4 a s' k4 f4 (fun j hj => hi j (List.mem_cons_of_mem _ hj)) hr
    rw [(lineAt_fits (at_ := at_) (t := trimSpace i.text) (ts := is.map fun i => trimSpace i.text) hH).1] at k3
    simp only [List.map_cons, (lineAt_fits (at_ := at_) (t := trimSpace i.text) (ts := is.map fun i => trimSpace i.text) hH).2]
    refine ⟨?_, f3⟩
    simpa using k3

omit hh hft ht hH in
theorem feed_on {at_ : Nat × ℚ} {sp : List Spot} {s : PState Fpdf} {d : ℚ} (hs : On F at_ sp s) (hf : lineHeight s.eng.font = H) :
    On F (at_.1, at_.2 + H * d) sp { s with eng := Fpdf.lineFeed p d s.eng } where
  page := hs.page
  y := by
    show s.eng.y + Fpdf.fontHeight s.eng * d = _
    rw [hs.y, show Fpdf.fontHeight s.eng = H from hf]
  pos := hs.pos
  outside := hs.outside
  curr := hs.curr
  spots := by
    show spots (s.eng.out ++ [_]) = _
    rw [← hs.spots]
    simp [Spec.spots]

theorem writeLines_on {sty : Styles} {x W : ℚ} : ∀ (lines : List TextLine) (at_ : Nat × ℚ) (sp : List Spot) (s : PState Fpdf) (a : Unit) (s' : PState Fpdf),
    On F at_ sp s → lineHeight s.eng.font = H → (∀ l ∈ lines, LineK (fun sty => Fit F H sty.font) l) →
    writeLines (Fpdf.engine p) (callsAt (Fpdf.engine p) ctx n) sty x W lines s = some (a, s') →
    On F (flowEnd p at_ (lines.map fun l => .line H (H * sty.dim.lineSpacing) (l.items.map (·.text))))
      (sp ++ flowing p at_ (lines.map fun l => .line H (H * sty.dim.lineSpacing) (l.items.map (·.text)))) s' := by
  intro lines
  induction lines with
  | nil =>
    intro at_ sp s a s' hs _ _ hr
    simp only [writeLines, Pure.pure, StateT.pure, Option.some.injEq, Prod.mk.injEq] at hr
    rw [← hr.2]
    simpa [flowEnd, flowing] using hs
  | cons l ls ih =>
    intro at_ sp s a s' hs hf hl hr
    simp only [writeLines] at hr
    obtain ⟨_, s1, g1, hr⟩ := bind_some hr
    obtain ⟨_, s2, g2, hr⟩ := bind_some hr
    obtain ⟨_, s3, g3, hr⟩ := bind_some hr
    have k1 : On F at_ sp s1 ∧ lineHeight s1.eng.font = H := by
      unfold alignLine at g1
      split at g1
      · simp only [upd, Option.some.injEq, Prod.mk.injEq] at g1
        rw [← g1.2]; exact ⟨on_eng hs rfl rfl rfl rfl, hf⟩
      · split at g1
        · simp only [upd, Option.some.injEq, Prod.mk.injEq] at g1
          rw [← g1.2]; exact ⟨on_eng hs rfl rfl rfl rfl, hf⟩
        · split at g1
          · simp only [upd, Option.some.injEq, Prod.mk.injEq] at g1
            rw [← g1.2]; exact ⟨on_eng hs rfl rfl rfl rfl, hf⟩
          · simp only [Pure.pure, StateT.pure, Option.some.injEq, Prod.mk.injEq] at g1
            rw [← g1.2]; exact ⟨hs, hf⟩
    obtain ⟨k2, f2⟩ := writeItems_on hh hft ht hH l.items at_ sp s1 _ s2 k1.1 k1.2 (hl l (by simp)) g2
    simp only [upd, Option.some.injEq, Prod.mk.injEq] at g3
    have k3 := feed_on (p := p) (d := sty.dim.lineSpacing) k2 f2
    have e3 : s3 = { s2 with eng := Fpdf.lineFeed p sty.dim.lineSpacing s2.eng } := by rw [← g3.2]; rfl
    rw [← e3] at k3
    have := ih _ _ s3 a s' k3 (by rw [e3]; exact f2) (fun x hx => hl x (List.mem_cons_of_mem _ hx)) hr
    simp only [List.map_cons, flowEnd, flowing]
    rw [← List.append_assoc, List.map_map]
    exact this

theorem writeHyphLines_on {sty : Styles} {x W : ℚ} : ∀ (lines : List TextLine) (at_ : Nat × ℚ) (sp : List Spot) (s : PState Fpdf) (a : Unit) (s' : PState Fpdf),
    On F at_ sp s → lineHeight s.eng.font = H → (∀ l ∈ lines, LineK (fun sty => Fit F H sty.font) l) →
    writeHyphLines (Fpdf.engine p) (callsAt (Fpdf.engine p) ctx n) sty x W lines s = some (a, s') →
    On F (flowEnd p at_ (lines.map fun l => .line H (H * sty.dim.lineSpacing) (blockTexts l)))
      (sp ++ flowing p at_ (lines.map fun l => .line H (H * sty.dim.lineSpacing) (blockTexts l))) s' := by
  intro lines
  induction lines with
  | nil =>
    intro at_ sp s a s' hs _ _ hr
    simp only [writeHyphLines, Pure.pure, StateT.pure, Option.some.injEq, Prod.mk.injEq] at hr
    rw [← hr.2]
    simpa [flowEnd, flowing] using hs
  | cons l ls ih =>
    intro at_ sp s a s' hs hf hl hr
    simp only [writeHyphLines] at hr
    obtain ⟨_, s1, g1, hr⟩ := bind_some hr
    obtain ⟨_, s2, g2, hr⟩ := bind_some hr
    obtain ⟨_, s3, g3, hr⟩ := bind_some hr
    simp only [upd, Option.some.injEq, Prod.mk.injEq] at g1
    have k1 : On F at_ sp s1 := by rw [← g1.2]; exact on_eng hs rfl rfl rfl rfl
    have f1 : lineHeight s1.eng.font = H := by rw [← g1.2]; exact hf
    have k2 : On F (lineAt p at_ H (blockTexts l)) (sp ++ (blockTexts l).map fun t => ((lineAt p at_ H (blockTexts l)).1, (lineAt p at_ H (blockTexts l)).2, t)) s2 ∧
        lineHeight s2.eng.font = H := by
      unfold writeHyphLine at g2
      by_cases hc : l.items.length < 2 ∨ l.paragraph = true
      · rw [if_pos (by rcases hc with h | h; exact .inl (by omega); exact .inr h)] at g2
        have e : blockTexts l = l.items.map (·.text) := by unfold blockTexts; rw [if_pos hc]
        rw [e, List.map_map]
        exact writeItems_on hh hft ht hH l.items at_ sp s1 _ s2 k1 f1 (hl l (by simp)) g2
      · rw [if_neg (by rintro (h | h); exact hc (.inl (by omega)); exact hc (.inr h))] at g2
        have e : blockTexts l = l.items.map fun i => trimSpace i.text := by unfold blockTexts; rw [if_neg hc]
        rw [e, List.map_map]
        exact writeSpaced_on hh hft ht hH l.items at_ sp s1 _ s2 k1 f1 (hl l (by simp)) g2
    obtain ⟨k2, f2⟩ := k2
    simp only [upd, Option.some.injEq, Prod.mk.injEq] at g3
    have k3 := feed_on (p := p) (d := sty.dim.lineSpacing) k2 f2
    have e3 : s3 = { s2 with eng := Fpdf.lineFeed p sty.dim.lineSpacing s2.eng } := by rw [← g3.2]; rfl
    rw [← e3] at k3
    have := ih _ _ s3 a s' k3 (by rw [e3]; exact f2) (fun x hx => hl x (List.mem_cons_of_mem _ hx)) hr
    simp only [List.map_cons, flowEnd, flowing]
    rw [← List.append_assoc]
    exact this

/-- The lines of a text. -/
theorem writeTextFnc_on {sty : Styles} {iss : List Instr} {at_ : Nat × ℚ} {sp : List Spot} {s s' : PState Fpdf} {a : Unit} (hs : Fit F H sty.font)
    (hst : ∀ st t, .paragraph st t ∈ iss → Fit F H (st.mutatedStyles ctx.classes sty).font) (hk : On F at_ sp s)
    (hr : writeTextFnc (Fpdf.engine p) ctx (callsAt (Fpdf.engine p) ctx n) iss ((Page.mk (printable p)).effectiveWidth sty.dim.width) sty s = some (a, s')) :
    On F (flowEnd p at_ ((linesOn p ctx at_.1 sty iss).map fun ts => .line H (H * sty.dim.lineSpacing) ts))
      (sp ++ flowing p at_ ((linesOn p ctx at_.1 sty iss).map fun ts => .line H (H * sty.dim.lineSpacing) ts)) s' := by
  have hfont : ∀ (sty : Styles) (s : PState Fpdf), Fit F H sty.font → (On F at_ sp s ∧ lineHeight s.eng.font = H) →
      (On F at_ sp (changeFont (Fpdf.engine p) sty.font s) ∧ lineHeight (changeFont (Fpdf.engine p) sty.font s).eng.font = H) :=
    fun sty s hf h => ⟨on_font hf.1 h.1, hf.2⟩
  unfold writeTextFnc at hr
  by_cases hb : sty.align.h = b!"block"
  · rw [if_pos hb] at hr
    unfold writeTextHyphenated at hr
    obtain ⟨_, s1, g1, hr⟩ := bind_some hr
    obtain ⟨_, s2, g2, hr⟩ := bind_some hr
    obtain ⟨lines, s3, g3, hr⟩ := bind_some hr
    obtain ⟨xy, s4, g4, hr⟩ := bind_some hr
    simp only [upd, total, ask, Option.some.injEq, Prod.mk.injEq] at g1 g2 g3 g4
    have k2 : On F at_ sp s2 ∧ lineHeight s2.eng.font = H := by
      rw [← g2.2, ← g1.2]
      exact ⟨on_eng (on_eng hk rfl rfl rfl rfl) rfl rfl rfl rfl, hs.2⟩
    have e3 : (textLinesHyphenated (Fpdf.engine p) ctx.hyphenate ctx.classes iss ((Page.mk (printable p)).effectiveWidth sty.dim.width) sty s2) = (lines, s3) := g3
    obtain ⟨l1, k3⟩ := textLinesHyph_both (p := p) (ctx := ctx) (K := fun sty => Fit F H sty.font)
      (W := (Page.mk (printable p)).effectiveWidth sty.dim.width) hfont hs hst k2
    rw [e3] at l1 k3
    have e : linesOn p ctx at_.1 sty iss = lines.map blockTexts := by
      unfold linesOn
      simp only [if_pos hb]
      rw [show lines = _ from (congrArg Prod.fst e3).symm, textLinesHyph_eq (measures_paper p), wrappedHyph_fill, wideSet_eq,
        show (Fpdf.engine p).currentPage s2.eng = (at_.1 : Int) from congrArg Int.ofNat k2.1.page]
      rfl
    rw [e, List.map_map]
    have e4 : s3 = s4 := g4.2
    subst e4
    exact writeHyphLines_on hh hft ht hH lines at_ sp s3 a s' k3.1 k3.2 l1 hr
  · rw [if_neg hb] at hr
    unfold Model.writeText at hr
    obtain ⟨_, s1, g1, hr⟩ := bind_some hr
    obtain ⟨_, s2, g2, hr⟩ := bind_some hr
    obtain ⟨lines, s3, g3, hr⟩ := bind_some hr
    obtain ⟨xy, s4, g4, hr⟩ := bind_some hr
    simp only [upd, total, ask, Option.some.injEq, Prod.mk.injEq] at g1 g2 g3 g4
    have k2 : On F at_ sp s2 ∧ lineHeight s2.eng.font = H := by
      rw [← g2.2, ← g1.2]
      exact ⟨on_eng (on_eng hk rfl rfl rfl rfl) rfl rfl rfl rfl, hs.2⟩
    have e3 : (textLines (Fpdf.engine p) ctx.classes iss ((Page.mk (printable p)).effectiveWidth sty.dim.width) sty s2) = (lines, s3) := g3
    obtain ⟨l1, k3⟩ := textLines_both (p := p) (ctx := ctx) (K := fun sty => Fit F H sty.font)
      (W := (Page.mk (printable p)).effectiveWidth sty.dim.width) hfont hs hst k2
    rw [e3] at l1 k3
    have e : linesOn p ctx at_.1 sty iss = lines.map fun l => l.items.map (·.text) := by
      unfold linesOn
      simp only [if_neg hb]
      rw [show lines = _ from (congrArg Prod.fst e3).symm, textLines_eq (measures_paper p), wrapped_fill, wideSet_eq,
        show (Fpdf.engine p).currentPage s2.eng = (at_.1 : Int) from congrArg Int.ofNat k2.1.page]
      rfl
    rw [e, List.map_map]
    have e4 : s3 = s4 := g4.2
    subst e4
    exact writeLines_on hh hft ht hH lines at_ sp s3 a s' k3.1 k3.2 l1 hr

end

/-! ### The font that a text leaves -/

theorem linesLoop_leaves {width : ℚ} {sty : Styles} {cs : Classes} : ∀ (iss : List Instr) (acc : List TextLine × TextLine) (s : PState Fpdf),
    (linesLoop (Fpdf.engine p) cs width sty iss acc s).2.curr.font = fontLeft s.curr.font (tokens cs s.eng.page sty iss) := by
  intro iss
  induction iss with
  | nil => intro acc s; rfl
  | cons is iss ih =>
    intro acc s
    have text : ∀ (isty : Styles) (t : Str),
        tokens cs s.eng.page sty (is :: iss) = (wordsOf s.eng.page t).map (fun w => some (isty, w)) ++ tokens cs s.eng.page sty iss →
        (∃ acc', linesLoop (Fpdf.engine p) cs width sty (is :: iss) acc s =
          (if norm (Fpdf.engine p) s.eng t = [] then linesLoop (Fpdf.engine p) cs width sty iss acc s
           else linesLoop (Fpdf.engine p) cs width sty iss acc' (changeFont (Fpdf.engine p) isty.font s))) →
        (linesLoop (Fpdf.engine p) cs width sty (is :: iss) acc s).2.curr.font = fontLeft s.curr.font (tokens cs s.eng.page sty (is :: iss)) := by
      rintro isty t htok ⟨acc', hloop⟩
      have hn : wordsOf s.eng.page t = (split 32 (norm (Fpdf.engine p) s.eng t)).filter (· ≠ []) := by
        rw [wordsOf, piecesOf, ← Verif.Props.C02_exact]; rfl
      rw [hloop, htok]
      show _ = fontOver _ _
      rw [filterMap_somes, fontOver_append]
      by_cases h0 : norm (Fpdf.engine p) s.eng t = []
      · rw [if_pos h0, hn, h0]
        exact ih acc s
      · rw [if_neg h0]
        have h1 := split_norm (s := tr (Fpdf.engine p) s.eng t) h0
        have h2 : wordsOf s.eng.page t ≠ [] := by
          rw [hn]
          exact fun h => split_ne_nil 32 (norm (Fpdf.engine p) s.eng t) (h1.symm.trans h)
        rw [fontOver_same _ _ h2]
        exact ih acc' (changeFont (Fpdf.engine p) isty.font s)
    cases is with
    | textBlock t => exact text sty t rfl ⟨_, rfl⟩
    | paragraph st t => exact text (st.mutatedStyles cs sty) t rfl ⟨_, rfl⟩
    | lineBreak => exact ih _ s
    | _ => exact ih acc s

theorem linesLoopHyph_leaves {hyph : Str → List Str} {width : ℚ} {sty : Styles} {cs : Classes} : ∀ (iss : List Instr) (acc : List TextLine × TextLine) (s : PState Fpdf),
    (linesLoopHyph (Fpdf.engine p) hyph cs width sty iss acc s).2.curr.font = fontLeft s.curr.font (blockTokens cs s.eng.page sty iss) := by
  intro iss
  induction iss with
  | nil => intro acc s; rfl
  | cons is iss ih =>
    intro acc s
    have text : ∀ (isty : Styles) (t : Str),
        blockTokens cs s.eng.page sty (is :: iss) = (piecesOf s.eng.page t).map (fun w => some (isty, w)) ++ blockTokens cs s.eng.page sty iss →
        (∃ acc', linesLoopHyph (Fpdf.engine p) hyph cs width sty (is :: iss) acc s =
          linesLoopHyph (Fpdf.engine p) hyph cs width sty iss acc' (changeFont (Fpdf.engine p) isty.font s)) →
        (linesLoopHyph (Fpdf.engine p) hyph cs width sty (is :: iss) acc s).2.curr.font = fontLeft s.curr.font (blockTokens cs s.eng.page sty (is :: iss)) := by
      rintro isty t htok ⟨acc', hloop⟩
      rw [hloop, htok]
      show _ = fontOver _ _
      rw [filterMap_somes, fontOver_append, fontOver_same _ _ (ws := piecesOf s.eng.page t) (split_ne_nil _ _)]
      exact ih acc' (changeFont (Fpdf.engine p) isty.font s)
    cases is with
    | textBlock t => exact text sty t rfl ⟨_, rfl⟩
    | paragraph st t => exact text (st.mutatedStyles cs sty) t rfl ⟨_, rfl⟩
    | lineBreak => exact ih _ s
    | _ => exact ih acc s

/-- The font of the last item. -/
def fontOfItems (f : Font) (items : List TextItem) : Font := (items.getLast?.map (·.sty.font)).getD f

theorem fontOfItems_cons (f : Font) (i : TextItem) (items : List TextItem) : fontOfItems f (i :: items) = fontOfItems i.sty.font items := by
  unfold fontOfItems
  cases items with
  | nil => rfl
  | cons j js => rw [List.getLast?_cons_cons, List.getLast?_eq_getLast_of_ne_nil (by simp)]; rfl

theorem fontOfItems_append (f : Font) (a b : List TextItem) : fontOfItems f (a ++ b) = fontOfItems (fontOfItems f a) b := by
  induction a generalizing f with
  | nil => rfl
  | cons i a ih => rw [List.cons_append, fontOfItems_cons, fontOfItems_cons, ih]

section
variable (hh : ctx.header = []) (hft : ctx.footer = [])
include hh hft

theorem writeText_font {t : Str} {s s' : PState Fpdf} {a : Unit} (hr : (callsAt (Fpdf.engine p) ctx n).writeText t s = some (a, s')) : s'.curr.font = s.curr.font := by
  cases n with
  | zero => exact absurd hr (by simp [callsAt])
  | succ n =>
    have hr' : runProg (callback (Fpdf.engine p) ctx (callsAt (Fpdf.engine p) ctx n) ctx.header)
        (callback (Fpdf.engine p) ctx (callsAt (Fpdf.engine p) ctx n) ctx.footer) (Fpdf.writeText p t s.eng) s = some (a, s') := hr
    rw [hh, hft] at hr'
    unfold Fpdf.writeText Fpdf.addPage at hr'
    split at hr'
    · split at hr' <;>
      · simp only [Fpdf.andThen, Fpdf.turn, runProg, callback_empty, Option.some.injEq, Prod.mk.injEq] at hr'
        rw [← hr'.2]
    · simp only [runProg, Option.some.injEq, Prod.mk.injEq] at hr'
      rw [← hr'.2]

theorem writeItems_font : ∀ (items : List TextItem) (s : PState Fpdf) (a : Unit) (s' : PState Fpdf),
    writeItems (Fpdf.engine p) (callsAt (Fpdf.engine p) ctx n) items s = some (a, s') → s'.curr.font = fontOfItems s.curr.font items := by
  intro items
  induction items with
  | nil =>
    intro s a s' hr
    simp only [writeItems, Pure.pure, StateT.pure, Option.some.injEq, Prod.mk.injEq] at hr
    rw [← hr.2]; rfl
  | cons i is ih =>
    intro s a s' hr
    simp only [writeItems] at hr
    obtain ⟨_, s1, g1, hr⟩ := bind_some hr
    obtain ⟨_, s2, g2, hr⟩ := bind_some hr
    simp only [changeFontM, Option.some.injEq, Prod.mk.injEq] at g1
    rw [ih s2 a s' hr, writeText_font hh hft g2, ← g1.2, fontOfItems_cons]
    rfl

theorem writeSpaced_font {gap : ℚ} : ∀ (items : List TextItem) (s : PState Fpdf) (a : Unit) (s' : PState Fpdf),
    writeSpaced (Fpdf.engine p) (callsAt (Fpdf.engine p) ctx n) gap items s = some (a, s') → s'.curr.font = fontOfItems s.curr.font items := by
  intro items
  induction items with
  | nil =>
    intro s a s' hr
    simp only [writeSpaced, Pure.pure, StateT.pure, Option.some.injEq, Prod.mk.injEq] at hr
    rw [← hr.2]; rfl
  | cons i is ih =>
    intro s a s' hr
    simp only [writeSpaced] at hr
    obtain ⟨_, s1, g1, hr⟩ := bind_some hr
    obtain ⟨_, s2, g2, hr⟩ := bind_some hr
    obtain ⟨xy, s3, g3, hr⟩ := bind_some hr
    obtain ⟨_, s4, g4, hr⟩ := bind_some hr
    simp only [changeFontM, ask, upd, Option.some.injEq, Prod.mk.injEq] at g1 g3 g4
    rw [ih s4 a s' hr, ← g4.2, ← g3.2, fontOfItems_cons]
    show fontOfItems s2.curr.font is = _
    rw [writeText_font hh hft g2, ← g1.2]
    rfl

theorem writeLines_font {sty : Styles} {x W : ℚ} : ∀ (lines : List TextLine) (s : PState Fpdf) (a : Unit) (s' : PState Fpdf),
    writeLines (Fpdf.engine p) (callsAt (Fpdf.engine p) ctx n) sty x W lines s = some (a, s') → s'.curr.font = fontOfItems s.curr.font (lines.flatMap (·.items)) := by
  intro lines
  induction lines with
  | nil =>
    intro s a s' hr
    simp only [writeLines, Pure.pure, StateT.pure, Option.some.injEq, Prod.mk.injEq] at hr
    rw [← hr.2]; rfl
  | cons l ls ih =>
    intro s a s' hr
    simp only [writeLines] at hr
    obtain ⟨_, s1, g1, hr⟩ := bind_some hr
    obtain ⟨_, s2, g2, hr⟩ := bind_some hr
    obtain ⟨_, s3, g3, hr⟩ := bind_some hr
    simp only [upd, Option.some.injEq, Prod.mk.injEq] at g3
    have k1 : s1.curr.font = s.curr.font := by
      unfold alignLine at g1
      split at g1
      · simp only [upd, Option.some.injEq, Prod.mk.injEq] at g1
        rw [← g1.2]
      · split at g1
        · simp only [upd, Option.some.injEq, Prod.mk.injEq] at g1
          rw [← g1.2]
        · split at g1
          · simp only [upd, Option.some.injEq, Prod.mk.injEq] at g1
            rw [← g1.2]
          · simp only [Pure.pure, StateT.pure, Option.some.injEq, Prod.mk.injEq] at g1
            rw [← g1.2]
    rw [ih s3 a s' hr, ← g3.2, List.flatMap_cons, fontOfItems_append, ← k1, ← writeItems_font hh hft l.items s1 _ s2 g2]

theorem writeHyphLines_font {sty : Styles} {x W : ℚ} : ∀ (lines : List TextLine) (s : PState Fpdf) (a : Unit) (s' : PState Fpdf),
    writeHyphLines (Fpdf.engine p) (callsAt (Fpdf.engine p) ctx n) sty x W lines s = some (a, s') → s'.curr.font = fontOfItems s.curr.font (lines.flatMap (·.items)) := by
  intro lines
  induction lines with
  | nil =>
    intro s a s' hr
    simp only [writeHyphLines, Pure.pure, StateT.pure, Option.some.injEq, Prod.mk.injEq] at hr
    rw [← hr.2]; rfl
  | cons l ls ih =>
    intro s a s' hr
    simp only [writeHyphLines] at hr
    obtain ⟨_, s1, g1, hr⟩ := bind_some hr
    obtain ⟨_, s2, g2, hr⟩ := bind_some hr
    obtain ⟨_, s3, g3, hr⟩ := bind_some hr
    simp only [upd, Option.some.injEq, Prod.mk.injEq] at g1 g3
    have k1 : s1.curr.font = s.curr.font := by rw [← g1.2]
    have k2 : s2.curr.font = fontOfItems s1.curr.font l.items := by
      unfold writeHyphLine at g2
      split at g2
      · exact writeItems_font hh hft l.items s1 _ s2 g2
      · exact writeSpaced_font hh hft l.items s1 _ s2 g2
    rw [ih s3 a s' hr, ← g3.2, List.flatMap_cons, fontOfItems_append, ← k1, ← k2]

omit hh hft in
/-- The words of the lines are all words, so the last one is the last one. -/
theorem fontLeft_items {f : Font} {words : List (Option Word)} {items : List TextItem} (h : items.map (·.sty.font) = (words.filterMap id).map (·.1.font)) :
    fontOfItems (fontLeft f words) items = fontLeft f words := by
  have h1 : (items.getLast?.map (·.sty.font)) = (words.filterMap id).getLast?.map (·.1.font) := by
    rw [← List.getLast?_map, ← List.getLast?_map, h]
  unfold fontOfItems fontLeft
  rw [h1]
  cases (words.filterMap id).getLast? <;> rfl

omit hh hft in
theorem setWords_fonts (ws : List Word) : (setWords ws).map (·.sty.font) = ws.map (·.1.font) := by
  cases ws with
  | nil => rfl
  | cons w ws => simp [setWords]

omit hh hft in
/-- The style of a piece. -/
theorem spells_last {ps : List WPiece} {ws : List Word} (h : Spells ps ws) (f : Font) (first : Bool) :
    (ps.getLast?.map fun q => (q.item first).sty.font).getD f = (ws.getLast?.map (·.1.font)).getD f := by
  have : ∀ (ps : List WPiece) (ws : List Word), Spells ps ws → (ps = [] ↔ ws = []) ∧ (ps.getLast?.map fun q => (q.item first).sty.font) = ws.getLast?.map (·.1.font) := by
    intro ps ws h
    induction h with
    | nil => simp
    | @whole w ps ws _ ih =>
      refine ⟨by simp, ?_⟩
      rcases ps with _ | ⟨a, ps⟩
      · rw [ih.1.mp rfl]; rfl
      · rcases ws with _ | ⟨b, ws⟩
        · simp at ih
        · rw [List.getLast?_cons_cons, List.getLast?_cons_cons]; exact ih.2
    | @broken sty a b ps ws _ ih =>
      refine ⟨by simp, ?_⟩
      rcases ps with _ | ⟨c, ps⟩
      · rw [ih.1.mp rfl]; rfl
      · rcases ws with _ | ⟨d, ws⟩
        · simp at ih
        · rw [List.getLast?_cons_cons, List.getLast?_cons_cons, List.getLast?_cons_cons]; exact ih.2
  rw [(this ps ws h).2]

/-- The font after a text. -/
theorem writeTextFnc_font {sty : Styles} {iss : List Instr} {W : ℚ} {s s' : PState Fpdf} {a : Unit}
    (hr : writeTextFnc (Fpdf.engine p) ctx (callsAt (Fpdf.engine p) ctx n) iss W sty s = some (a, s')) :
    s'.curr.font = fontLeft s.curr.font (wordsOn ctx s.eng.page sty iss) := by
  unfold writeTextFnc at hr
  by_cases hb : sty.align.h = b!"block"
  · rw [if_pos hb] at hr
    unfold writeTextHyphenated at hr
    obtain ⟨_, s1, g1, hr⟩ := bind_some hr
    obtain ⟨_, s2, g2, hr⟩ := bind_some hr
    obtain ⟨lines, s3, g3, hr⟩ := bind_some hr
    obtain ⟨xy, s4, g4, hr⟩ := bind_some hr
    simp only [upd, total, ask, Option.some.injEq, Prod.mk.injEq] at g1 g2 g3 g4
    have e2 : s2.curr = s.curr ∧ s2.eng.page = s.eng.page := by rw [← g2.2, ← g1.2]; exact ⟨rfl, rfl⟩
    have e3 : (textLinesHyphenated (Fpdf.engine p) ctx.hyphenate ctx.classes iss W sty s2) = (lines, s3) := g3
    have k3 : s3.curr.font = fontLeft s.curr.font (wordsOn ctx s.eng.page sty iss) := by
      have := linesLoopHyph_leaves (p := p) (hyph := ctx.hyphenate) (width := W) (sty := sty) (cs := ctx.classes) iss ([], TextLine.empty) s2
      rw [e2.1, e2.2] at this
      rw [show s3 = _ from (congrArg Prod.snd e3).symm]
      unfold wordsOn
      rw [if_pos hb]
      exact this
    rw [writeHyphLines_font hh hft lines s4 a s' hr, ← g4.2, k3]
    have hl : lines = _ := (congrArg Prod.fst e3).symm
    rw [textLinesHyph_eq (measures_paper p)] at hl
    have hpg : (Fpdf.engine p).currentPage s2.eng = (s.eng.page : Int) := by show (s2.eng.page : Int) = _; rw [e2.2]
    rw [hpg] at hl
    have hw : wordsOn ctx s.eng.page sty iss = blockTokens ctx.classes s.eng.page sty iss := by unfold wordsOn; rw [if_pos hb]
    rw [hw]
    generalize blockTokens ctx.classes s.eng.page sty iss = toks at hl
    obtain ⟨vs, h1, h2⟩ := wrappedHyph_spells (hyph := ctx.hyphenate) (mt := p.metric) (width := W) (P := fun v w : Word => v.1 = w.1) (fun _ => rfl) (fun _ => rfl) toks
    have hitem : ∀ (f : Font) (ls : List HLine), fontOfItems f ((ls.map (lineOfH p.metric)).flatMap (·.items)) =
        ((((ls.map (·.1)).flatten).getLast?.map fun q => (q.item true).sty.font)).getD f := by
      intro f ls
      have : ∀ ps : List WPiece, (setPieces ps).map (·.sty.font) = ps.map fun q => (q.item true).sty.font := by
        intro ps
        cases ps with
        | nil => rfl
        | cons q ps => simp only [setPieces, List.map_cons, List.map_map, List.cons.injEq, true_and]; exact List.map_congr_left fun r _ => by cases r <;> rfl
      unfold fontOfItems
      rw [← List.getLast?_map, ← List.getLast?_map, List.map_flatMap, List.flatMap_map, List.map_flatten, List.map_map]
      congr 2
      rw [List.flatMap_def]
      congr 1
      exact List.map_congr_left fun l _ => this l.1
    rw [hl, hitem, spells_last h2]
    have hv : vs.getLast?.map (·.1.font) = (toks.filterMap id).getLast?.map (·.1.font) := by
      rw [← List.getLast?_map, ← List.getLast?_map]
      congr 1
      clear h2
      revert h1
      generalize toks.filterMap id = ws
      intro h1
      induction h1 with
      | nil => rfl
      | @cons v w _ _ e _ ih =>
        have e : v.1 = w.1 := e
        rw [List.map_cons, List.map_cons, ih, e]
    rw [hv]
    unfold fontLeft
    cases (toks.filterMap id).getLast? <;> rfl
  · rw [if_neg hb] at hr
    unfold Model.writeText at hr
    obtain ⟨_, s1, g1, hr⟩ := bind_some hr
    obtain ⟨_, s2, g2, hr⟩ := bind_some hr
    obtain ⟨lines, s3, g3, hr⟩ := bind_some hr
    obtain ⟨xy, s4, g4, hr⟩ := bind_some hr
    simp only [upd, total, ask, Option.some.injEq, Prod.mk.injEq] at g1 g2 g3 g4
    have e2 : s2.curr = s.curr ∧ s2.eng.page = s.eng.page := by rw [← g2.2, ← g1.2]; exact ⟨rfl, rfl⟩
    have e3 : (textLines (Fpdf.engine p) ctx.classes iss W sty s2) = (lines, s3) := g3
    have hw : wordsOn ctx s.eng.page sty iss = tokens ctx.classes s.eng.page sty iss := by unfold wordsOn; rw [if_neg hb]
    have k3 : s3.curr.font = fontLeft s.curr.font (wordsOn ctx s.eng.page sty iss) := by
      have := linesLoop_leaves (p := p) (width := W) (sty := sty) (cs := ctx.classes) iss ([], TextLine.empty) s2
      rw [e2.1, e2.2] at this
      rw [show s3 = _ from (congrArg Prod.snd e3).symm, hw]
      exact this
    rw [writeLines_font hh hft lines s4 a s' hr, ← g4.2, k3]
    have hl : lines = _ := (congrArg Prod.fst e3).symm
    rw [textLines_eq (measures_paper p)] at hl
    have hpg : (Fpdf.engine p).currentPage s2.eng = (s.eng.page : Int) := by show (s2.eng.page : Int) = _; rw [e2.2]
    rw [hpg] at hl
    refine fontLeft_items ?_
    rw [hl, hw, ← wrapped_words (mt := p.metric) (width := W)]
    rw [List.map_flatMap, List.flatMap_map, List.map_flatten, List.flatMap_def]
    congr 1
    exact List.map_congr_left fun ws _ => setWords_fonts ws

end

theorem flowEnd_append (at_ : Nat × ℚ) (a b : List Flow) : flowEnd p at_ (a ++ b) = flowEnd p (flowEnd p at_ a) b := by
  induction a generalizing at_ with
  | nil => rfl
  | cons x a ih => cases x <;> simp only [List.cons_append, flowEnd, ih]

theorem flowing_append (at_ : Nat × ℚ) (a b : List Flow) : flowing p at_ (a ++ b) = flowing p at_ a ++ flowing p (flowEnd p at_ a) b := by
  induction a generalizing at_ with
  | nil => rfl
  | cons x a ih => cases x <;> simp [flowing, flowEnd, ih]

theorem linesOn_nil (page : Nat) (sty : Styles) : linesOn p ctx page sty [] = [] := by
  unfold linesOn
  simp only
  split <;> rfl

section
variable (h : FontSizes ctx F) (hh : ctx.header = []) (hft : ctx.footer = []) (ht : 0 ≤ p.margins.top) (hl : LinesFit p F)
include h hh hft ht hl

theorem renderText_on {st : Styled} {iss : List Instr} {at_ : Nat × ℚ} {sp : List Spot} {s s' : PState Fpdf} {a : Unit}
    (hi : .text st iss ∈ ctx.header ++ ctx.footer ++ ctx.body)
    (hS : ∀ f, F f → let sty := st.mutatedStyles ctx.classes { defaultStyle with font := f }
        ∀ st' t, .paragraph st' t ∈ iss → (st'.mutatedStyles ctx.classes sty).font.pointSize = sty.font.pointSize)
    (hr : renderText (Fpdf.engine p) ctx (callsAt (Fpdf.engine p) ctx n) st iss s = some (a, s')) {f : Font} (hF : F f) (hk : On (· = f) at_ sp s) (hf : s.eng.font = f) :
    let sty := st.mutatedStyles ctx.classes { defaultStyle with font := f }
    let ls := (linesOn p ctx at_.1 sty iss).map (fun ts => Flow.line (lineHeight sty.font) (lineHeight sty.font * sty.dim.lineSpacing) ts)
    let f' := fontLeft f (wordsOn ctx at_.1 sty iss)
    F f' ∧ On (· = f') (flowEnd p at_ ls) (sp ++ flowing p at_ ls) s' ∧ s'.eng.font = f' := by
  have ef : s.curr = { defaultStyle with font := f } := by
    obtain ⟨g, rfl, e⟩ := hk.curr
    exact e
  unfold renderText at hr
  split at hr
  · rename_i h0
    simp only [Pure.pure, StateT.pure, Option.some.injEq, Prod.mk.injEq] at hr
    have e : ∀ sty, fontLeft f (wordsOn ctx at_.1 sty []) = f := by intro sty; unfold wordsOn; split <;> rfl
    rw [← hr.2, List.length_eq_zero_iff.mp h0]
    simp only [linesOn_nil, e, List.map_nil, flowEnd, flowing, List.append_nil]
    exact ⟨hF, hk, hf⟩
  · replace hr := get_bind hr
    obtain ⟨pa, s2, g2, hr⟩ := bind_some hr
    obtain ⟨_, s3, g3, hr⟩ := bind_some hr
    simp only [ask, Option.some.injEq, Prod.mk.injEq] at g2
    rw [← g2.1, ← g2.2, ef] at g3
    have hcf := writeTextFnc_font hh hft g3
    rw [hk.page, show s.curr.font = f by rw [ef]] at hcf
    have h1 : F (st.mutatedStyles ctx.classes { defaultStyle with font := f }).font := h.plain _ hi st .text _ hF
    generalize hsty : st.mutatedStyles ctx.classes { defaultStyle with font := f } = sty at g3 h1 hcf ⊢
    have hw : ∀ st' t, .paragraph st' t ∈ iss → lineHeight (st'.mutatedStyles ctx.classes sty).font = lineHeight sty.font := by
      intro st' t hm
      unfold lineHeight
      have := hS f hF
      simp only [hsty] at this
      rw [this st' t hm]
    have k3 := writeTextFnc_on (F := fun g => g = f ∨ g = sty.font ∨ ∃ st' t, .paragraph st' t ∈ iss ∧ g = (st'.mutatedStyles ctx.classes sty).font) hh hft ht (hl _ h1) (H := lineHeight sty.font) ⟨.inr (.inl rfl), rfl⟩
      (fun st' t hm => ⟨.inr (.inr ⟨st', t, hm, rfl⟩), hw st' t hm⟩) ⟨hk.page, hk.y, hk.pos, hk.outside, ⟨f, .inl rfl, ef⟩, hk.spots⟩ g3
    simp only [resetStyles, Option.some.injEq, Prod.mk.injEq] at hr
    obtain ⟨f', hf', ef'⟩ := k3.curr
    have hF' : F f' := by
      rcases hf' with rfl | rfl | ⟨st', t, hm, rfl⟩
      · exact hF
      · exact h1
      · exact h.plain _ hi st' (.textIn hm .paragraph) _ h1
    intro sty' ls
    have e' : fontLeft f (wordsOn ctx at_.1 sty' iss) = f' := by rw [← hcf, ef']
    rw [e', ← hr.2]
    refine ⟨hF', ?_⟩
    refine ⟨on_eng ⟨k3.page, k3.y, k3.pos, k3.outside, ⟨f', rfl, ef'⟩, k3.spots⟩ rfl rfl rfl rfl, ?_⟩
    show s3.curr.font = f'
    rw [ef']

theorem processInstrs_on : ∀ (iss : List Instr) (_ : ∀ i ∈ iss, i ∈ ctx.header ++ ctx.footer ++ ctx.body) (_ : PlainTexts ctx F iss) (at_ : Nat × ℚ)
    (sp : List Spot) (s : PState Fpdf) (a : Unit) (s' : PState Fpdf) (_ : processInstrs (Fpdf.engine p) ctx (callsAt (Fpdf.engine p) ctx n) iss s = some (a, s'))
    (f : Font) (_ : F f) (_ : On (· = f) at_ sp s) (_ : s.eng.font = f), ∃ f', On (· = f') (flowEnd p at_ (flowsOf p ctx f at_ iss)) (sp ++ flowing p at_ (flowsOf p ctx f at_ iss)) s'
  | [], _, _, at_, sp, s, a, s', hr, f, _, hk, _ => by
    simp only [processInstrs, Pure.pure, StateT.pure, Option.some.injEq, Prod.mk.injEq] at hr
    exact ⟨f, by simpa [flowing, flowEnd, flowsOf] using hr.2 ▸ hk⟩
  | i :: iss, hF, hP, at_, sp, s, a, s', hr, f, hFf, hk, hf => by
    unfold processInstrs at hr
    obtain ⟨_, s1, g1, hr⟩ := bind_some hr
    have ih := fun f' h' at' sp' => processInstrs_on iss (fun j hj => hF j (List.mem_cons_of_mem _ hj)) (fun j hj => hP j (List.mem_cons_of_mem _ hj)) at' sp' s1 a s' hr f' h'
    have hi := hF i (by simp)
    have hp := hP i (by simp)
    have quiet : flowsOf p ctx f at_ (i :: iss) = flowsOf p ctx f at_ iss → On (· = f) at_ sp s1 → s1.eng.font = f →
        ∃ f', On (· = f') (flowEnd p at_ (flowsOf p ctx f at_ (i :: iss))) (sp ++ flowing p at_ (flowsOf p ctx f at_ (i :: iss))) s' := by
      intro hq k1 f1
      rw [hq]
      exact ih f hFf at_ sp k1 f1
    cases i with
    | box st b => exact hp.elim
    | table st rh rows => exact hp.elim
    | font st =>
      simp only [processInstr] at g1
      replace g1 := get_bind g1
      simp only [changeFontM, Option.some.injEq, Prod.mk.injEq] at g1
      have ef : s.curr = { defaultStyle with font := f } := by
        obtain ⟨g, rfl, e⟩ := hk.curr
        exact e
      rw [ef] at g1
      have k1 : On (· = (st.mutatedStyles ctx.classes { defaultStyle with font := f }).font) at_ sp s1 := by
        rw [← g1.2]
        exact ⟨hk.page, hk.y, hk.pos, hk.outside, ⟨_, rfl, by simp only [changeFont, ef]⟩, hk.spots⟩
      exact ih _ (h.plain _ hi st .font _ hFf) at_ sp k1 (by rw [← g1.2]; rfl)
    | lineFeed lines =>
      simp only [processInstr, upd, Option.some.injEq, Prod.mk.injEq] at g1
      have k1 := feed_on (p := p) (d := lines) hk rfl
      rw [show ({ s with eng := Fpdf.lineFeed p lines s.eng } : PState Fpdf) = s1 from g1.2] at k1
      rw [hf] at k1
      obtain ⟨f', h2⟩ := ih f hFf _ sp k1 (by rw [← g1.2]; exact hf)
      refine ⟨f', ?_⟩
      have e : lineAt p at_ 0 [] = at_ := by simp [lineAt]
      simpa [flowsOf, flowEnd, flowing, e] using h2
    | setX x =>
      simp only [processInstr, upd, Option.some.injEq, Prod.mk.injEq] at g1
      exact quiet rfl (by rw [← g1.2]; exact on_eng hk rfl rfl rfl rfl) (by rw [← g1.2]; exact hf)
    | setY y =>
      simp only [processInstr, upd, Option.some.injEq, Prod.mk.injEq] at g1
      have k1 : On (· = f) (at_.1, heightAt p y) sp s1 := by
        rw [← g1.2]
        exact ⟨hk.page, rfl, hk.pos, hk.outside, hk.curr, hk.spots⟩
      obtain ⟨f', h2⟩ := ih f hFf _ sp k1 (by rw [← g1.2]; exact hf)
      exact ⟨f', by simpa [flowsOf, flowEnd, flowing] using h2⟩
    | text st b =>
      obtain ⟨hf', k1, f2⟩ := renderText_on h hh hft ht hl hi hp g1 hFf hk hf
      obtain ⟨f', h2⟩ := ih _ hf' _ _ k1 f2
      refine ⟨f', ?_⟩
      simp only [flowsOf]
      rw [flowEnd_append, flowing_append, ← List.append_assoc]
      exact h2
    | image st src =>
      simp only [processInstr] at g1
      obtain ⟨pa, s2, g2, g1⟩ := bind_some g1
      simp only [ask, Option.some.injEq, Prod.mk.injEq] at g2
      rw [← g2.2] at g1
      unfold renderImage at g1
      cases hd : ctx.describe (ctx.resolve src) with
      | none =>
        simp only [hd, Pure.pure, StateT.pure, Option.some.injEq, Prod.mk.injEq] at g1
        exact quiet rfl (g1.2 ▸ hk) (g1.2 ▸ hf)
      | some d =>
        simp only [hd, Option.some.injEq, Prod.mk.injEq] at g1
        refine quiet rfl ?_ (by rw [← g1.2]; exact hf)
        rw [← g1.2]
        refine ⟨hk.page, hk.y, hk.pos, hk.outside, hk.curr, ?_⟩
        show spots (s.eng.out ++ [_]) = sp
        rw [← hk.spots]
        simp [Spec.spots]
    | grid st rows g =>
      simp only [processInstr] at g1
      have e := renderGrid_at g1
      exact quiet rfl (e ▸ hk) (e ▸ hf)
    | pageBreak =>
      simp only [processInstr] at g1
      obtain ⟨k1, f1⟩ := addPage_on hh hft ht hk g1
      obtain ⟨f', h2⟩ := ih f hFf _ sp k1 (by rw [f1]; exact hf)
      exact ⟨f', by simpa [flowsOf, flowEnd, flowing] using h2⟩
    | _ =>
      simp only [processInstr, Pure.pure, StateT.pure, Option.some.injEq, Prod.mk.injEq] at g1
      exact quiet rfl (g1.2 ▸ hk) (g1.2 ▸ hf)

theorem process_flow {s' : PState Fpdf} {r : PdfResult} (hb : PlainTexts ctx F ctx.body)
    (hr : process (Fpdf.engine p) ctx n (newProcessor (Fpdf.new p)) = some (r, s')) :
    let fl := flowsOf p ctx defaultStyle.font (1, p.margins.top) ctx.body
    spots s'.eng.out = flowing p (1, p.margins.top) fl ∧ s'.eng.page = (flowEnd p (1, p.margins.top) fl).1 := by
  intro fl
  unfold process at hr
  obtain ⟨_, s1, h1, hr⟩ := bind_some hr
  replace hr := get_bind hr
  obtain ⟨_, s2, h2, hr⟩ := bind_some hr
  obtain ⟨_, s3, h3, hr⟩ := bind_some hr
  obtain ⟨_, s4, h4, hr⟩ := bind_some hr
  obtain ⟨failed, s5, h5, hr⟩ := bind_some hr
  simp only [upd, changeFontM, Option.some.injEq, Prod.mk.injEq] at h1 h2
  have e2 : s2 = ⟨{ Fpdf.new p with pageCountAlias := b!"{np}", font := defaultStyle.font, failed := (Fpdf.new p).failed || !p.known defaultStyle.font }, defaultStyle, false⟩ := by
    rw [← h2.2, ← h1.2]; rfl
  have k3 : On (· = defaultStyle.font) (1, p.margins.top) [] s3 ∧ s3.eng.font = defaultStyle.font := by
    cases n with
    | zero => exact absurd h3 (by simp [callsAt])
    | succ n =>
      have h3' : runProg (callback (Fpdf.engine p) ctx (callsAt (Fpdf.engine p) ctx n) ctx.header)
          (callback (Fpdf.engine p) ctx (callsAt (Fpdf.engine p) ctx n) ctx.footer) (Fpdf.addPage p s2.eng) s2 = some ((), s3) := h3
      unfold Fpdf.addPage at h3'
      rw [if_neg (by rw [e2]; simp [Fpdf.new]), hh] at h3'
      simp only [runProg, callback_empty, Fpdf.turn, Option.some.injEq, Prod.mk.injEq] at h3'
      rw [← h3'.2]
      refine ⟨⟨?_, ?_, Nat.succ_pos _, rfl, ?_, ?_⟩, ?_⟩
      · show s2.eng.page + 1 = 1
        rw [e2]; rfl
      · show (if p.margins.top ≥ 0 then p.margins.top else _) = _
        rw [if_pos ht]
      · show Cur _ s2.curr
        rw [e2]; exact ⟨_, rfl, rfl⟩
      · show spots (s2.eng.out ++ [.page]) = []
        rw [e2]; rfl
      · show s2.eng.font = _
        rw [e2]
  obtain ⟨_, k4⟩ := processInstrs_on h hh hft ht hl ctx.body (by simp +contextual) hb _ _ s3 _ s4 h4 _ h.default k3.1 k3.2
  simp only [ask, Option.some.injEq, Prod.mk.injEq] at h5
  rw [h5.2] at k4
  rw [List.nil_append] at k4
  split at hr
  · simp only [Pure.pure, StateT.pure, Option.some.injEq, Prod.mk.injEq] at hr
    rw [← hr.2]
    exact ⟨k4.spots, k4.page⟩
  · have hr' : runProg (callback (Fpdf.engine p) ctx (callsAt (Fpdf.engine p) ctx (n - 1)) ctx.header)
          (callback (Fpdf.engine p) ctx (callsAt (Fpdf.engine p) ctx (n - 1)) ctx.footer) (Fpdf.writePDF s5.eng) s5 = some (r, s') := hr
    rw [hft] at hr'
    simp only [Fpdf.writePDF, runProg, callback_empty, Option.some.injEq, Prod.mk.injEq] at hr'
    rw [← hr'.2]
    exact ⟨k4.spots, k4.page⟩

end

/-! ### Lines at the same distance -/

/-- Where the position is after `j` lines. -/
def evenAt (p : Paper) (d : ℚ) (k : Nat) : Nat → Nat × ℚ
  | 0 => (1, p.margins.top)
  | j + 1 => (1 + j / k, p.margins.top + ((j % k : Nat) : ℚ) * d + d)

theorem lineAt_turn {at_ : Nat × ℚ} {hgt : ℚ} {ts : List Str} (hts : ts ≠ []) (h : p.height - p.margins.bottom < at_.2 + hgt) :
    lineAt p at_ hgt ts = (at_.1 + 1, p.margins.top) := by
  unfold lineAt
  rw [if_pos ⟨hts, h⟩]

theorem lineAt_stay {at_ : Nat × ℚ} {hgt : ℚ} {ts : List Str} (h : at_.2 + hgt ≤ p.height - p.margins.bottom) : lineAt p at_ hgt ts = at_ := by
  unfold lineAt
  rw [if_neg fun x => absurd x.2 (not_lt.mpr h)]

theorem evenAt_line {hgt d : ℚ} {k : Nat} (hd : 0 ≤ d) (hk : PageHolds p hgt d k) (j : Nat) {ts : List Str} (hts : ts ≠ []) :
    lineAt p (evenAt p d k j) hgt ts = (1 + j / k, p.margins.top + ((j % k : Nat) : ℚ) * d) := by
  obtain ⟨k0, k1, k2⟩ := hk
  have small : ∀ m : Nat, m < k → p.margins.top + (m : ℚ) * d + hgt ≤ p.height - p.margins.bottom := by
    intro m hm
    have : (m : ℚ) ≤ k - 1 := by
      have : ((m + 1 : Nat) : ℚ) ≤ k := by exact_mod_cast hm
      push_cast at this
      linarith
    have := mul_le_mul_of_nonneg_right this hd
    linarith
  cases j with
  | zero =>
    have := small 0 k0
    rw [lineAt_stay (by simpa [evenAt] using this)]
    simp [evenAt]
  | succ j =>
    have hjk : j % k < k := Nat.mod_lt _ k0
    by_cases hc : j % k + 1 = k
    · have e : (j + 1) % k = 0 ∧ (j + 1) / k = j / k + 1 := by
        have : j + 1 = k * (j / k + 1) := by
          have := Nat.div_add_mod j k
          rw [Nat.mul_add, Nat.mul_one]
          omega
        rw [this]
        exact ⟨Nat.mul_mod_right _ _, Nat.mul_div_cancel_left _ k0⟩
      have hq : ((j % k : Nat) : ℚ) + 1 = k := by exact_mod_cast hc
      rw [lineAt_turn hts, e.1, e.2]
      · simp [evenAt, add_assoc]
      · show _ < p.margins.top + ((j % k : Nat) : ℚ) * d + d + hgt
        rw [← hq] at k2
        linarith
    · have e : (j + 1) % k = j % k + 1 ∧ (j + 1) / k = j / k := by
        have : j + 1 = (j % k + 1) + k * (j / k) := by
          have := Nat.div_add_mod j k
          omega
        rw [this, Nat.add_mul_mod_self_left, Nat.add_mul_div_left _ _ k0, Nat.mod_eq_of_lt (by omega), Nat.div_eq_of_lt (show j % k + 1 < k by omega)]
        simp
      have := small (j % k + 1) (by omega)
      push_cast at this
      rw [lineAt_stay, e.1, e.2]
      · simp only [evenAt]
        push_cast
        rw [add_mul, one_mul, add_assoc]
      · show p.margins.top + ((j % k : Nat) : ℚ) * d + d + hgt ≤ _
        linarith

theorem flowing_even {hgt d : ℚ} {k : Nat} (hd : 0 ≤ d) (hk : PageHolds p hgt d k) : ∀ (ls : List (List Str)) (j : Nat), (∀ l ∈ ls, l ≠ []) →
    flowing p (evenAt p d k j) (ls.map (.line hgt d)) =
      (ls.zipIdx j).flatMap (fun l => l.1.map fun t => (1 + l.2 / k, p.margins.top + ((l.2 % k : Nat) : ℚ) * d, t)) ∧
    flowEnd p (evenAt p d k j) (ls.map (.line hgt d)) = evenAt p d k (j + ls.length)
  | [], j, _ => ⟨rfl, rfl⟩
  | l :: ls, j, h => by
    obtain ⟨h1, h2⟩ := flowing_even hd hk ls (j + 1) fun x hx => h x (List.mem_cons_of_mem _ hx)
    have e := evenAt_line hd hk j (h l (by simp))
    simp only [List.map_cons, flowing, flowEnd, e, List.zipIdx_cons, List.flatMap_cons, List.length_cons]
    rw [show j + (ls.length + 1) = j + 1 + ls.length by omega]
    exact ⟨congrArg _ h1, h2⟩

end Verif.Proofs
