import Verif.Spec.Neat
import Verif.Props.Inside
import Verif.Props.Laid
import Verif.Props.Bottom
import Verif.Proofs.Words
/-
Property C93: the texts of table cells are inside of the cells (/repo/table.go, /repo/text.go, /repo/process.go, /repo/engine/fpdf.go).
-/
namespace Verif.Props
open Verif.Go Verif.Model Verif.Proofs Verif.Spec

variable {p : Paper} {ctx : Ctx} {n : Nat} {s s' : PState Fpdf} {t : Tab} {H : Mark → Prop}

/-! ### Texts without page numbers -/

private theorem pieces_page {w : Str} (h : ¬ b!"{cp}" <:+: w) (k k' : Int) : piecesOf k w = piecesOf k' w := by
  unfold piecesOf
  rw [replaceAll_none (by decide) h, replaceAll_none (by decide) h]

private theorem blockTokens_still {cs : Classes} {sty : Styles} (k k' : Int) : ∀ (iss : List Instr), (∀ w, .textBlock w ∈ iss → ¬ b!"{cp}" <:+: w) →
    (∀ st w, .paragraph st w ∈ iss → ¬ b!"{cp}" <:+: w) → blockTokens cs k sty iss = blockTokens cs k' sty iss ∧ tokens cs k sty iss = tokens cs k' sty iss
  | [], _, _ => ⟨rfl, rfl⟩
  | i :: iss, h1, h2 => by
    obtain ⟨e1, e2⟩ := blockTokens_still (cs := cs) (sty := sty) k k' iss (fun w hw => h1 w (List.mem_cons_of_mem _ hw)) (fun st w hw => h2 st w (List.mem_cons_of_mem _ hw))
    cases i with
    | textBlock w =>
      have := pieces_page (h1 w (by simp)) k k'
      simp only [blockTokens, tokens, wordsOf, this, e1, e2, and_self]
    | paragraph st w =>
      have := pieces_page (h2 st w (by simp)) k k'
      simp only [blockTokens, tokens, wordsOf, this, e1, e2, and_self]
    | _ => simp only [blockTokens, tokens, e1, e2, and_self]

/-- The height of such a text is the same on all pages. -/
private theorem height_still (hm : Metrics (Fpdf.engine p) ctx.hyphenate p.metric lineHeight) {sty : Styles} {iss : List Instr} {width : ℚ}
    (hc : TextCell p ctx.classes sty iss width) (w : ℚ) (s u : PState Fpdf) :
    (textHeightFnc (Fpdf.engine p) ctx sty iss w u).1 = (textHeightFnc (Fpdf.engine p) ctx sty iss w s).1 := by
  obtain ⟨e1, e2⟩ := blockTokens_still (cs := ctx.classes) (sty := sty) ((Fpdf.engine p).currentPage u.eng) ((Fpdf.engine p).currentPage s.eng) iss hc.noPageBlock
    hc.noPagePara
  unfold textHeightFnc
  split
  · rw [textHeightHyph_one hm hc.words.font, textHeightHyph_one hm hc.words.font, textLinesHyph_eq hm.measures, textLinesHyph_eq hm.measures, e1]
  · rw [textHeight_one hm hc.words.font, textHeight_one hm hc.words.font, textLines_eq hm.measures, textLines_eq hm.measures, e2]

/-! ### One cell, without page breaks -/

/-- The engine as long as texts do not reach the bottom margin. -/
private def here (p : Paper) : Calls Fpdf where
  writeText t s := if s.eng.y + Fpdf.fontHeight s.eng ≤ p.height - p.margins.bottom then some ((), { s with eng := Fpdf.put p t s.eng }) else none
  addPage := fun _ => none

private theorem here_writes (p : Paper) (right : ℚ) : Writes (Fpdf.engine p) (here p) p.metric lineHeight right (p.height - p.margins.bottom) lookOf textsOf where
  xy e := rfl
  font f e := ⟨rfl, rfl⟩
  color f e := ⟨rfl, rfl⟩
  setX x e hx := (writes_fpdf p ⟨[], [], [], [], fun _ => [], id, fun _ => none⟩ 0 right).setX x e hx
  feed n e := (writes_fpdf p ⟨[], [], [], [], fun _ => [], id, fun _ => none⟩ 0 right).feed n e
  write t s _ _ hb := by
    refine ⟨{ s with eng := Fpdf.put p t s.eng }, if_pos hb, rfl, by simp [Fpdf.put, textsOf, lookOf]⟩

/-- Marks were added on this page. -/
private def OnPage (o : List Mark) (k : Nat) (s : PState Fpdf) : Prop := ∃ new, s.eng.out = o ++ new ∧ s.eng.page = k ∧ ∀ m ∈ new, Mark.on m = some k

private theorem onPage_snoc {o : List Mark} {k : Nat} {s s' : PState Fpdf} {m : Mark} (h : OnPage o k s) (ho : s'.eng.out = s.eng.out ++ [m])
    (hp : s'.eng.page = s.eng.page) (hm : Mark.on m = some s.eng.page) : OnPage o k s' := by
  obtain ⟨new, h1, h2, h3⟩ := h
  refine ⟨new ++ [m], by rw [ho, h1, List.append_assoc], hp.trans h2, fun x hx => ?_⟩
  rcases List.mem_append.mp hx with hx | hx
  · exact h3 x hx
  · rw [List.mem_singleton.mp hx, hm, h2]

/-- What is possible without page breaks is what happens. -/
private theorem here_rel (o : List Mark) (k : Nat) : Rel (Fpdf.engine p) (OnPage o k) (fun _ => True) (here p) (callsAt (Fpdf.engine p) ctx (n + 1)) where
  setX _ _ h := h
  setY _ _ h := h
  lineFeed _ s h := onPage_snoc (m := .feed s.eng.page) h rfl rfl rfl
  font _ _ h := h
  changeFont _ _ h := h
  color _ _ h := h
  image src x y w hh s h := onPage_snoc (m := .image s.eng.page src x y w hh) h rfl rfl rfl
  draw cmd s h := by cases cmd <;> exact onPage_snoc (m := .draw s.eng.page _) h rfl rfl rfl
  write t _ s hs a s' h := by
    simp only [here] at h
    by_cases hb : s.eng.y + Fpdf.fontHeight s.eng ≤ p.height - p.margins.bottom
    · rw [if_pos hb] at h
      have hn : ¬ (s.eng.y + Fpdf.fontHeight s.eng > p.height - p.margins.bottom ∧ (!s.eng.inHeaderFooter) = true) := fun h => absurd h.1 (not_lt.mpr hb)
      simp only [Option.some.injEq, Prod.mk.injEq, true_and] at h
      refine ⟨?_, ?_⟩
      · show runProg _ _ (Fpdf.writeText p t s.eng) s = _
        unfold Fpdf.writeText
        rw [if_neg hn, ← h]
        rfl
      · rw [← h]
        exact onPage_snoc (m := .text s.eng.page s.eng.x s.eng.y s.eng.font s.eng.color t) hs rfl rfl rfl
    · rw [if_neg hb] at h; exact absurd h (by simp)
  add := Or.inr fun s _ a s' h => absurd h (by simp [here])

private theorem items_nothing {E : Type} {eng : Engine E} {c : Calls E} {v : Str} {pa : Area} : ∀ (iss : List Instr) (s : PState E), (∀ st is, .box st is ∉ iss) →
    (∀ st src, .image st src ∉ iss) → renderCellItems eng ctx c v pa iss s = some ((), s)
  | [], s, _, _ => rfl
  | i :: iss, s, h1, h2 => by
    have ih := items_nothing (eng := eng) (c := c) (v := v) (pa := pa) iss s (fun st is h => h1 st is (List.mem_cons_of_mem _ h)) (fun st src h => h2 st src (List.mem_cons_of_mem _ h))
    cases i with
    | box st is => exact absurd (by simp) (h1 st is)
    | image st src => exact absurd (by simp) (h2 st src)
    | _ => exact ih

/-- A cell with text only: its marks are on the page, its texts within the padding. -/
private theorem cell_neat (hm : Metrics (Fpdf.engine p) ctx.hyphenate p.metric lineHeight) {pa : Area} {sty : Styles} {iss : List Instr} {width : ℚ}
    (hc : TextCell p ctx.classes sty iss width) (hwidth : pa.x1 - pa.x0 = width)
    (h : renderCell (Fpdf.engine p) ctx (callsAt (Fpdf.engine p) ctx (n + 1)) pa sty iss s = some ((), s'))
    (htall : (textHeightFnc (Fpdf.engine p) ctx sty iss (width - sty.box.padding.left - sty.box.padding.right) s).1
      + sty.box.padding.top + sty.box.padding.bottom ≤ pa.y1 - pa.y0)
    (hx : 0 ≤ pa.x0) (hy : 0 ≤ pa.y0) (hb : pa.y1 ≤ p.height - p.margins.bottom) :
    OnPage s.eng.out s.eng.page s' ∧ ∃ ts, textsOf s'.eng = textsOf s.eng ++ ts ∧
      (∀ t ∈ ts, TextIn p.metric lineHeight (pa.x0 + sty.box.padding.left) (pa.y0 + sty.box.padding.top) (pa.x1 - sty.box.padding.right)
        (pa.y1 - sty.box.padding.bottom) t) ∧
      (1 ≤ sty.dim.lineSpacing → 0 ≤ sty.font.pointSize → ts.Pairwise (TextAfter p.metric lineHeight)) := by
  have hf := frames_fpdf p
  have hr := here_rel (p := p) (ctx := ctx) (n := n) s.eng.out s.eng.page
  have hT := Texts.all ctx.hyphenate
  have hP : OnPage s.eng.out s.eng.page s := ⟨[], by simp, rfl, by simp⟩
  obtain ⟨d2, d3⟩ := draws_kept hf (drawBox pa.x0 pa.y0 pa.x1 pa.y1 sty) s.eng
  by_cases hi : iss = []
  · subst hi
    have h' : renderCell (Fpdf.engine p) ctx (here p) pa sty [] s = some ((), s') := h
    refine ⟨(renderCell_le hr hT pa sty [] s hP _ _ h').2, [], ?_, by simp, fun _ _ => List.Pairwise.nil⟩
    have he : ∀ u : PState Fpdf, u = { s with eng := Fpdf.setX p (pa.x0 + sty.box.padding.left) ((drawBox pa.x0 pa.y0 pa.x1 pa.y1 sty).foldl (fun e c =>
        (Fpdf.engine p).draw c e) s.eng) } → some ((), u) = some ((), s') := by
      rintro u rfl; exact h
    have he := he _ rfl
    simp only [Option.some.injEq, Prod.mk.injEq, true_and] at he
    rw [← he, List.append_nil]
    exact d2
  · obtain ⟨hpl, hpt, hpb⟩ := hc.padding
    have hx' : 0 ≤ pa.x0 + sty.box.padding.left := by linarith
    obtain ⟨s0, s1, h1, start, s2, s3, g0, g1, g2, g3, _, g4, g5⟩ := C55_start (positions_fpdf p) hi hx' h
    have hw := here_writes p (pa.x1 - sty.box.padding.right)
    rw [show pa.width - sty.box.padding.left - sty.box.padding.right = width - sty.box.padding.left - sty.box.padding.right by
      unfold Area.width; rw [hwidth]] at g1 g4
    have o0 := (drawBoxM_le hr pa.x0 pa.y0 pa.x1 pa.y1 sty s hP _ _ g0).2
    have o1 : OnPage s.eng.out s.eng.page s1 := by
      have := textHeight_inv hr ctx.classes iss (width - sty.box.padding.left - sty.box.padding.right) sty s0 o0
      rw [g1] at this
      exact this
    have o2 : OnPage s.eng.out s.eng.page s2 := by rw [g3]; exact o1
    simp only [drawBoxM, upd, Option.some.injEq, Prod.mk.injEq, true_and] at g0
    have e0 : textsOf s0.eng = textsOf s.eng ∧ s0.eng.page = s.eng.page := by
      rw [← g0]; exact ⟨d2, Int.ofNat_inj.mp d3⟩
    obtain ⟨k1, ⟨f, k2⟩, -⟩ := textHeight_kept (ctx := ctx) (iss := iss) (width := width - sty.box.padding.left - sty.box.padding.right) (sty := sty) hm hw s0
    rw [g1] at k1 k2
    simp only at k1 k2
    have still := blockTokens_still (cs := ctx.classes) (sty := sty)
    have hheight := height_still hm hc (width - sty.box.padding.left - sty.box.padding.right) s
    have hstart := cell_start (H := (textHeightFnc (Fpdf.engine p) ctx sty iss (width - sty.box.padding.left - sty.box.padding.right) s).1) g2 (fun h => .inl (hc.block h))
      (fun hnb => by
        have := hheight s0
        rw [show textHeightFnc (Fpdf.engine p) ctx sty iss _ s0 = textHeight (Fpdf.engine p) ctx.classes iss _ sty s0 from if_neg hnb, g1] at this
        exact this) (by linarith)
    have hs0 : 0 ≤ start := by linarith [hstart.1]
    have hl2 : (lookOf s2.eng).x = pa.x0 + sty.box.padding.left ∧ (lookOf s2.eng).y = start := by
      obtain ⟨x, e⟩ := hf.setY start s1.eng hs0
      rw [g3]
      simp only [(hw.setX _ _ hx').1, e, and_self]
    have hp2 : textsOf s2.eng = textsOf s.eng := by
      rw [g3]; simp only [(hw.setX _ _ hx').2, (hf.kept _ _).1, k1, e0.1]
    have hx1 : pa.x0 + sty.box.padding.left + (width - sty.box.padding.left - sty.box.padding.right) = pa.x1 - sty.box.padding.right := by rw [← hwidth]; ring
    obtain ⟨s5, new, r1, r2, r3, r3'⟩ := text_within (s := s2) hm hw
      (by rw [(still _ 1 iss hc.noPageBlock hc.noPagePara).1]; exact hc.words.fits)
      (plain_under ⟨hc.words.font, by rw [(still _ 1 iss hc.noPageBlock hc.noPagePara).1]; exact hc.words.fits⟩ hc.spacing) hc.align (by rw [hl2.1]; exact hx')
      (by linarith [hc.room]) (by rw [hl2.1, hx1]) (by rw [hl2.2, hheight s2]; linarith)
    obtain ⟨r4, r5⟩ := writeTextFnc_le hr hT iss _ sty s2 o2 _ _ r1
    rw [r4, Option.some.injEq, Prod.mk.injEq] at g4
    rw [← g4.2, bind_eq] at g5
    simp only [upd, Option.bind_some] at g5
    rw [items_nothing iss _ hc.noBox hc.noImage, Option.some.injEq, Prod.mk.injEq] at g5
    rw [← g5.2]
    refine ⟨r5, new, ?_, ?_, fun q1 q2 => ?_⟩
    · show textsOf s5.eng = _
      rw [r2, hp2]
    · intro t ht
      have := r3 t ht
      rw [hl2.1, hl2.2, hheight s2, hx1] at this
      exact ⟨this.1, this.2.1, by linarith [this.2.2.1], by linarith [this.2.2.2]⟩
    · have q3 : 0 ≤ lineHeight sty.font := mul_nonneg q2 (by norm_num)
      exact r3' hc.words.font q3 (le_mul_of_one_le_left q3 q1)

/-! ### All cells and pages -/

private theorem turns_on {k : Nat} {ms : List Mark} (h : ∀ m ∈ ms, Mark.on m = some k) : turns ms = 0 :=
  List.count_eq_zero.mpr fun hm => absurd (h _ hm) (by simp [Mark.on])

private theorem neat_append {k : Nat} {es es' : List TEvent} {ms ms' : List Mark} (h : Neat p H t k es ms) (h' : Neat p H t (k + turns ms) es' ms') :
    Neat p H t k (es ++ es') (ms ++ ms') := by
  induction h with
  | done => exact h'
  | page hm hH _ ih =>
    rw [List.append_assoc, List.cons_append]
    refine .page hm hH (ih ?_)
    rwa [turns_append, hm, ← Nat.add_assoc] at h'
  | cell hm _ ih =>
    rw [List.append_assoc, List.cons_append]
    refine .cell hm (ih ?_)
    obtain ⟨_, _, _, h3, _⟩ := hm
    rwa [turns_append, turns_on h3, Nat.zero_add] at h'

/-- The area is where a cell of the table may be. -/
private structure Good (p : Paper) (t : Tab) (id : Nat) (pa : Area) : Prop where
  mem : ∃ i, id ∈ idsOf t i
  auth : isAuthored t id = true
  x : 0 ≤ pa.x0
  y : 0 ≤ pa.y0
  width : pa.x1 - pa.x0 = (t.dim id).1
  height : pa.y1 - pa.y0 = (t.dim id).2
  bottom : pa.y1 ≤ p.height - p.margins.bottom

private theorem neat_cell (hm : Metrics (Fpdf.engine p) ctx.hyphenate p.metric lineHeight) {rh : Int} {pg : Page} {curr : Styles} {st : Styled}
    {rows : List TableRow} {s0 s1 : PState Fpdf} (htr : transformTable (textHeightFnc (Fpdf.engine p) ctx) ctx.classes pg curr st rows s0 = some (t, s1))
    (ht : TextTable p ctx.classes t rh) {id : Nat} {pa : Area} (hg : Good p t id pa)
    (h : renderCell (Fpdf.engine p) ctx (callsAt (Fpdf.engine p) ctx (n + 1)) pa (t.cell id).styles (t.cell id).iss s = some ((), s')) :
    ∃ ms, s'.eng.out = s.eng.out ++ ms ∧ s'.eng.page = s.eng.page ∧ CellPut p t s.eng.page id pa ms := by
  obtain ⟨i, hi⟩ := hg.mem
  have hc := ht.cells i id hi hg.auth
  have htall := C79_tall hm htr hi hg.auth rfl hc.auto (s2 := s0) rfl
  rw [← height_still hm hc _ s0 s] at htall
  obtain ⟨⟨ms, h1, h2, h3⟩, ts, h4, h5, h6⟩ := cell_neat hm hc hg.width h (by rw [hg.height]; exact htall) hg.x hg.y hg.bottom
  obtain ⟨a, b, c1, -, -, c4⟩ := cell_marks h
  have hms : ms = a ++ cellMark t s.eng.page id pa :: b := List.append_cancel_left (h1.symm.trans c1)
  have hts : ms.filterMap (fun | .text _ x y f c w => some (⟨x, y, f, c, w⟩ : TextAt) | _ => none) = ts := by
    unfold textsOf at h4
    rw [h1, List.filterMap_append] at h4
    exact List.append_cancel_left h4
  refine ⟨ms, h1, h2, a, b, hms, h3, fun pg x y f c w hw => ?_, fun pg x y f c w hw => ?_, fun q1 q2 => ?_⟩
  · obtain ⟨d, hd⟩ := c4 _ hw
    exact absurd hd (by simp)
  · refine h5 _ ?_
    rw [← hts]
    exact List.mem_filterMap.mpr ⟨.text pg x y f c w, by rw [hms]; simp [hw], rfl⟩
  · have hts' : ts = b.filterMap (fun | .text _ x y f c w => some (⟨x, y, f, c, w⟩ : TextAt) | _ => none) := by
      rw [← hts, hms, List.filterMap_append, List.filterMap_cons]
      have ha : a.filterMap (fun | .text _ x y f c w => some (⟨x, y, f, c, w⟩ : TextAt) | _ => none) = [] := by
        refine List.filterMap_eq_nil_iff.mpr fun m hm => ?_
        obtain ⟨d, rfl⟩ := c4 _ hm
        rfl
      rw [ha]
      rfl
    have := h6 q1 q2
    rw [hts', List.pairwise_filterMap] at this
    refine this.imp_of_mem fun {m m'} g1 g2 hr => ?_
    have e1 := h3 m (by rw [hms]; simp [g1])
    have e2 := h3 m' (by rw [hms]; simp [g2])
    cases m with
    | text k x y f c w =>
      cases m' with
      | text k' x' y' f' c' w' =>
        simp only [Mark.on, Option.some.injEq] at e1 e2
        exact Or.inr ⟨e1.trans e2.symm, hr _ rfl _ rfl⟩
      | _ => trivial
    | _ => trivial

/-- The marks of a new page: the page break, and those of header and footer. -/
private theorem addPage_only {a : Unit} (h : (callsAt (Fpdf.engine p) ctx n).addPage s = some (a, s')) :
    ∃ more, s'.eng.out = s.eng.out ++ more ∧ ∀ m ∈ more, m = .page ∨ InHeaderFooter p ctx s'.eng.out m := by
  cases n with
  | zero => exact absurd h (by simp [callsAt])
  | succ n =>
    have hh : runProg (callback (Fpdf.engine p) ctx (callsAt (Fpdf.engine p) ctx n) ctx.header) (callback (Fpdf.engine p) ctx (callsAt (Fpdf.engine p) ctx n) ctx.footer)
        (Fpdf.addPage p s.eng) s = some (a, s') := h
    have hturn : ∀ (f : Font) (c : RGB) (e : Fpdf) (s : PState Fpdf),
        runProg (callback (Fpdf.engine p) ctx (callsAt (Fpdf.engine p) ctx n) ctx.header) (callback (Fpdf.engine p) ctx (callsAt (Fpdf.engine p) ctx n) ctx.footer)
          (Fpdf.turn p f c e) s = some (a, s') → ∃ more, s'.eng.out = e.out ++ more ∧ ∀ m ∈ more, m = .page ∨ InHeaderFooter p ctx s'.eng.out m := by
      intro f c e s h
      simp only [Fpdf.turn, runProg] at h
      split at h
      · exact absurd h (by simp)
      · rename_i s1 h1
        simp only [Option.some.injEq, Prod.mk.injEq] at h
        obtain ⟨new, hn⟩ := (callback_out h1).1
        have ho : s'.eng.out = s1.eng.out := by rw [← h.2]
        refine ⟨.page :: new, by rw [ho, ← hn]; simp, fun m hm => ?_⟩
        rcases List.mem_cons.mp hm with rfl | hm
        · exact Or.inl rfl
        · exact Or.inr ⟨n, _, _, s1, new, Or.inl rfl, h1, hn.symm, hm, ho ▸ List.prefix_refl _⟩
    unfold Fpdf.addPage at hh
    split at hh
    · simp only [runProg] at hh
      split at hh
      · exact absurd hh (by simp)
      · rename_i s1 h1
        obtain ⟨new, hn⟩ := (callback_out h1).1
        obtain ⟨more, m1, m2⟩ := hturn _ _ _ _ hh
        have hn' : s1.eng.out = s.eng.out ++ new := hn.symm
        refine ⟨new ++ more, by rw [m1]; show s1.eng.out ++ more = _; rw [hn', List.append_assoc], fun m hm => ?_⟩
        rcases List.mem_append.mp hm with hm | hm
        · exact Or.inr ⟨n, _, _, s1, new, Or.inr rfl, h1, hn.symm, hm, m1 ▸ List.prefix_append _ _⟩
        · exact m2 m hm
    · exact hturn _ _ _ _ hh

private theorem neat_mono {H' : Mark → Prop} (hH : ∀ m, H m → H' m) {k : Nat} {es : List TEvent} {ms : List Mark} (h : Neat p H t k es ms) : Neat p H' t k es ms := by
  induction h with
  | done => exact .done
  | page hm hh _ ih => exact .page hm (fun m hm => (hh m hm).imp id (hH m)) ih
  | cell hm _ ih => exact .cell hm ih

private theorem inHF_mono {out out' : List Mark} {m : Mark} (h : InHeaderFooter p ctx out m) (hp : out <+: out') : InHeaderFooter p ctx out' m := by
  obtain ⟨n, iss, s, s', new, h1, h2, h3, h4, h5⟩ := h
  exact ⟨n, iss, s, s', new, h1, h2, h3, h4, h5.trans hp⟩

private theorem neat_ops (hm : Metrics (Fpdf.engine p) ctx.hyphenate p.metric lineHeight) (hl : 0 ≤ p.margins.left) (htop : 0 ≤ p.margins.top) {rh : Int} {pg : Page}
    {curr : Styles} {st : Styled} {rows : List TableRow} (s0 : PState Fpdf) (o : List Mark) (k : Nat) (t : Tab) :
    SimOps (fun (s : PState Fpdf) (u : PState Fpdf × List TEvent) => u.1 = s ∧ ((∃ s1, transformTable (textHeightFnc (Fpdf.engine p) ctx) ctx.classes pg curr st rows s0 =
          some (t, s1)) → TextTable p ctx.classes t rh → (∀ id pa, .cell id pa ∈ u.2 → Good p t id pa) →
        ∃ new, s.eng.out = o ++ new ∧ s.eng.page = k + turns new ∧ Neat p (InHeaderFooter p ctx s.eng.out) t k u.2 new))
      (tableOps (Fpdf.engine p) ctx (callsAt (Fpdf.engine p) ctx (n + 1)) t) (traced (tableOps (Fpdf.engine p) ctx (callsAt (Fpdf.engine p) ctx (n + 1)) t)) where
  getXY s u h := by rw [← h.1]; rfl
  prevent s u h := by rw [← h.1]; rfl
  setX x s u h := ⟨by rw [← h.1]; rfl, h.2⟩
  setY y s u h := ⟨by rw [← h.1]; rfl, h.2⟩
  add s u s' h e := by
    obtain ⟨rfl, h1⟩ := h
    refine ⟨(s', u.2 ++ [.page ((Fpdf.engine p).getXY s'.eng).2]), by simp only [traced, e, Option.map_some]; rfl, rfl, fun g1 g2 g3 => ?_⟩
    obtain ⟨new, h2, h3, h4⟩ := h1 g1 g2 fun id pa hp => g3 id pa (List.mem_append_left _ hp)
    obtain ⟨q, hq, rfl⟩ := Option.map_eq_some_iff.mp e
    obtain ⟨more, m1, m2, m3⟩ := addPage_marks hl htop hq
    obtain ⟨more', m4, m5⟩ := addPage_only hq
    obtain rfl : more' = more := List.append_cancel_left (m4.symm.trans m1)
    refine ⟨new ++ more', by rw [m1, h2, List.append_assoc], by rw [m2, h3, turns_append, m3]; rfl,
      neat_append (neat_mono (fun m hm => inHF_mono hm (m1 ▸ List.prefix_append _ _)) h4) ?_⟩
    have := Neat.page (p := p) (t := t) (k := k + turns new) (top := ((Fpdf.engine p).getXY q.2.eng).2) m3 m5 .done
    rwa [List.append_nil] at this
  cell pa id s u s' h e := by
    obtain ⟨rfl, h1⟩ := h
    refine ⟨(s', u.2 ++ [.cell id pa]), by simp only [traced, e, Option.map_some], rfl, fun g1 g2 g3 => ?_⟩
    obtain ⟨new, h2, h3, h4⟩ := h1 g1 g2 fun id pa hp => g3 id pa (List.mem_append_left _ hp)
    obtain ⟨q, hq, rfl⟩ := Option.map_eq_some_iff.mp e
    obtain ⟨s1, g1⟩ := g1
    obtain ⟨more, m1, m2, m3⟩ := neat_cell hm g1 g2 (g3 id pa (by simp)) hq
    have m4 : turns more = 0 := by obtain ⟨_, _, _, m3, _⟩ := m3; exact turns_on m3
    rw [h3] at m3
    refine ⟨new ++ more, by rw [m1, h2, List.append_assoc], by rw [m2, h3, turns_append, m4]; rfl,
      neat_append (neat_mono (fun m hm => inHF_mono hm (m1 ▸ List.prefix_append _ _)) h4) ?_⟩
    have := Neat.cell (p := p) (H := InHeaderFooter p ctx q.2.eng.out) (t := t) (k := k + turns new) m3 .done
    rwa [List.append_nil] at this

/-! ### Where the rows are -/

private theorem endY_snoc (y : ℚ) (items : List Item) (it : Item) : endY t y (items ++ [it]) = it.endY t := by
  unfold endY
  rw [List.foldl_append]
  rfl

private theorem endY_append (y : ℚ) (a b : List Item) : endY t y (a ++ b) = endY t (endY t y a) b := by
  unfold endY
  rw [List.foldl_append]

private theorem chained_at {i : Nat} {z : ℚ} {post : List Item} : ∀ (pre : List Item) (y : ℚ),
    (Chained t y (pre ++ .row i z :: post) ∨ Chained t y (pre ++ .header i z :: post)) → z = endY t y pre
  | [], y, h => h.elim (·.1) (·.1)
  | .page top :: pre, y, h => chained_at pre top h
  | .header j z' :: pre, y, h => by
    have hz : z' = y := h.elim (·.1) (·.1)
    have := chained_at pre _ (h.imp (·.2) (·.2))
    rw [this, ← hz]
    rfl
  | .row j z' :: pre, y, h => by
    have hz : z' = y := h.elim (·.1) (·.1)
    have := chained_at pre _ (h.imp (·.2) (·.2))
    rw [this, ← hz]
    rfl

private theorem endY_lower {lo : ℚ} (hh : ∀ r, 0 ≤ heightOf t r) : ∀ (pre : List Item) {post : List Item} {y : ℚ}, lo ≤ y → Chained t y (pre ++ post) →
    (∀ z, .page z ∈ pre → lo ≤ z) → lo ≤ endY t y pre
  | [], _, y, hy, _, _ => hy
  | .page top :: pre, post, y, hy, hc, hp =>
    endY_lower hh pre (post := post) (hp top (by simp)) hc fun z hz => hp z (List.mem_cons_of_mem _ hz)
  | .header j z' :: pre, post, y, hy, hc, hp => by
    have := endY_lower hh pre (post := post) (hy.trans (le_add_of_nonneg_right (hh j))) hc.2 fun z hz => hp z (List.mem_cons_of_mem _ hz)
    rw [← hc.1] at this
    exact this
  | .row j z' :: pre, post, y, hy, hc, hp => by
    have := endY_lower hh pre (post := post) (hy.trans (le_add_of_nonneg_right (hh j))) hc.2 fun z hz => hp z (List.mem_cons_of_mem _ hz)
    rw [← hc.1] at this
    exact this

private theorem before_succ (k : Nat) : heightsBefore t (k + 1) = heightsBefore t k + heightOf t k := by
  unfold heightsBefore
  rw [List.range_succ, List.map_append, List.sum_append]
  simp

private theorem before_mono (hh : ∀ r, 0 ≤ heightOf t r) {a b : Nat} (h : a ≤ b) : heightsBefore t a ≤ heightsBefore t b := by
  induction h with
  | refl => exact le_refl _
  | step _ ih => rw [before_succ]; linarith [hh ‹_›]

/-- Below header rows at the top of a page. -/
private theorem endY_headers (y top : ℚ) : ∀ (m : Nat), endY t y (.page top :: (List.range m).map fun k => .header k (top + heightsBefore t k)) = top + heightsBefore t m
  | 0 => by simp [endY, Item.endY, heightsBefore]
  | m + 1 => by
    rw [List.range_succ, List.map_append, List.map_cons, List.map_nil, ← List.cons_append, endY_snoc, before_succ]
    show top + heightsBefore t m + heightOf t m = _
    ring

/-- The rows of a table are on the page, if each of them fits below the header rows. -/
theorem rows_on {rh : Int} {lo : ℚ} (hh : ∀ r, 0 ≤ heightOf t r) (htop : lo ≤ p.margins.top)
    (ht : ∀ i, ∀ id ∈ idsOf t i, p.margins.top + heightsBefore t (min rh.toNat t.rows.length) + (t.dim id).2 ≤ p.height - p.margins.bottom) {y : ℚ} (hy : lo ≤ y)
    {items : List Item} (hst : TableSteps t rh p.margins.top (p.height - p.margins.bottom) y items) {pre post : List Item} {i : Nat} {z : ℚ}
    (he : items = pre ++ .row i z :: post ∨ items = pre ++ .header i z :: post) :
    lo ≤ z ∧ ∀ id ∈ idsOf t i, z + (t.dim id).2 ≤ p.height - p.margins.bottom := by
  have hz : z = endY t y pre := chained_at pre y (he.imp (fun e => e ▸ hst.chained) (fun e => e ▸ hst.chained))
  refine ⟨?_, fun id hid => ?_⟩
  · rw [hz]
    have hpre : ∀ w, .page w ∈ pre → lo ≤ w := fun w hw => by
      rw [hst.tops w (by rcases he with e | e <;> rw [e] <;> exact List.mem_append_left _ hw)]; exact htop
    rcases he with e | e
    · exact endY_lower hh pre hy (e ▸ hst.chained) hpre
    · exact endY_lower hh pre hy (e ▸ hst.chained) hpre
  · have hlim := ht i id hid
    have key : ∀ (pre' : List Item) (m : Nat), m ≤ min rh.toNat t.rows.length →
        pre = pre' ++ .page p.margins.top :: ((List.range m).map fun k => .header k (p.margins.top + heightsBefore t k)) →
        z + (t.dim id).2 ≤ p.height - p.margins.bottom := by
      intro pre' m hm hp
      rw [hz, hp, endY_append, endY_headers]
      linarith [before_mono hh hm]
    rcases he with e | e
    · rcases hst.fits pre post i z e with h | ⟨pre', h⟩
      · exact h.2 id hid
      · unfold repeated at h
        split at h
        · exact key pre' _ (le_refl _) h
        · exact key pre' 0 (Nat.zero_le _) h
    · obtain ⟨_, _, pre', _, -, -, -, h⟩ := hst.headers pre post i z e
      unfold headersAt at h
      rw [← List.map_take, List.take_range] at h
      exact key pre' _ (Nat.min_le_right _ _) h

private theorem cell_good {y : ℚ} {i : Nat} (hy : 0 ≤ y) (hb : ∀ id ∈ idsOf t i, y + (t.dim id).2 ≤ p.height - p.margins.bottom)
    (hw : ∀ id ∈ idsOf t i, 0 ≤ (t.cell id).width) : ∀ (ids : List Nat) (x : ℚ), (∀ id ∈ ids, id ∈ idsOf t i) → 0 ≤ x →
    ∀ id pa, .cell id pa ∈ cellEvents t y x ids → Good p t id pa
  | [], _, _, _, id, pa, h => by simp [cellEvents] at h
  | a :: ids, x, hm, hx, id, pa, h => by
    unfold cellEvents at h
    rcases List.mem_append.mp h with h | h
    · by_cases ha : isAuthored t a = true
      · rw [if_pos ha] at h
        simp only [List.mem_singleton, TEvent.cell.injEq] at h
        obtain ⟨rfl, rfl⟩ := h
        exact ⟨⟨i, hm _ (by simp)⟩, ha, hx, hy, by simp, by simp, hb _ (hm _ (by simp))⟩
      · rw [if_neg ha] at h; simp at h
    · exact cell_good hy hb hw ids _ (fun id hid => hm id (List.mem_cons_of_mem _ hid)) (add_nonneg hx (hw _ (hm a (by simp)))) id pa h

private theorem neat_breaks {x : ℚ} : ∀ (items : List Item) (k : Nat) (ms : List Mark), Neat p H t k (items.flatMap (Item.events t x)) ms → turns ms = breaks items := by
  have cells : ∀ (y : ℚ) (ids : List Nat) (x : ℚ) (es : List TEvent) (m k : Nat), (∀ k ms, Neat p H t k es ms → turns ms = m) → ∀ ms,
      Neat p H t k (cellEvents t y x ids ++ es) ms → turns ms = m := by
    intro y ids
    induction ids with
    | nil => intro x es m k h ms hn; exact h k ms hn
    | cons a ids ih =>
      intro x es m k h ms hn
      unfold cellEvents at hn
      split at hn
      · cases hn with
        | cell hc hn =>
          obtain ⟨_, _, _, h3, _⟩ := hc
          rw [turns_append, turns_on h3, Nat.zero_add]
          exact ih _ _ _ _ h _ hn
      · exact ih _ _ _ _ h _ hn
  intro items
  induction items with
  | nil => intro k ms h; cases h; rfl
  | cons it items ih =>
    intro k ms h
    rw [List.flatMap_cons] at h
    cases it with
    | page top =>
      cases h with
      | page hm _ hn => rw [turns_append, hm, ih _ _ hn]; exact Nat.add_comm _ _
    | header i y => exact cells y _ _ _ _ _ ih _ h
    | row i y => exact cells y _ _ _ _ _ ih _ h

/-- Rows are not of negative height. -/
theorem heights_nonneg {σ : Type} {m : Measure σ} {cs : Classes} {page : Page} {curr : Styles} {st : Styled} {xrows : List TableRow} {s s' : σ}
    (h : transformTable m cs page curr st xrows s = some (t, s')) (r : Nat) : 0 ≤ heightOf t r := by
  obtain ⟨H0, orig, cws, hl, _, _⟩ := table_laid_of h
  unfold heightOf
  split
  · rename_i row hr
    exact (hl.rowHeights r row hr).1
  · exact le_refl _

/-- C93: a table whose cells hold text only, each row of which fits on a page: its marks are its steps (C92), one after the other; all marks of a cell are on
one page, the one the steps before it lead to, and the texts of the cell are inside its background, within the padding.  There are no page breaks but those
of the steps. -/
theorem C93_table (hm : Metrics (Fpdf.engine p) ctx.hyphenate p.metric lineHeight) (hl : 0 ≤ p.margins.left) (htop : 0 ≤ p.margins.top) (hp : s.prevent = false)
    (hx : 0 ≤ s.eng.x) (hy : 0 ≤ s.eng.y) {st : Styled} {rh : Int} {rows : List TableRow}
    (h : processInstr (Fpdf.engine p) ctx (callsAt (Fpdf.engine p) ctx (n + 1)) (.table st rh rows) s = some ((), s')) {s1 : PState Fpdf}
    (htr : transformTable (textHeightFnc (Fpdf.engine p) ctx) ctx.classes (Page.mk ((Fpdf.engine p).printableArea s.eng)) s.curr st rows s = some (t, s1))
    (ht : TextTable p ctx.classes t rh) (hcol : t.columnCount ≠ 0) :
    ∃ new items, s'.eng.out = s.eng.out ++ new ∧ LaidOut p t rh s.eng s'.eng new items ∧ turns new = breaks items ∧
      Neat p (InHeaderFooter p ctx s'.eng.out) t s.eng.page (items.flatMap (Item.events t s.eng.x)) new := by
  obtain ⟨t', s1', new, h1, h2, h3, -, h5⟩ := table_with (neat_ops (n := n) (rh := rh) (pg := Page.mk ((Fpdf.engine p).printableArea s.eng)) (curr := s.curr) (st := st) (rows := rows)
    hm hl htop s s.eng.out s.eng.page)
    (fun t s1 e1 e2 => ⟨rfl, fun _ _ _ => ⟨[], by simpa using e1, by simpa [turns] using e2, .done⟩⟩) hl htop hp h
  rw [htr] at h1
  simp only [Option.some.injEq, Prod.mk.injEq] at h1
  obtain ⟨rfl, rfl⟩ := h1
  obtain ⟨items, hlo, s5, e1, e2, -, hq⟩ := h5 hcol
  have hh := heights_nonneg htr
  obtain ⟨new', q1, q2, q3⟩ := hq ⟨_, htr⟩ ht (by
    intro id pa hpa
    obtain ⟨it, hit, hev⟩ := List.mem_flatMap.mp hpa
    obtain ⟨pre, post, he⟩ := List.append_of_mem hit
    cases it with
    | page top => simp [Item.events] at hev
    | header i z =>
      obtain ⟨r1, r2⟩ := rows_on hh htop ht.rows hy hlo.steps (Or.inr he)
      exact cell_good r1 r2 (ht.widths i) _ _ (fun _ h => h) hx id pa hev
    | row i z =>
      obtain ⟨r1, r2⟩ := rows_on hh htop ht.rows hy hlo.steps (Or.inl he)
      exact cell_good r1 r2 (ht.widths i) _ _ (fun _ h => h) hx id pa hev)
  obtain rfl : new' = new := List.append_cancel_left (q1.symm.trans (e1.symm.trans h2))
  exact ⟨new', items, h2, hlo, neat_breaks _ _ _ q3, e1 ▸ q3⟩

/-- C93: the same for the tables of the body of a processed document, as C92_document has them. -/
theorem C93_document (hm : Metrics (Fpdf.engine p) ctx.hyphenate p.metric lineHeight) (hl : 0 ≤ p.margins.left) (htop : 0 ≤ p.margins.top) {r : PdfResult}
    (h : process (Fpdf.engine p) ctx n (newProcessor (Fpdf.new p)) = some (r, s')) {pre post : List Instr} {st : Styled} {rh : Int} {rows : List TableRow}
    (hb : ctx.body = pre ++ .table st rh rows :: post) :
    ∃ s s2 t s1 new, Reached p ctx n pre s ∧ Reached p ctx n (pre ++ [.table st rh rows]) s2 ∧
      transformTable (textHeightFnc (Fpdf.engine p) ctx) ctx.classes (Page.mk ((Fpdf.engine p).printableArea s.eng)) s.curr st rows s = some (t, s1) ∧
      s2.eng.out = s.eng.out ++ new ∧ s2.eng.out <+: s'.eng.out ∧
      (t.columnCount ≠ 0 → 0 ≤ s.eng.x → 0 ≤ s.eng.y → TextTable p ctx.classes t rh → ∃ items, LaidOut p t rh s.eng s2.eng new items ∧
        turns new = breaks items ∧ Neat p (InHeaderFooter p ctx s2.eng.out) t s.eng.page (items.flatMap (Item.events t s.eng.x)) new) := by
  obtain ⟨s, s2, t, s1, new, r1, r2, h3, h4, h5, h6, -, -⟩ := C92_document hl htop h hb
  refine ⟨s, s2, t, s1, new, r1, r2, h3, h5, h6, fun hcol hx hy ht => ?_⟩
  obtain ⟨-, s0, a1, a2⟩ := r1
  obtain ⟨-, s0', b1, b2⟩ := r2
  rw [a1] at b1
  simp only [Option.some.injEq, Prod.mk.injEq, true_and] at b1
  subst b1
  rw [C54_in_order, bind_eq, a2] at b2
  simp only [Option.bind_some] at b2
  unfold processInstrs at b2
  obtain ⟨_, s3, b3, b4⟩ := bind_some b2
  have hs3 : s3 = s2 := by
    unfold processInstrs at b4
    simp only [Pure.pure, StateT.pure, Option.some.injEq, Prod.mk.injEq] at b4
    exact b4.2
  subst hs3
  cases n with
  | zero => exact absurd a1 (by simp [callsAt])
  | succ n =>
    have hprev : s.prevent = false := C29_allowed pre (n + 1) (C42_newpage hl htop (n + 1) a1).2.2.2.2 a2
    obtain ⟨new', items, c1, c2, c3, c4⟩ := C93_table hm hl htop hprev hx hy b3 h3 ht hcol
    obtain rfl : new' = new := List.append_cancel_left (c1.symm.trans h5)
    exact ⟨items, c2, c3, c4⟩

/-- C93: each cell of a row is on the page the steps before the row lead to, with all of its texts: all cells of the row are on the same page. -/
theorem C93_cells {x : ℚ} {k : Nat} {items : List Item} {new : List Mark} (h : Neat p H t k (items.flatMap (Item.events t x)) new) {pre post : List Item}
    {i : Nat} {z : ℚ} (he : items = pre ++ .row i z :: post ∨ items = pre ++ .header i z :: post) {id : Nat} {pa : Area}
    (hid : .cell id pa ∈ cellEvents t z x (idsOf t i)) : ∃ a ms b, new = a ++ ms ++ b ∧ CellPut p t (k + breaks pre) id pa ms := by
  have split : ∀ (es es' : List TEvent) (k : Nat) (ms : List Mark), Neat p H t k (es ++ es') ms → ∃ a b, ms = a ++ b ∧ Neat p H t k es a ∧ Neat p H t (k + turns a) es' b := by
    intro es
    induction es with
    | nil => intro es' k ms h; exact ⟨[], ms, rfl, .done, h⟩
    | cons e es ih =>
      intro es' k ms h
      cases h with
      | @page k top es ms ms' hm hH hn =>
        obtain ⟨a, b, rfl, h1, h2⟩ := ih _ _ _ hn
        refine ⟨ms ++ a, b, by rw [List.append_assoc], .page hm hH h1, ?_⟩
        rwa [turns_append, hm, ← Nat.add_assoc]
      | @cell k id pa es ms ms' hm hn =>
        obtain ⟨a, b, rfl, h1, h2⟩ := ih _ _ _ hn
        refine ⟨ms ++ a, b, by rw [List.append_assoc], .cell hm h1, ?_⟩
        obtain ⟨_, _, _, h3, _⟩ := hm
        rwa [turns_append, turns_on h3, Nat.zero_add]
  have hev : items.flatMap (Item.events t x) = pre.flatMap (Item.events t x) ++ (cellEvents t z x (idsOf t i) ++ post.flatMap (Item.events t x)) := by
    rcases he with rfl | rfl <;> simp [Item.events]
  rw [hev] at h
  obtain ⟨a, b, rfl, h1, h2⟩ := split _ _ _ _ h
  obtain ⟨c, d, rfl, h3, -⟩ := split _ _ _ _ h2
  rw [neat_breaks _ _ _ h1] at h3
  obtain ⟨l, l', hl⟩ := List.append_of_mem hid
  have h0 : ∀ e f, c = e ++ f → turns c = turns e + turns f := fun e f h => by rw [h, turns_append]
  have hc0 : turns c = 0 := by
    have := neat_breaks (x := x) [.row i z] (k + breaks pre) c (by simpa [Item.events] using h3)
    exact this
  rw [hl] at h3
  obtain ⟨e, f, rfl, h4, h5⟩ := split _ _ _ _ h3
  have := h0 e f rfl
  rw [show turns e = 0 by omega, Nat.add_zero] at h5
  cases h5 with
  | @cell _ _ _ _ ms ms' hm hn => exact ⟨a ++ e, ms, ms' ++ d, by simp, hm⟩

/-! ### Examples: a page of 100 by 100 with margins of 10, letters 2 wide -/

private def padded : Styled := ⟨[[([6, 0], .flt 0), ([1, 1], .quad ⟨2, 2, 2, 2⟩)]], []⟩
private def textCell (iss : List Instr) : TableCell := .mk padded 1 1 iss

private def neatRows : List TableRow := [.mk padded [textCell [.textBlock b!"one"], textCell [.textBlock b!"two"]],
  .mk padded [textCell [.textBlock b!"a text of words, put on three lines"], textCell []],
  .mk padded [textCell [.textBlock b!"a"], textCell [.textBlock b!"b", .lineBreak, .textBlock b!"c", .lineBreak, .textBlock b!"d"]]]

private def exCtx : Ctx :=
  { classes := [], header := [], footer := [], body := [.setY 60, .table padded 1 neatRows], hyphenate := exHyph, resolve := id, describe := fun _ => none }

private structure Seen where
  page : Nat
  x : ℚ
  y : ℚ
  what : Str ⊕ (ℚ × ℚ)
deriving DecidableEq

private def seen (ms : List Mark) : List Seen := ms.filterMap fun
  | .draw pg (.fillRect x y w h) => some ⟨pg, x, y, .inr (w, h)⟩
  | .text pg x y _ _ w => some ⟨pg, x, y, .inl w⟩
  | _ => none

/-- The third row does not fit: it is on the next page, below the header row. -/
example : (process (Fpdf.engine exPaper) exCtx 2 (newProcessor (Fpdf.new exPaper))).map (fun r => seen r.2.eng.out) =
    some [⟨1, 10, 60, .inr (39, 247/30)⟩, ⟨1, 12, 62, .inl b!"one"⟩, ⟨1, 49, 60, .inr (39, 247/30)⟩, ⟨1, 51, 62, .inl b!"two"⟩,
      ⟨1, 10, 2047/30, .inr (39, 314/15)⟩, ⟨1, 12, 2107/30, .inl b!"a"⟩, ⟨1, 14, 2107/30, .inl b!" text"⟩, ⟨1, 24, 2107/30, .inl b!" of"⟩,
      ⟨1, 30, 2107/30, .inl b!" words,"⟩, ⟨1, 12, 919/12, .inl b!"put"⟩, ⟨1, 18, 919/12, .inl b!" on"⟩, ⟨1, 24, 919/12, .inl b!" three"⟩,
      ⟨1, 12, 1244/15, .inl b!"lines"⟩, ⟨1, 49, 2047/30, .inr (39, 314/15)⟩,
      ⟨2, 10, 10, .inr (39, 247/30)⟩, ⟨2, 12, 12, .inl b!"one"⟩, ⟨2, 49, 10, .inr (39, 247/30)⟩, ⟨2, 51, 12, .inl b!"two"⟩,
      ⟨2, 10, 547/30, .inr (39, 314/15)⟩, ⟨2, 12, 607/30, .inl b!"a"⟩, ⟨2, 49, 547/30, .inr (39, 314/15)⟩,
      ⟨2, 51, 607/30, .inl b!"b"⟩, ⟨2, 51, 319/12, .inl b!"c"⟩, ⟨2, 51, 494/15, .inl b!"d"⟩] := by decide +kernel

/-- Checks the conditions of `TextCell` for texts without paragraphs. -/
def okCell (c : TCell) (width : ℚ) : Bool :=
  let pad := c.styles.box.padding
  (c.iss.all fun | .textBlock w => decide (¬ b!"{cp}" <:+: w) | .lineBreak => true | _ => false) &&
  decide (∀ w ∈ (blockTokens [] 1 c.styles c.iss).filterMap id, spaced exPaper.metric w ≤ width - pad.left - pad.right) &&
  decide (pad.left + pad.right ≤ width) && decide (c.styles.align.h = b!"left" ∨ c.styles.align.h = b!"center" ∨ c.styles.align.h = b!"right" ∨ c.styles.align.h = b!"block") &&
  decide (c.styles.align.h = b!"block" → c.styles.align.v ≠ b!"middle" ∧ c.styles.align.v ≠ b!"bottom") &&
  decide (c.styles.dim.height ≤ 0) && decide (0 ≤ pad.left ∧ 0 ≤ pad.top ∧ 0 ≤ pad.bottom) &&
  decide (0 ≤ c.styles.dim.lineSpacing * lineHeight c.styles.font)

theorem okCell_text {c : TCell} {width : ℚ} (h : okCell c width = true) : TextCell exPaper [] c.styles c.iss width := by
  simp only [okCell, Bool.and_eq_true, List.all_eq_true, decide_eq_true_eq] at h
  obtain ⟨⟨⟨⟨⟨⟨⟨h1, h2⟩, h3⟩, h4⟩, h4'⟩, h5⟩, h6⟩, h7⟩ := h
  exact ⟨fun st is hi => absurd (h1 _ hi) (by simp), fun st src hi => absurd (h1 _ hi) (by simp), fun w hw => of_decide_eq_true (h1 _ hw),
    fun st w hw => absurd (h1 _ hw) (by simp), ⟨fun st w hw => absurd (h1 _ hw) (by simp), h2⟩, h3, h4, h4', h5, h6, h7⟩

def okTable (t : Tab) (rh : Int) : Bool :=
  (List.range t.rows.length).all fun i => (idsOf t i).all fun id => (!isAuthored t id || okCell (t.cell id) (t.dim id).1) && decide (0 ≤ (t.cell id).width) &&
    decide (exPaper.margins.top + heightsBefore t (min rh.toNat t.rows.length) + (t.dim id).2 ≤ exPaper.height - exPaper.margins.bottom)

theorem okTable_text {rh : Int} (h : okTable t rh = true) : TextTable exPaper [] t rh := by
  have hk : ∀ i, ∀ id ∈ idsOf t i, (isAuthored t id = true → okCell (t.cell id) (t.dim id).1 = true) ∧ 0 ≤ (t.cell id).width ∧
      exPaper.margins.top + heightsBefore t (min rh.toNat t.rows.length) + (t.dim id).2 ≤ exPaper.height - exPaper.margins.bottom := by
    intro i id hid
    have hi : i < t.rows.length := by
      by_contra hn
      unfold idsOf at hid
      rw [List.getElem?_eq_none (not_lt.mp hn)] at hid
      simp at hid
    simp only [okTable, List.all_eq_true, List.mem_range, Bool.and_eq_true, Bool.or_eq_true, Bool.not_eq_true', decide_eq_true_eq] at h
    obtain ⟨⟨h1, h2⟩, h3⟩ := h i hi id hid
    exact ⟨fun ha => h1.resolve_left (by simp [ha]), h2, h3⟩
  exact ⟨fun i id hid ha => okCell_text ((hk i id hid).1 ha), fun i id hid => (hk i id hid).2.1, fun i id hid => (hk i id hid).2.2⟩

private theorem neat_run : ((callsAt (Fpdf.engine exPaper) exCtx 2).addPage { eng := Fpdf.changeFont exPaper defaultStyle.font { Fpdf.new exPaper with pageCountAlias := b!"{np}" }, curr := defaultStyle, prevent := false }).bind
      (fun q => (processInstrs (Fpdf.engine exPaper) exCtx (callsAt (Fpdf.engine exPaper) exCtx 2) [.setY 60] q.2).bind fun r =>
        (processInstr (Fpdf.engine exPaper) exCtx (callsAt (Fpdf.engine exPaper) exCtx 2) (.table padded 1 neatRows) r.2).bind fun v =>
        (transformTable (textHeightFnc (Fpdf.engine exPaper) exCtx) [] (Page.mk ((Fpdf.engine exPaper).printableArea r.2.eng)) r.2.curr padded neatRows r.2).map fun u =>
          decide (okTable u.1 1 = true ∧ u.1.columnCount ≠ 0 ∧ r.2.prevent = false ∧ 0 ≤ r.2.eng.x ∧ 0 ≤ r.2.eng.y ∧
            turns r.2.eng.out + 1 = turns v.2.eng.out)) = some true := by decide +kernel

/-- The table meets the conditions. -/
example : ∃ s s2 t s1 new items, Reached exPaper exCtx 2 [.setY 60] s ∧ Reached exPaper exCtx 2 exCtx.body s2 ∧ s2.eng.out = s.eng.out ++ new ∧
    transformTable (textHeightFnc (Fpdf.engine exPaper) exCtx) [] (Page.mk ((Fpdf.engine exPaper).printableArea s.eng)) s.curr padded neatRows s = some (t, s1) ∧
    TextTable exPaper [] t 1 ∧ turns new = 1 ∧ breaks items = 1 ∧ Neat exPaper (InHeaderFooter exPaper exCtx s2.eng.out) t s.eng.page (items.flatMap (Item.events t s.eng.x)) new := by
  obtain ⟨⟨_, s0⟩, h1, hr⟩ := Option.bind_eq_some_iff.mp neat_run
  obtain ⟨⟨_, s⟩, h2, hr⟩ := Option.bind_eq_some_iff.mp hr
  obtain ⟨⟨_, s2⟩, h3, hr⟩ := Option.bind_eq_some_iff.mp hr
  obtain ⟨⟨t, s1⟩, h4, hr⟩ := Option.map_eq_some_iff.mp hr
  obtain ⟨e1, e2, e3, e4, e5, e6⟩ := of_decide_eq_true hr
  have hm : Metrics (Fpdf.engine exPaper) exCtx.hyphenate exPaper.metric lineHeight := metrics_example
  obtain ⟨new, items, c1, c2, c3, c4⟩ := C93_table (ctx := exCtx) (n := 1) hm (by decide +kernel) (by decide +kernel) e3 e4 e5 h3 h4 (okTable_text e1) e2
  have hn : turns new = 1 := by
    have e6 : turns s.eng.out + 1 = turns s2.eng.out := e6
    have c1 : s2.eng.out = s.eng.out ++ new := c1
    rw [c1, turns_append] at e6
    exact (Nat.add_left_cancel e6).symm
  refine ⟨s, s2, t, s1, new, items, ⟨⟨[.table padded 1 neatRows], rfl⟩, s0, h1, h2⟩, ⟨⟨[], (List.append_nil _).symm⟩, s0, h1, ?_⟩, c1, h4, okTable_text e1, hn, c3.symm.trans hn, c4⟩
  have hbody : exCtx.body = [.setY 60] ++ [.table padded 1 neatRows] := rfl
  have hone : processInstrs (Fpdf.engine exPaper) exCtx (callsAt (Fpdf.engine exPaper) exCtx 2) [.table padded 1 neatRows] s = some ((), s2) := by
    unfold processInstrs
    rw [bind_eq, h3]
    rfl
  rw [hbody, C54_in_order, bind_eq, h2, Option.bind_some, hone]

end Verif.Props
