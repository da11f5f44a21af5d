import Verif.Spec.Overlap
import Verif.Props.Tiles
import Verif.Props.Stacked
import Verif.Props.InStep
import Verif.Proofs.PlainTable
import Verif.Props.Frame
import Verif.Props.TableClear
/-
Property C101: in documents with texts, boxes and tables nothing is put over something else.
-/
namespace Verif.Props
open Verif.Go Verif.Model Verif.Spec Verif.Proofs

variable {p : Paper} {ctx : Ctx} {n : Nat} {F : Font → Prop} {t : Tab} {rh : Int} {s s' : PState Fpdf} {a : Unit}

private theorem apart_of {m m' : Mark} (h : ComesAfter p m m') : Apart p m m' := by
  cases m with
  | text k x y f c t =>
    cases m' with
    | text k' x' y' f' c' t' =>
      rcases h with h | ⟨_, h | ⟨_, h⟩⟩
      · exact Or.inl (Nat.ne_of_lt h)
      · exact Or.inr (Or.inl h)
      · exact Or.inr (Or.inr (Or.inr (Or.inl h)))
    | _ => trivial
  | _ => trivial

private theorem separate_of {m m' : Mark} (h : ComesAfter p m m') : Separate p m m' := by
  have ha := apart_of h
  cases m with
  | text k x y f c t =>
    cases m' with
    | text k' x' y' f' c' t' =>
      refine ⟨?_, ha⟩
      rcases h with h | ⟨h, _⟩
      · exact h.le
      · exact h.le
    | _ => trivial
  | _ => trivial

instance : Weaker p (Separate p) := ⟨fun _ _ h => separate_of h⟩

/-! ### Tables -/

private theorem tiles_pages : ∀ (es : List TEvent) (k : Nat), (∀ u ∈ tiles k es, k ≤ u.page) ∧ (tiles k es).Pairwise fun u v => u.page ≤ v.page
  | [], _ => by simp [tiles]
  | .page _ :: es, k => by
    obtain ⟨h1, h2⟩ := tiles_pages es (k + 1)
    exact ⟨fun u hu => by have := h1 u hu; omega, h2⟩
  | .cell id a :: es, k => by
    obtain ⟨h1, h2⟩ := tiles_pages es k
    refine ⟨fun u hu => ?_, List.pairwise_cons.mpr ⟨fun v hv => h1 v hv, h2⟩⟩
    rcases List.mem_cons.mp hu with rfl | hu
    · exact le_refl _
    · exact h1 u hu

private theorem put_ordered {k id : Nat} {a : Area} {ms : List Mark} (h : CellPut p t k id a ms)
    (hl : 1 ≤ (t.cell id).styles.dim.lineSpacing ∧ 0 ≤ (t.cell id).styles.font.pointSize) : ms.Pairwise (ComesAfter p) := by
  obtain ⟨pre, post, rfl, -, h3, -, h5⟩ := h
  have hfirst : ∀ m m' : Mark, (∀ pg x y f c w, m ≠ .text pg x y f c w) → ComesAfter p m m' := by
    intro m m' hm
    cases m with
    | text k x y f c t => exact absurd rfl (hm k x y f c t)
    | _ => trivial
  have hpre : ∀ m ∈ pre, ∀ m', ComesAfter p m m' := fun m hm m' => hfirst m m' fun pg x y f c w e => h3 pg x y f c w (e ▸ hm)
  refine List.pairwise_append.mpr ⟨List.pairwise_of_forall_mem_list fun m hm m' _ => hpre m hm m', List.pairwise_cons.mpr ⟨fun m' _ => ?_, h5 hl.1 hl.2⟩, fun m hm m' _ => hpre m hm m'⟩
  exact hfirst _ m' fun _ _ _ _ _ _ => by simp [cellMark]

private theorem endY_low (hh : ∀ r, 0 ≤ heightOf t r) : ∀ (items : List Item) (y : ℚ), Chained t y items → breaks items = 0 → y ≤ endY t y items
  | [], y, _, _ => le_refl _
  | .page _ :: _, _, _, h => by simp [breaks] at h
  | .header i z :: items, y, hc, h => by
    obtain ⟨rfl, hc⟩ := hc
    exact le_trans (by show z ≤ z + heightOf t i; linarith [hh i]) (endY_low hh items _ hc h)
  | .row i z :: items, y, hc, h => by
    obtain ⟨rfl, hc⟩ := hc
    exact le_trans (by show z ≤ z + heightOf t i; linarith [hh i]) (endY_low hh items _ hc h)

private theorem endY_top (hh : ∀ r, 0 ≤ heightOf t r) {top : ℚ} : ∀ (items : List Item) (y : ℚ), Chained t y items → (∀ z, .page z ∈ items → z = top) → top ≤ y →
    top ≤ endY t y items
  | [], y, _, _, h => h
  | .page z :: items, _, hc, h, _ => endY_top hh items z hc (fun w hw => h w (List.mem_cons_of_mem _ hw)) (le_of_eq (h z (by simp)).symm)
  | .header i z :: items, y, hc, h, hy => by
    obtain ⟨rfl, hc⟩ := hc
    exact endY_top hh items _ hc (fun w hw => h w (List.mem_cons_of_mem _ hw)) (by show top ≤ z + heightOf t i; linarith [hh i])
  | .row i z :: items, y, hc, h, hy => by
    obtain ⟨rfl, hc⟩ := hc
    exact endY_top hh items _ hc (fun w hw => h w (List.mem_cons_of_mem _ hw)) (by show top ≤ z + heightOf t i; linarith [hh i])

/-- A table of text: its cells do not share positions (the conditions of C25), those of the header rows end there, lines are not closer than the font is high,
and there is no negative padding. -/
private structure TidyTable (p : Paper) (cs : Classes) (t : Tab) (rh : Int) : Prop where
  rows : t.rows ≠ []
  texts : TextTable p cs t rh
  right : ∀ i, ∀ id ∈ idsOf t i, isAuthored t id = true → 0 ≤ (t.cell id).styles.box.padding.right
  lines : ∀ i, ∀ id ∈ idsOf t i, isAuthored t id = true → 1 ≤ (t.cell id).styles.dim.lineSpacing ∧ 0 ≤ (t.cell id).styles.font.pointSize
  blocks : NoBlocks t
  clear : RowsClear t
  descending : Descending t
  headers : HeadersEnd t rh

private theorem le_largest : ∀ {l : List ℚ} {x : ℚ}, x ∈ l → x ≤ largest l
  | y :: l, x, h => by
    rcases List.mem_cons.mp h with rfl | h
    · exact le_max_left _ _
    · exact le_trans (le_largest h) (le_max_right _ _)

/-- The conditions on the table of the file, for the one that is laid out. -/
private theorem tidyTable_of {st : Styled} {rows : List TableRow} (hS : TableStacks p ctx F st rh rows) {s s1 : PState Fpdf} {t : Tab}
    (hs : ∃ f, F f ∧ s.curr = { defaultStyle with font := f })
    (h : transformTable (textHeightFnc (Fpdf.engine p) ctx) ctx.classes (Page.mk (printable p)) s.curr st rows s = some (t, s1)) (hcol : t.columnCount ≠ 0) :
    TidyTable p ctx.classes t rh := by
  rw [C122_columns h] at hcol
  obtain ⟨h1, h2, h3, h4, h5⟩ := hS hcol
  obtain ⟨c1, c2, c3, -⟩ := conditions_in h
  obtain ⟨f, hF, e⟩ := hs
  have hq := h5 f hF s.eng.page
  simp only at hq
  rw [← e] at hq
  have hl := congrArg Prod.fst (C123_laid h)
  rw [layTable_reads (C124_paper p ctx s.eng.page) rfl] at hl
  have ew : ∀ w, tableWidth (Page.mk (printable p)) w = wideSet ((printable p).x1 - (printable p).x0) w := fun _ => rfl
  rw [ew] at hl
  rw [← hl] at hq
  have hmem : ∀ i, ∀ id ∈ idsOf t i, ∃ r ∈ t.rows, t.rows[i]? = some r ∧ id ∈ r.cells := by
    intro i id hid
    unfold idsOf at hid
    cases e : t.rows[i]? with
    | none => rw [e] at hid; simp at hid
    | some r => rw [e] at hid; exact ⟨r, List.mem_of_getElem? e, rfl, hid⟩
  have hcell : ∀ i, ∀ id ∈ idsOf t i, isAuthored t id = true → TextCell p ctx.classes (t.cell id).styles (t.cell id).iss (t.dim id).1 ∧
      0 ≤ (t.cell id).styles.box.padding.right ∧ 1 ≤ (t.cell id).styles.dim.lineSpacing ∧ 0 ≤ (t.cell id).styles.font.pointSize := by
    intro i id hid ha
    obtain ⟨r, hr, -, hc⟩ := hmem i id hid
    refine hq.cells _ (List.mem_map.mpr ⟨r, hr, rfl⟩) (t.cell id).width ⟨(t.cell id).styles, (t.cell id).iss, (t.dim id).1, (t.dim id).2⟩ (List.mem_map.mpr ⟨id, hc, ?_⟩)
    unfold isAuthored at ha
    simp only [Bool.and_eq_true, Option.isNone_iff_eq_none, Bool.not_eq_true'] at ha
    rw [ha.1, ha.2]
    simp
  refine ⟨?_, ⟨fun i id hid ha => (hcell i id hid ha).1, fun i id hid => ?_, fun i id hid => ?_⟩, fun i id hid ha => (hcell i id hid ha).2.1,
    fun i id hid ha => (hcell i id hid ha).2.2, c1 h1, c2 h2, c3 h3, fun i hi id hid ha => ?_⟩
  · intro e0
    have := C122_places h
    rw [e0] at this
    rw [← this] at hcol
    exact hcol rfl
  · obtain ⟨r, hr, -, hc⟩ := hmem i id hid
    exact hq.widths _ (List.mem_map.mpr ⟨r, hr, rfl⟩) _ (List.mem_map.mpr ⟨id, hc, rfl⟩)
  · obtain ⟨r, hr, -, hc⟩ := hmem i id hid
    have := hq.fits _ (List.mem_map.mpr ⟨r, hr, rfl⟩)
    simp only [maxCellHeight_largest] at this
    have hle := le_largest (List.mem_map.mpr ⟨id, hc, rfl⟩ : (t.dim id).2 ∈ r.cells.map fun x => (t.dim x).2)
    have hb : ((laidRows t).take rh.toNat |>.map (·.height)).sum = heightsBefore t (min rh.toNat t.rows.length) := by
      unfold heightsBefore
      congr 1
      apply List.ext_getElem
      · simp [laidRows]
      · intro j k1 k2
        simp only [List.length_map, List.length_range] at k2
        have : j < t.rows.length := by omega
        simp only [laidRows, List.getElem_map, List.getElem_take, List.getElem_range]
        unfold heightOf
        rw [List.getElem?_eq_getElem this]
    rw [hb] at this
    linarith
  · obtain ⟨x, hx, c, hc, e1, e2⟩ := authored_row h hid ha
    rw [← e2]
    exact h4 i x hx hi c hc

/-- A table that starts below everything else: afterwards the position is below the table and everything else. -/
private theorem table_tidy (hm : Metrics (Fpdf.engine p) ctx.hyphenate p.metric lineHeight) (hf : FontSizes ctx F) (hl : 0 ≤ p.margins.left) (ht : 0 ≤ p.margins.top)
    {st : Styled} {rows : List TableRow} (hi : .table st rh rows ∈ ctx.header ++ ctx.footer ++ ctx.body) (hS : TableStacks p ctx F st rh rows)
    (hr : processInstr (Fpdf.engine p) ctx (callsAt (Fpdf.engine p) ctx (n + 1)) (.table st rh rows) s = some ((), s')) {fresh : Bool}
    (hk : Idle p ctx (Separate p) F fresh s) (hx : 0 ≤ s.eng.x) (hp : s.prevent = false) : Idle p ctx (Separate p) F false s' ∧ 0 ≤ s'.eng.x := by
  obtain ⟨t, s1, new, g1, g2, g3, g4, -⟩ := C92_table hl ht hp hr
  -- the styles
  have hcur : Cur F s'.curr := by
    obtain ⟨f, hF, e⟩ := hk.rest.curr
    have k1 := (processInstr_K (sizes_closed hf) (curS_calls hf (n + 1)) (sizes_known (iss := [.table st rh rows]) (by simpa using hi)) s
      ⟨trivial, by rw [e]; exact hF⟩ _ _ hr).2
    obtain ⟨f', e'⟩ := (processInstr_K (any_style ctx.classes) (defS_calls (n + 1)) (any_instr [.table st rh rows]) s ⟨f, e⟩ _ _ hr).2
    have := k1.2
    rw [e'] at this
    exact ⟨f', this, e'⟩
  have hstep : InStep s' := C89_after (i := .table st rh rows) trivial hr
  have hfont : 0 ≤ lineHeight s'.eng.font := by
    obtain ⟨f, hF, e⟩ := hcur
    rw [hstep.1, e]
    exact mul_nonneg (hf.size _ hF) (by norm_num)
  by_cases hcol : t.columnCount = 0
  · obtain ⟨rfl, e1, e2⟩ := g4 hcol
    rw [List.append_nil] at g2
    have e3 : s'.eng.page = s.eng.page := by simpa [turns] using g3
    refine ⟨⟨⟨order_same hk.rest.order g2, own_same hk.rest.above g2 fun m hm => ?_, by rw [e2]; exact hk.rest.top, hcur⟩, hfont, by simp⟩, by rw [e1]; exact hx⟩
    rw [e2]
    cases m with
    | text pg x y f c w => unfold Over at hm ⊢; rw [e3]; exact hm
    | _ => trivial
  have hT := tidyTable_of hS hk.rest.curr g1 hcol
  have hy0 : 0 ≤ s.eng.y := ht.trans hk.rest.top
  obtain ⟨new', items, c1, c2, c3, c4⟩ := C93_table hm hl ht hp hx hy0 hr g1 hT.texts hcol
  obtain rfl : new' = new := List.append_cancel_left (c1.symm.trans g2)
  have hh := heights_nonneg g1
  obtain ⟨parts, q1, q2, q3, q4, q5⟩ := parts_apart g1 hT.blocks hT.clear hT.descending hT.headers hT.texts hT.right c2.steps c4
  have hmem : ∀ u ms, (some u, ms) ∈ parts → u ∈ tiles s.eng.page (items.flatMap (Item.events t s.eng.x)) := by
    intro u ms hu
    rw [← q2]
    exact List.mem_filterMap.mpr ⟨_, hu, rfl⟩
  have htop := endY_top hh items _ c2.steps.chained c2.steps.tops hk.rest.top
  have hy : s'.eng.y = endY t s.eng.y items := c2.below (ht.trans htop)
  have hpg : s'.eng.page = s.eng.page + breaks items := by rw [g3, c3]
  -- texts of the table: on which pages, and where
  have hown : ∀ m ∈ new', InHeaderFooter p ctx s'.eng.out m ∨ ∀ pg x y f c w, m = .text pg x y f c w → s.eng.page ≤ pg ∧ pg ≤ s'.eng.page ∧
      (pg = s.eng.page → s.eng.y ≤ y) ∧ (pg = s'.eng.page → y + lineHeight f ≤ s'.eng.y) := by
    intro m hm
    rw [q1] at hm
    obtain ⟨ms, hms, hm⟩ := List.mem_flatten.mp hm
    obtain ⟨⟨u, ms'⟩, hq, rfl⟩ := List.mem_map.mp hms
    cases u with
    | none =>
      rcases (q3 _ hq).2 m hm with rfl | h
      · exact Or.inr (by simp)
      · exact Or.inl h
    | some u =>
      right
      rintro pg x y f c w rfl
      obtain ⟨e, i1, i2, i3, i4⟩ := (q4 u _ hq).2.2 _ _ _ _ _ _ hm
      obtain ⟨b1, b2, b3, b4⟩ := C99_between g1 hT.headers c2.steps (hmem u _ hq)
      subst e
      rw [hpg, hy]
      exact ⟨b1, b2, fun h => le_trans (b3 h) i3, fun h => le_trans i4 (b4 h)⟩
  have horder : new'.Pairwise fun m m' => Separate p m m' ∨ InHeaderFooter p ctx s'.eng.out m ∨ InHeaderFooter p ctx s'.eng.out m' := by
    rw [q1]
    refine List.pairwise_flatten.mpr ⟨fun ms hms => ?_, List.pairwise_map.mpr ?_⟩
    · obtain ⟨⟨u, ms'⟩, hq, rfl⟩ := List.mem_map.mp hms
      cases u with
      | none =>
        refine List.pairwise_of_forall_mem_list fun m hm m' _ => ?_
        rcases (q3 _ hq).2 m hm with rfl | h
        · exact Or.inl (by cases m' <;> trivial)
        · exact Or.inr (Or.inl h)
      | some u =>
        obtain ⟨w1, ⟨i, w2, w3⟩, -⟩ := q4 u _ hq
        exact (put_ordered w1 (hT.lines i u.id w2 w3)).imp fun h => Or.inl (separate_of h)
    · have hpages := (tiles_pages (items.flatMap (Item.events t s.eng.x)) s.eng.page).2
      rw [← q2] at hpages
      refine ((List.pairwise_filterMap.mp hpages).and q5).imp_of_mem ?_
      rintro ⟨u, ms⟩ ⟨v, ms'⟩ hq hq' ⟨hR, ha⟩ m hm m' hm'
      cases u with
      | none =>
        rcases (q3 _ hq).2 m hm with rfl | h
        · exact Or.inl (by cases m' <;> trivial)
        · exact Or.inr (Or.inl h)
      | some u =>
        cases v with
        | none =>
          rcases (q3 _ hq').2 m' hm' with rfl | h
          · exact Or.inl (by cases m <;> trivial)
          · exact Or.inr (Or.inr h)
        | some v =>
          left
          have := ha rfl rfl m hm m' hm'
          cases m with
          | text pg x y f c w =>
            cases m' with
            | text pg' x' y' f' c' w' =>
              refine ⟨?_, this⟩
              rw [((q4 u _ hq).2.2 _ _ _ _ _ _ hm).1, ((q4 v _ hq').2.2 _ _ _ _ _ _ hm').1]
              exact hR u rfl v rfl
            | _ => trivial
          | _ => trivial
  have hpre : s.eng.out <+: s'.eng.out := c1 ▸ List.prefix_append _ _
  refine ⟨⟨⟨?_, ?_, ?_, hcur⟩, hfont, by simp⟩, by rw [c2.left hT.rows hx]; exact hx⟩
  · refine order_append hk.rest.order c1 horder fun m hm m' hm' => ?_
    rcases hk.rest.above m hm with h | h
    · exact Or.inr (Or.inl (hf_mono h hpre))
    · rcases hown m' hm' with h' | h'
      · exact Or.inr (Or.inr h')
      · left
        refine separate_of ?_
        cases m with
        | text pg x y f c w =>
          cases m' with
          | text pg' x' y' f' c' w' =>
            obtain ⟨b1, -, b3, -⟩ := h' _ _ _ _ _ _ rfl
            rcases h with h | ⟨h, hh⟩
            · exact Or.inl (by omega)
            · by_cases he : pg' = s.eng.page
              · exact Or.inr ⟨by omega, Or.inl (hh.trans (b3 he))⟩
              · exact Or.inl (by omega)
          | _ => trivial
        | _ => trivial
  · intro m hm
    rw [c1] at hm
    rcases List.mem_append.mp hm with hm | hm
    · refine (hk.rest.above m hm).imp (fun h => hf_mono h hpre) fun h => ?_
      cases m with
      | text pg x y f c w =>
        by_cases hb : breaks items = 0
        · rcases h with h | ⟨h, h'⟩
          · exact Or.inl (by omega)
          · exact Or.inr ⟨by omega, by rw [hy]; exact h'.trans (endY_low hh items _ c2.steps.chained hb)⟩
        · rcases h with h | ⟨h, _⟩
          · exact Or.inl (by omega)
          · exact Or.inl (by omega)
      | _ => trivial
    · refine (hown m hm).imp id fun h => ?_
      cases m with
      | text pg x y f c w =>
        obtain ⟨-, b2, -, b4⟩ := h _ _ _ _ _ _ rfl
        rcases Nat.lt_or_ge pg s'.eng.page with h | h
        · exact Or.inl h
        · exact Or.inr ⟨by omega, b4 (by omega)⟩
      | _ => trivial
  · rw [hy]; exact htop

/-! ### The horizontal position -/

private theorem lines_x {c : Calls Fpdf} {sty : Styles} {xl W : ℚ} : ∀ (lines : List TextLine) (s : PState Fpdf),
    writeLines (Fpdf.engine p) c sty xl W lines s = some (a, s') → s'.eng.x = s.eng.x ∨ s'.eng.x = p.margins.left
  | [], s, h => by
    simp only [writeLines, Pure.pure, StateT.pure, Option.some.injEq, Prod.mk.injEq] at h
    rw [h.2]; exact Or.inl rfl
  | l :: lines, s, h => by
    unfold writeLines at h
    obtain ⟨_, s1, _, h⟩ := bind_some h
    obtain ⟨_, s2, _, h⟩ := bind_some h
    obtain ⟨_, s3, g, h⟩ := bind_some h
    simp only [upd, Option.some.injEq, Prod.mk.injEq] at g
    have e : s3.eng.x = p.margins.left := by rw [← g.2]; rfl
    exact Or.inr ((lines_x lines s3 h).elim (fun q => q.trans e) id)

private theorem hyphLines_x {c : Calls Fpdf} {sty : Styles} {xl W : ℚ} : ∀ (lines : List TextLine) (s : PState Fpdf),
    writeHyphLines (Fpdf.engine p) c sty xl W lines s = some (a, s') → s'.eng.x = s.eng.x ∨ s'.eng.x = p.margins.left
  | [], s, h => by
    simp only [writeHyphLines, Pure.pure, StateT.pure, Option.some.injEq, Prod.mk.injEq] at h
    rw [h.2]; exact Or.inl rfl
  | l :: lines, s, h => by
    unfold writeHyphLines at h
    obtain ⟨_, s1, _, h⟩ := bind_some h
    obtain ⟨_, s2, _, h⟩ := bind_some h
    obtain ⟨_, s3, g, h⟩ := bind_some h
    simp only [upd, Option.some.injEq, Prod.mk.injEq] at g
    have e : s3.eng.x = p.margins.left := by rw [← g.2]; rfl
    exact Or.inr ((hyphLines_x lines s3 h).elim (fun q => q.trans e) id)

private theorem text_x {c : Calls Fpdf} {sty : Styles} {iss : List Instr} {W : ℚ} (h : writeTextFnc (Fpdf.engine p) ctx c iss W sty s = some (a, s')) :
    s'.eng.x = s.eng.x ∨ s'.eng.x = p.margins.left := by
  unfold writeTextFnc at h
  split at h
  · unfold writeTextHyphenated at h
    obtain ⟨_, s1, g1, h⟩ := bind_some h
    obtain ⟨_, s2, g2, h⟩ := bind_some h
    obtain ⟨lines, s3, g3, h⟩ := bind_some h
    obtain ⟨xy, s4, g4, h⟩ := bind_some h
    simp only [upd, total, ask, Option.some.injEq, Prod.mk.injEq] at g1 g2 g3 g4
    have e2 : s2.eng.x = s.eng.x := by rw [← g2.2, ← g1.2]; rfl
    have := (textLinesHyph_both (p := p) (ctx := ctx) (K := fun _ => True) (P := fun s' => s'.eng.x = s.eng.x) (W := W) (sty := sty) (iss := iss)
      (fun _ _ _ h => h) trivial (fun _ _ _ => trivial) e2).2
    have e3 : (textLinesHyphenated (Fpdf.engine p) ctx.hyphenate ctx.classes iss W sty s2) = (lines, s3) := g3
    rw [e3, g4.2] at this
    rw [← this]
    exact hyphLines_x lines s4 h
  · unfold Model.writeText at h
    obtain ⟨_, s1, g1, h⟩ := bind_some h
    obtain ⟨_, s2, g2, h⟩ := bind_some h
    obtain ⟨lines, s3, g3, h⟩ := bind_some h
    obtain ⟨xy, s4, g4, h⟩ := bind_some h
    simp only [upd, total, ask, Option.some.injEq, Prod.mk.injEq] at g1 g2 g3 g4
    have e2 : s2.eng.x = s.eng.x := by rw [← g2.2, ← g1.2]; rfl
    have := (textLines_both (p := p) (ctx := ctx) (K := fun _ => True) (P := fun s' => s'.eng.x = s.eng.x) (W := W) (sty := sty) (iss := iss)
      (fun _ _ _ h => h) trivial (fun _ _ _ => trivial) e2).2
    have e3 : (textLines (Fpdf.engine p) ctx.classes iss W sty s2) = (lines, s3) := g3
    rw [e3, g4.2] at this
    rw [← this]
    exact lines_x lines s4 h

private theorem height_x {sty : Styles} {iss : List Instr} {W : ℚ} : (textHeightFnc (Fpdf.engine p) ctx sty iss W s).2.eng.x = s.eng.x := by
  unfold textHeightFnc
  split
  · exact (textLinesHyph_both (p := p) (ctx := ctx) (s := { s with eng := (Fpdf.engine p).changeFont sty.font s.eng }) (K := fun _ => True)
      (P := fun s' => s'.eng.x = s.eng.x) (W := W) (sty := sty) (iss := iss) (fun _ _ _ h => h) trivial (fun _ _ _ => trivial) rfl).2
  · exact (textLines_both (p := p) (ctx := ctx) (s := { s with eng := (Fpdf.engine p).changeFont sty.font s.eng }) (K := fun _ => True)
      (P := fun s' => s'.eng.x = s.eng.x) (W := W) (sty := sty) (iss := iss) (fun _ _ _ h => h) trivial (fun _ _ _ => trivial) rfl).2

private theorem box_x (hl : 0 ≤ p.margins.left) (ht : 0 ≤ p.margins.top) {st : Styled} {iss : List Instr} {pa : Area} (hx : 0 ≤ s.eng.x)
    (ho : 0 ≤ (st.mutatedStyles ctx.classes s.curr).dim.offsetX + (st.mutatedStyles ctx.classes s.curr).box.padding.left)
    (hr : renderTextBox (Fpdf.engine p) ctx (callsAt (Fpdf.engine p) ctx n) st iss pa s = some (a, s')) : 0 ≤ s'.eng.x := by
  unfold renderTextBox at hr
  replace hr := get_bind hr
  generalize st.mutatedStyles ctx.classes s.curr = sty at hr ho
  generalize hW : boxWidth sty pa = W at hr
  obtain ⟨height, s2, g2, hr⟩ := bind_some hr
  obtain ⟨xy, s3, g3, hr⟩ := bind_some hr
  obtain ⟨_, s4, g4, hr⟩ := bind_some hr
  obtain ⟨_, s5, g5, hr⟩ := bind_some hr
  obtain ⟨_, s6, g6, hr⟩ := bind_some hr
  have hr : ((if iss.length > 0 then writeTextFnc (Fpdf.engine p) ctx (callsAt (Fpdf.engine p) ctx n) iss W sty else pure ()) >>= fun _ =>
      upd ((Fpdf.engine p).setY (xy.2 + sty.dim.offsetY + height + sty.box.padding.top + sty.box.padding.bottom)) >>= fun _ =>
      resetStyles (Fpdf.engine p)) s6 = some (a, s') := by
    rw [← hr]
    split <;> rfl
  obtain ⟨_, s7, g7, hr⟩ := bind_some hr
  obtain ⟨_, s8, g8, hr⟩ := bind_some hr
  have e2 : s2.eng.x = s.eng.x := by
    unfold boxHeight at g2
    split at g2
    · split at g2
      · simp only [total, Option.some.injEq] at g2
        have := congrArg (fun q => q.2.eng.x) g2
        simp only at this
        rw [← this]
        exact height_x
      · simp only [ask, Option.some.injEq, Prod.mk.injEq] at g2
        rw [← g2.2]
    · simp only [Pure.pure, StateT.pure, Option.some.injEq, Prod.mk.injEq] at g2
      rw [← g2.2]
  have e3 : 0 ≤ xy.1 := by
    unfold boxStart at g3
    replace g3 := get_bind g3
    split at g3
    · obtain ⟨_, s9, q1, q2⟩ := bind_some g3
      simp only [ask, Option.some.injEq, Prod.mk.injEq] at q2
      have := (C42_newpage hl ht n q1).2.1
      rw [q2.1] at this
      rw [this]
      exact hl
    · simp only [Pure.pure, StateT.pure, Option.some.injEq, Prod.mk.injEq] at g3
      rw [← g3.1]
      show 0 ≤ s2.eng.x
      rw [e2]; exact hx
  simp only [upd, Option.some.injEq, Prod.mk.injEq] at g6 g8
  have e6 : 0 ≤ s6.eng.x := by
    rw [← g6.2]
    show 0 ≤ (if xy.1 + sty.dim.offsetX + sty.box.padding.left ≥ 0 then _ else _ : ℚ)
    rw [if_pos (by linarith)]
    linarith
  have e7 : 0 ≤ s7.eng.x := by
    split at g7
    · rcases text_x g7 with h | h
      · rw [h]; exact e6
      · rw [h]; exact hl
    · simp only [Pure.pure, StateT.pure, Option.some.injEq, Prod.mk.injEq] at g7
      rw [← g7.2]; exact e6
  have e8 : 0 ≤ s8.eng.x := by
    rw [← g8.2]
    show 0 ≤ (if s7.eng.x ≥ 0 then s7.eng.x else _ : ℚ)
    rw [if_pos e7]; exact e7
  simp only [resetStyles, Option.some.injEq, Prod.mk.injEq] at hr
  rw [← hr.2]
  exact e8

/-! ### Documents -/

private theorem tidy_cons {fresh : Bool} {i : Instr} {is : List Instr} (hl : Tidy p ctx F fresh (i :: is)) :
    ((∃ st rh rows, i = .table st rh rows ∧ TableStacks p ctx F st rh rows) ∨ Stacked p ctx F fresh [i]) ∧ Tidy p ctx F (freshAfter fresh i) is ∧
    (∀ x, i = .setX x → 0 ≤ x) ∧ ∀ st iss, i = .box st iss → BoxTidy ctx F st iss := by
  cases i with
  | text st iss => exact ⟨Or.inr ⟨hl.1, trivial⟩, hl.2, by simp, by simp⟩
  | box st iss => exact ⟨Or.inr ⟨hl.1.1, trivial⟩, hl.2, by simp, fun _ _ e => by obtain ⟨rfl, rfl⟩ := Instr.box.inj e; exact hl.1⟩
  | table st rh rows => exact ⟨Or.inl ⟨_, _, _, rfl, hl.1⟩, hl.2, by simp, by simp⟩
  | setX x => exact ⟨Or.inr trivial, hl.2, fun _ e => by obtain rfl := Instr.setX.inj e; exact hl.1, by simp⟩
  | setY y => exact ⟨Or.inr ⟨hl.1, hl.2.1, trivial⟩, hl.2.2, by simp, by simp⟩
  | lineFeed k => exact ⟨Or.inr ⟨hl.1, trivial⟩, hl.2, by simp, by simp⟩
  | _ => exact ⟨Or.inr trivial, hl, by simp, by simp⟩

section
variable (hm : Metrics (Fpdf.engine p) ctx.hyphenate p.metric lineHeight) (hsp : Spaces p 0) (hl : 0 ≤ p.margins.left) (ht : 0 ≤ p.margins.top) (hw : 0 ≤ p.width)
  (hf : FontSizes ctx F)
include hm hsp hl ht hw hf

private theorem instr_tidy {i : Instr} {is : List Instr} (hi : i ∈ ctx.header ++ ctx.footer ++ ctx.body) {fresh : Bool} (hT : Tidy p ctx F fresh (i :: is))
    (hr : processInstr (Fpdf.engine p) ctx (callsAt (Fpdf.engine p) ctx (n + 1)) i s = some ((), s')) (hk : Idle p ctx (Separate p) F fresh s) (hx : 0 ≤ s.eng.x)
    (hp : s.prevent = false) : Idle p ctx (Separate p) F (freshAfter fresh i) s' ∧ 0 ≤ s'.eng.x := by
  obtain ⟨h1, -, h3, h4⟩ := tidy_cons hT
  rcases h1 with ⟨st, rh, rows, rfl, hS⟩ | hS
  · exact table_tidy hm hf hl ht hi hS hr hk hx hp
  · refine ⟨processInstr_stack hf hsp ht hw hi hS hr hk, ?_⟩
    cases i with
    | text st iss =>
      simp only [processInstr] at hr
      unfold renderText at hr
      split at hr
      · simp only [Pure.pure, StateT.pure, Option.some.injEq, Prod.mk.injEq] at hr
        rw [← hr.2]; exact hx
      · replace hr := get_bind hr
        obtain ⟨pa, s1, g1, hr⟩ := bind_some hr
        obtain ⟨_, s2, g2, hr⟩ := bind_some hr
        simp only [ask, resetStyles, Option.some.injEq, Prod.mk.injEq] at g1 hr
        rw [← hr.2]
        show 0 ≤ s2.eng.x
        rcases text_x g2 with h | h
        · rw [h, ← g1.2]; exact hx
        · rw [h]; exact hl
    | box st iss =>
      simp only [processInstr] at hr
      obtain ⟨pa, s1, g1, hr⟩ := bind_some hr
      simp only [ask, Option.some.injEq, Prod.mk.injEq] at g1
      rw [← g1.2] at hr
      refine box_x hl ht hx ?_ hr
      obtain ⟨f, hF, e⟩ := hk.rest.curr
      rw [e]
      exact (h4 st iss rfl).2 f hF
    | table st rh rows => exact absurd hS (by simp [Stacked])
    | font st =>
      simp only [processInstr] at hr
      replace hr := get_bind hr
      simp only [changeFontM, Option.some.injEq, Prod.mk.injEq] at hr
      rw [← hr.2]; exact hx
    | lineFeed k =>
      simp only [processInstr, upd, Option.some.injEq, Prod.mk.injEq] at hr
      rw [← hr.2]; exact hl
    | setX x =>
      simp only [processInstr, upd, Option.some.injEq, Prod.mk.injEq] at hr
      rw [← hr.2]
      show 0 ≤ (if x ≥ 0 then x else _ : ℚ)
      rw [if_pos (h3 x rfl)]; exact h3 x rfl
    | setY y =>
      simp only [processInstr, upd, Option.some.injEq, Prod.mk.injEq] at hr
      rw [← hr.2]
      show 0 ≤ (if s.eng.x ≥ 0 then s.eng.x else _ : ℚ)
      rw [if_pos hx]; exact hx
    | image st src =>
      simp only [processInstr] at hr
      obtain ⟨pa, s2, g2, hr⟩ := bind_some hr
      simp only [ask, Option.some.injEq, Prod.mk.injEq] at g2
      rw [← g2.2] at hr
      unfold renderImage at hr
      cases hd : ctx.describe (ctx.resolve src) with
      | none =>
        simp only [hd, Pure.pure, StateT.pure, Option.some.injEq, Prod.mk.injEq] at hr
        rw [← hr.2]; exact hx
      | some d =>
        simp only [hd, Option.some.injEq, Prod.mk.injEq] at hr
        rw [← hr.2]; exact hx
    | grid st rows g =>
      simp only [processInstr] at hr
      rw [renderGrid_at hr]; exact hx
    | pageBreak =>
      simp only [processInstr] at hr
      have := (C42_newpage hl ht _ hr).2.1
      have := congrArg Prod.fst this
      have : s'.eng.x = p.margins.left := this
      rw [this]; exact hl
    | _ =>
      simp only [processInstr, Pure.pure, StateT.pure, Option.some.injEq, Prod.mk.injEq] at hr
      rw [← hr.2]; exact hx

private theorem instrs_tidy : ∀ (iss : List Instr) (_ : ∀ i ∈ iss, i ∈ ctx.header ++ ctx.footer ++ ctx.body) (fresh : Bool)
    (_ : Tidy p ctx F fresh iss) (s : PState Fpdf) (s' : PState Fpdf) (_ : processInstrs (Fpdf.engine p) ctx (callsAt (Fpdf.engine p) ctx (n + 1)) iss s = some ((), s'))
    (_ : Idle p ctx (Separate p) F fresh s) (_ : 0 ≤ s.eng.x) (_ : s.prevent = false), Order p ctx (Separate p) s'.eng
  | [], _, _, _, s, s', hr, hk, _, _ => by
    simp only [processInstrs, Pure.pure, StateT.pure, Option.some.injEq, Prod.mk.injEq] at hr
    exact hr.2 ▸ hk.rest.order
  | i :: iss, hF, fresh, hT, s, s', hr, hk, hx, hp => by
    unfold processInstrs at hr
    obtain ⟨_, s1, g1, hr⟩ := bind_some hr
    obtain ⟨k1, k2⟩ := instr_tidy hm hsp hl ht hw hf (hF i (by simp)) hT g1 hk hx hp
    have hp1 : s1.prevent = false := by
      refine C29_allowed [i] (n + 1) hp (s' := s1) (eng := Fpdf.engine p) (ctx := ctx) ?_
      unfold processInstrs
      rw [bind_eq, g1]
      rfl
    exact instrs_tidy iss (fun j hj => hF j (List.mem_cons_of_mem _ hj)) _ (tidy_cons hT).2.1 s1 s' hr k1 k2 hp1

/-- C101: in a document of texts, boxes and tables of text, with line spacings of 1 or more, a single size in each text, boxes as high as their words, and no moves
upwards, texts of the body are on pages in the order in which they come, and no text of the body is put over another one, whether in tables or not.  Texts of the
header and the footer are put where these want. -/
theorem C101_follows (hb : Tidy p ctx F true ctx.body) {r : PdfResult} (hr : process (Fpdf.engine p) ctx n (newProcessor (Fpdf.new p)) = some (r, s')) :
    s'.eng.out.Pairwise fun m m' => Separate p m m' ∨ InHeaderFooter p ctx s'.eng.out m ∨ InHeaderFooter p ctx s'.eng.out m' := by
  refine process_order (Rl := Separate p) hf ht (fun s s4 h3 hk s' h4 => ?_) hr
  cases n with
  | zero => exact absurd h3 (by simp [callsAt])
  | succ n =>
    obtain ⟨-, c2, -, -, c5⟩ := C42_newpage hl ht _ h3
    have : s4.eng.x = p.margins.left := congrArg Prod.fst c2
    exact instrs_tidy hm hsp hl ht hw hf ctx.body (by simp +contextual) true hb s4 s' h4 hk (by rw [this]; exact hl) c5

/-- C101: without header and footer no two texts of the document overlap. -/
theorem C101_apart (hb : Tidy p ctx F true ctx.body) (hh : ctx.header = []) (hft : ctx.footer = []) {r : PdfResult}
    (hr : process (Fpdf.engine p) ctx n (newProcessor (Fpdf.new p)) = some (r, s')) : s'.eng.out.Pairwise (Separate p) := by
  refine (C101_follows hm hsp hl ht hw hf hb hr).imp fun h => ?_
  rcases h with h | h | h
  · exact h
  · exact absurd h (C98_nothing hh hft _ _)
  · exact absurd h (C98_nothing hh hft _ _)

end

/-! ### Examples: a page of 100 by 100 with margins of 10, letters 2 wide -/

private def plain : Styled := ⟨[], []⟩
private def padded : Styled := ⟨[[([6, 0], .flt 0), ([1, 1], .quad ⟨2, 2, 2, 2⟩)]], []⟩
private def word (c r : Int) (w : Str) : TableCell := .mk padded c r [.textBlock w]

/-- A header row with a cell over two columns, a cell over two rows below, and a last row that does not fit. -/
private def overRows : List TableRow := [.mk padded [word 2 1 b!"head", word 1 1 b!"three"],
  .mk padded [word 1 2 b!"both rows", word 1 1 b!"a", word 1 1 b!"b"], .mk padded [word 1 1 b!"c", word 1 1 b!"d"],
  .mk padded [word 1 1 b!"e", .mk padded 1 1 [.textBlock b!"f", .lineBreak, .textBlock b!"ff"], word 1 1 b!"g"]]

/-- Below a text, a table that goes on on the next page; below it a box and a text. -/
private def exBody : List Instr :=
  [.setY 50, .text plain [.textBlock b!"before {cp}"], .lineFeed 1, .table padded 1 overRows, .box padded [.textBlock b!"in a box"], .text plain [.textBlock b!"after"]]

private def exDoc (header footer : List Instr) : Ctx :=
  { classes := [], header := header, footer := footer, body := exBody, hyphenate := exHyph, resolve := id, describe := fun _ => none }

private def exHF : Ctx := exDoc [.setY 2, .text plain [.textBlock b!"page {cp}"]] [.setY 95, .text plain [.textBlock b!"end"]]

private def run (ctx : Ctx) : Option (PdfResult × PState Fpdf) := process (Fpdf.engine exPaper) ctx 2 (newProcessor (Fpdf.new exPaper))

private structure Seen where
  page : Nat
  x : ℚ
  y : ℚ
  text : Str
deriving DecidableEq

private def seen (ms : List Mark) : List Seen := ms.filterMap fun
  | .text pg x y _ _ w => some ⟨pg, x, y, w⟩
  | _ => none

private abbrev dflt (f : Font) : Prop := f = defaultStyle.font

private theorem exPaper_spaces0 : Spaces exPaper 0 where
  nonneg := exPaper_spaces.nonneg
  space f w := by have := exPaper_spaces.space f w; linarith
  wide := exPaper_spaces.wide
  trims := exPaper_spaces.trims

private theorem keeps_font {st : Styled} (h : st = plain ∨ st = padded) :
    (∀ sty, (st.mutatedStyles [] sty).font = sty.font) ∧ ∀ sel sty, (st.mutatedStylesWithSelector sel [] sty).font = sty.font := by
  rcases h with rfl | rfl <;> exact ⟨fun _ => rfl, fun _ _ => rfl⟩

private theorem rows_words : ∀ r ∈ overRows, r.st = padded ∧ ∀ c ∈ r.cells, c.st = padded ∧ PlainWords c.iss := by
  intro r hr
  simp only [overRows, List.mem_cons, List.not_mem_nil, or_false] at hr
  have one : ∀ w : Str, ¬ b!"{cp}" <:+: w → PlainWords [.textBlock w] := fun w hw i hi => .inl ⟨w, List.mem_singleton.mp hi, hw⟩
  rcases hr with rfl | rfl | rfl | rfl <;> refine ⟨rfl, fun c hc => ?_⟩ <;> simp only [TableRow.cells, List.mem_cons, List.not_mem_nil, or_false] at hc
  · rcases hc with rfl | rfl <;> exact ⟨rfl, one _ (by decide +kernel)⟩
  · rcases hc with rfl | rfl | rfl <;> exact ⟨rfl, one _ (by decide +kernel)⟩
  · rcases hc with rfl | rfl <;> exact ⟨rfl, one _ (by decide +kernel)⟩
  · rcases hc with rfl | rfl | rfl
    · exact ⟨rfl, one _ (by decide +kernel)⟩
    · refine ⟨rfl, fun i hi => ?_⟩
      simp only [TableCell.iss, List.mem_cons, List.not_mem_nil, or_false] at hi
      rcases hi with rfl | rfl | rfl
      · exact .inl ⟨_, rfl, by decide +kernel⟩
      · exact .inr rfl
      · exact .inl ⟨_, rfl, by decide +kernel⟩
    · exact ⟨rfl, one _ (by decide +kernel)⟩

private theorem ex_styles {i : Instr} (hi : i ∈ exHF.header ++ exHF.footer ++ exBody) {st : Styled} (hs : StyleIn st i) : st = plain ∨ st = padded := by
  have none' : ∀ {iss : List Instr}, PlainWords iss ∨ (∃ t, iss = [.textBlock t]) → ∀ j ∈ iss, ¬ StyleIn st j := by
    intro iss hiss j hj h
    rcases hiss with hiss | ⟨t, rfl⟩
    · rcases hiss j hj with ⟨t, rfl, -⟩ | rfl <;> nomatch h
    · rw [List.mem_singleton.mp hj] at h
      nomatch h
  simp only [exHF, exDoc, exBody, List.mem_append, List.mem_cons, List.not_mem_nil, or_false] at hi
  have htext : ∀ {t : Str}, StyleIn st (.text plain [.textBlock t]) → st = plain ∨ st = padded := by
    intro t h
    cases h with
    | text => exact .inl rfl
    | textIn hi h => exact absurd h (none' (.inr ⟨_, rfl⟩) _ hi)
  rcases hi with ((rfl | rfl) | rfl | rfl) | rfl | rfl | rfl | rfl | rfl | rfl
  · nomatch hs
  · exact htext hs
  · nomatch hs
  · exact htext hs
  · nomatch hs
  · exact htext hs
  · nomatch hs
  · cases hs with
    | table => exact .inr rfl
    | row h => exact .inr (rows_words _ h).1
    | cell h h' => exact .inr ((rows_words _ h).2 _ h').1
    | cellIn h h' hi hs => exact absurd hs (none' (.inl ((rows_words _ h).2 _ h').2) _ hi)
  · cases hs with
    | box => exact .inr rfl
    | boxIn hi h => exact absurd h (none' (.inr ⟨_, rfl⟩) _ hi)
  · exact htext hs

private theorem ex_fonts {header footer : List Instr} (h : ∀ i ∈ header ++ footer, i ∈ exHF.header ++ exHF.footer) : FontSizes (exDoc header footer) dflt := by
  have hi : ∀ i ∈ (exDoc header footer).header ++ (exDoc header footer).footer ++ (exDoc header footer).body, i ∈ exHF.header ++ exHF.footer ++ exBody := by
    intro i hi
    rcases List.mem_append.mp hi with hi | hi
    · exact List.mem_append_left _ (h i hi)
    · exact List.mem_append_right _ hi
  exact ⟨rfl, fun i hm st hs sty hF => by rw [show (exDoc header footer).classes = [] from rfl, (keeps_font (ex_styles (hi i hm) hs)).1]; exact hF,
    fun i hm st hs sel sty hF => by rw [show (exDoc header footer).classes = [] from rfl, (keeps_font (ex_styles (hi i hm) hs)).2]; exact hF,
    fun f hf => by rw [hf]; decide +kernel⟩

/-- The conditions on the rows of a table. -/
private def okRows (rh : Int) (rows : List SetRow) : Bool :=
  rows.all fun r => (r.cells.all fun x => decide (0 ≤ x.1) && match x.2 with
    | none => true
    | some c => okCell { TCell.new with styles := c.sty, iss := c.iss } c.width && decide (0 ≤ c.sty.box.padding.right ∧ 1 ≤ c.sty.dim.lineSpacing ∧ 0 ≤ c.sty.font.pointSize)) &&
    decide (exPaper.margins.top + ((rows.take rh.toNat).map (·.height)).sum + r.reach ≤ exPaper.height - exPaper.margins.bottom)

private theorem okRows_tidy {rows : List SetRow} (h : okRows rh rows = true) : TidyRows exPaper [] rh rows := by
  simp only [okRows, List.all_eq_true, Bool.and_eq_true, decide_eq_true_eq] at h
  refine ⟨fun r hr w c hc => ?_, fun r hr x hx => ((h r hr).1 x hx).1, fun r hr => (h r hr).2⟩
  have := ((h r hr).1 _ hc).2
  simp only [Bool.and_eq_true, decide_eq_true_eq] at this
  exact ⟨okCell_text this.1, this.2⟩

private theorem height_page {ctx : Ctx} {k : Nat} {sty : Styles} {iss : List Instr} {w : ℚ} (h : PlainWords iss) : heightOn exPaper ctx k sty iss w = plainHeight exPaper ctx sty iss w := by
  rw [← height_plain h { newProcessor (Fpdf.new exPaper) with eng := { Fpdf.new exPaper with page := k } }]
  exact ((C124_paper exPaper ctx k sty iss w _ rfl).1).symm

private theorem ex_table {header footer : List Instr} : TableStacks exPaper (exDoc header footer) dflt padded 1 overRows := by
  intro _
  have hspan : ∀ a, extent (rowSpanOf overRows a) ≤ 2 := by
    intro a
    by_cases ha : a < 10
    · have : ∀ a < 10, extent (rowSpanOf overRows a) ≤ 2 := by decide +kernel
      exact this a ha
    · unfold rowSpanOf
      rw [List.getElem?_eq_none (not_lt.mp ha)]
      decide
  refine ⟨by unfold NoBlocksIn; decide +kernel, fun i r x y hx hy => ?_, fun i j i' j' a b _ _ h1 h2 _ => ?_, fun i x hx => ?_, fun f hf k => ?_⟩
  · have key : ∀ p ∈ overRows.zipIdx, ∀ q ∈ overRows.zipIdx, p.2 < q.2 → ∀ c ∈ p.1.cells, ∀ d ∈ q.1.cells, q.2 < p.2 + extent c.rowSpan → d.colSpan ≤ 1 := by decide +kernel
    exact key (x, i) (List.mem_zipIdx_iff_getElem?.mpr hx) (y, r) (List.mem_zipIdx_iff_getElem?.mpr hy)
  · have := hspan a
    omega
  · have key : ∀ p ∈ overRows.zipIdx, (p.2 : Int) < 1 → ∀ c ∈ p.1.cells, (p.2 : Int) + extent c.rowSpan ≤ 1 := by decide +kernel
    exact key (x, i) (List.mem_zipIdx_iff_getElem?.mpr hx)
  · subst hf
    intro sty
    rw [layTable_on (μ' := plainHeight exPaper (exDoc header footer)) fun r hr c hc sty w => height_page ((rows_words r hr).2 c hc).2]
    have h : okRows 1 (layTable (fun sty iss w (_ : Unit) => (plainHeight exPaper (exDoc [] []) sty iss w, ())) []
        (wideSet ((printable exPaper).x1 - (printable exPaper).x0) (padded.mutatedStyles [] defaultStyle).dim.width) (padded.mutatedStyles [] defaultStyle) overRows ()).1 = true := by
      decide +kernel
    exact okRows_tidy h

private theorem ex_tidy {header footer : List Instr} : Tidy exPaper (exDoc header footer) dflt true exBody := by
  have airy : ∀ {st : Styled} {iss : List Instr}, 1 ≤ (st.mutatedStyles [] defaultStyle).dim.lineSpacing → (∀ st' t, .paragraph st' t ∉ iss) →
      Airy (exDoc header footer) (st.mutatedStyles [] defaultStyle) iss := fun h hi => ⟨h, fun st' t hm => absurd hm (hi st' t)⟩
  refine ⟨rfl, by decide +kernel, ?_, by norm_num, ex_table, ?_, ?_, trivial⟩
  · intro f hf
    subst hf
    exact airy (by decide +kernel) (by simp)
  · refine ⟨fun f hf => ?_, fun f hf => ?_⟩
    · subst hf
      have key : ∀ page, wordsOn (exDoc header footer) page (padded.mutatedStyles [] defaultStyle) [.textBlock b!"in a box"] =
          tokens [] 1 (padded.mutatedStyles [] defaultStyle) [.textBlock b!"in a box"] := by
        intro page
        unfold wordsOn
        rw [if_neg (by decide +kernel)]
        simp only [tokens, wordsOf, piecesOf]
        rw [replaceAll_none (by decide) (by decide +kernel), replaceAll_none (by decide) (by decide +kernel)]
      refine ⟨airy (by decide +kernel) (by simp), ?_, ?_, Or.inr ⟨?_, fun page page' => ⟨(key page).trans (key page').symm, (key page).trans_ne (by decide +kernel)⟩⟩⟩
      · show 0 ≤ (padded.mutatedStyles [] defaultStyle).dim.offsetY + (padded.mutatedStyles [] defaultStyle).box.padding.top
        decide +kernel
      · show 0 ≤ (padded.mutatedStyles [] defaultStyle).box.padding.bottom
        decide +kernel
      · show (padded.mutatedStyles [] defaultStyle).dim.height ≤ 0
        decide +kernel
    · subst hf
      show 0 ≤ (padded.mutatedStyles [] defaultStyle).dim.offsetX + (padded.mutatedStyles [] defaultStyle).box.padding.left
      decide +kernel
  · intro f hf
    subst hf
    exact airy (by decide +kernel) (by simp)

/-- The table goes on on the second page with its header, and what comes after it is below it there. -/
example : (run exHF).map (fun r => seen r.2.eng.out) =
    some [⟨1, 10, 2, b!"page"⟩, ⟨1, 18, 2, b!" 1"⟩, ⟨1, 10, 50, b!"before"⟩, ⟨1, 22, 50, b!" 1"⟩, ⟨1, 12, 751/12, b!"head"⟩, ⟨1, 64, 751/12, b!"three"⟩,
      ⟨1, 12, 4249/60, b!"both"⟩, ⟨1, 20, 4249/60, b!" rows"⟩, ⟨1, 38, 4249/60, b!"a"⟩, ⟨1, 64, 4249/60, b!"b"⟩, ⟨1, 38, 1581/20, b!"c"⟩, ⟨1, 64, 1581/20, b!"d"⟩,
      ⟨1, 10, 95, b!"end"⟩, ⟨2, 10, 2, b!"page"⟩, ⟨2, 18, 2, b!" 2"⟩, ⟨2, 12, 12, b!"head"⟩, ⟨2, 64, 12, b!"three"⟩, ⟨2, 12, 607/30, b!"e"⟩, ⟨2, 38, 607/30, b!"f"⟩,
      ⟨2, 38, 319/12, b!"ff"⟩, ⟨2, 64, 607/30, b!"g"⟩, ⟨2, 12, 2089/60, b!"in"⟩, ⟨2, 16, 2089/60, b!" a"⟩, ⟨2, 20, 2089/60, b!" box"⟩, ⟨2, 10, 821/20, b!"after"⟩,
      ⟨2, 10, 95, b!"end"⟩] := by decide +kernel

/-- The theorems apply to it, with and without header and footer. -/
example : ∃ r s', run exHF = some (r, s') ∧
    s'.eng.out.Pairwise fun m m' => Separate exPaper m m' ∨ InHeaderFooter exPaper exHF s'.eng.out m ∨ InHeaderFooter exPaper exHF s'.eng.out m' := by
  have h : (run exHF).isSome = true := by decide +kernel
  obtain ⟨⟨r, s'⟩, hr⟩ := Option.isSome_iff_exists.mp h
  exact ⟨r, s', hr, C101_follows (ctx := exHF) metrics_example exPaper_spaces0 (by decide +kernel) (by decide +kernel) (by decide +kernel) (ex_fonts fun _ h => h) ex_tidy hr⟩

example : ∃ r s', run (exDoc [] []) = some (r, s') ∧ s'.eng.out.Pairwise (Separate exPaper) := by
  have h : (run (exDoc [] [])).isSome = true := by decide +kernel
  obtain ⟨⟨r, s'⟩, hr⟩ := Option.isSome_iff_exists.mp h
  exact ⟨r, s', hr, C101_apart (ctx := exDoc [] []) metrics_example exPaper_spaces0 (by decide +kernel) (by decide +kernel) (by decide +kernel)
    (ex_fonts fun _ h => nomatch h) ex_tidy rfl rfl hr⟩

end Verif.Props
