import Verif.Proofs.RenderTable
import Verif.Props.Table
/-
Properties C28-C30: rendering tables over pages (/repo/table.go).

`ops` is anything that renderTable can be run with (Model/RenderTable.lean): rendering a cell and adding a page may do whatever they
like.  `traced ops` also keeps a list of the cells rendered and the pages added.
-/
namespace Verif.Props
open Verif.Go Verif.Model Verif.Proofs Verif.Spec

variable {σ : Type} {ops : TableOps σ} {t : Tab} {rh : Int} {bottom : ℚ} {s s' : σ} {log : List TEvent}

private theorem tallest_eq {k : Nat} {row : TRow} (h : t.rows[k]? = some row) : t.maxCellHeight row = tallest t k := by
  unfold tallest Tab.maxCellHeight
  rw [idsOf_of h, List.foldl_map]
  congr 1
  funext m id
  by_cases hm : (t.dim id).2 > m
  · rw [if_pos hm, max_eq_right (le_of_lt hm)]
  · rw [if_neg hm, max_eq_left (not_lt.mp hm)]

private theorem headHeight_eq (t : Tab) (rh : Int) : headHeight t rh = stacked t (min (rh + 1).toNat t.rows.length) := by
  unfold headHeight stacked
  generalize (rh + 1).toNat = n
  have key : ∀ (m : Nat), m ≤ t.rows.length →
      (t.rows.take m).foldl (fun h r => h + t.maxCellHeight r) 0 = ((List.range m).map (tallest t)).sum := by
    intro m
    induction m with
    | zero => simp
    | succ m ih =>
      intro hm
      have hx : t.rows[m]? = some (t.rows[m]'(by omega)) := List.getElem?_eq_getElem (by omega)
      rw [List.take_add_one, hx, Option.toList_some, List.foldl_append, ih (by omega), List.range_succ]
      simp [tallest_eq hx]
  by_cases hn : n ≤ t.rows.length
  · rw [Nat.min_eq_left hn]; exact key n hn
  · rw [Nat.min_eq_right (by omega), List.take_of_length_le (by omega), ← key t.rows.length (Nat.le_refl _), List.take_length]

/-- Everything there is to know about a run. -/
theorem run_of {mode : Option Bool} {I : σ → Prop} (hm : Mode ops mode I) (hI : I s)
    (h : renderLaid (traced ops) t rh bottom (s, []) = some (s', log)) :
    ∃ init items y1, log = (init ++ items).flatMap (Item.events t (ops.getXY s).1) ∧ Run t rh bottom mode 0 y1 items ∧
      ((init = [] ∧ y1 = (ops.getXY s).2 ∧ (mode = some false → (ops.getXY s).2 + stacked t (min (rh + 1).toNat t.rows.length) ≤ bottom)) ∨
       (init = [.page y1] ∧ mode ≠ some true ∧ (ops.getXY s).2 + stacked t (min (rh + 1).toNat t.rows.length) > bottom)) ∧
      ∃ s2, s' = ops.setY (endY t y1 items) s2 := by
  unfold renderLaid at h
  rw [headHeight_eq] at h
  simp only [show (traced ops).getXY (s, []) = ops.getXY s from rfl] at h
  by_cases hb : (!(traced ops).prevent (s, [])) = true ∧ (ops.getXY s).2 + stacked t (min (rh + 1).toNat t.rows.length) > bottom
  · rw [if_pos hb] at h
    have hp' : ops.prevent s = false := by simpa [traced] using hb.1
    cases ha : ops.addPage s with
    | none => simp [traced, ha] at h
    | some s1 =>
      have haT : (traced ops).addPage (s, []) = some (s1, [.page (ops.getXY s1).2]) := by simp [traced, ha]
      obtain ⟨hI1, hmode⟩ := hm.addPage hI hp' ha
      rw [haT] at h
      simp only [show ∀ l, (traced ops).getXY (s1, l) = ops.getXY s1 from fun _ => rfl] at h
      generalize hq : renderRows (traced ops) t rh bottom (ops.getXY s).1 0 t.rows (ops.getXY s1).2 (s1, [.page (ops.getXY s1).2]) = q at h
      cases q with
      | none => simp at h
      | some p =>
        obtain ⟨y2, s2, log2⟩ := p
        obtain ⟨items, g1, g2, _, g4⟩ := rows_traced hm t.rows 0 _ s1 _ (by simp) (by simp) hI1 hq
        simp only [Option.some.injEq] at h
        refine ⟨[.page (ops.getXY s1).2], items, _, ?_, g1, Or.inr ⟨rfl, hmode, hb.2⟩, s2, ?_⟩
        · rw [List.flatMap_append, show log = log2 from (congrArg Prod.snd h).symm, g2]; simp [Item.events]
        · rw [← g4]; exact (congrArg Prod.fst h).symm
  · rw [if_neg hb] at h
    simp only at h
    generalize hq : renderRows (traced ops) t rh bottom (ops.getXY s).1 0 t.rows (ops.getXY s).2 (s, []) = q at h
    cases q with
    | none => simp at h
    | some p =>
      obtain ⟨y2, s2, log2⟩ := p
      obtain ⟨items, g1, g2, _, g4⟩ := rows_traced hm t.rows 0 _ s _ (by simp) (by simp) hI hq
      simp only [Option.some.injEq] at h
      refine ⟨[], items, _, ?_, g1, Or.inl ⟨rfl, rfl, ?_⟩, s2, ?_⟩
      · rw [show log = log2 from (congrArg Prod.snd h).symm, g2]; simp
      · intro hmo
        subst hmo
        rw [not_and_or] at hb
        rcases hb with hb | hb
        · have := hm.prevent s hI
          simp [traced, this] at hb
        · exact not_lt.mp hb
      · rw [← g4]; exact (congrArg Prod.fst h).symm

theorem explains_of {mode : Option Bool} {x y y1 : ℚ} {init items : List Item} (hl : log = (init ++ items).flatMap (Item.events t x))
    (hr : Run t rh bottom mode 0 y1 items) (hi : (init = [] ∧ y1 = y) ∨ init = [.page y1]) : Explains t x y log (init ++ items) := by
  refine ⟨hl, ?_, ?_⟩
  · rcases hi with ⟨rfl, rfl⟩ | rfl
    · exact hr.chained
    · exact hr.chained
  · have := hr.rows
    rw [Nat.sub_zero, ← List.range_eq_range'] at this
    rcases hi with ⟨rfl, rfl⟩ | rfl
    · exact this
    · exact this

/-- C28: whatever rendering a cell does, the steps taken are all rows in order, with pages and repeated header rows in between; each
row is placed where the previous step left off, and the position afterwards is the end of the last row. -/
theorem C28_rows (h : renderLaid (traced ops) t rh bottom (s, []) = some (s', log)) :
    ∃ items, Explains t (ops.getXY s).1 (ops.getXY s).2 log items ∧ ∃ s2, s' = ops.setY (endY t (ops.getXY s).2 items) s2 := by
  obtain ⟨init, items, y1, hl, hr, hi, s2, he⟩ := run_of (mode := none) (I := fun _ => True) (fun _ => trivial) trivial h
  refine ⟨init ++ items, explains_of hl hr (hi.imp (fun h => ⟨h.1, h.2.1⟩) (fun h => h.1)), s2, ?_⟩
  rw [he]
  rcases hi with ⟨rfl, rfl, _⟩ | ⟨rfl, _, _⟩
  · rfl
  · rfl

/-- C28: a repeated or first-time row shows every authored cell of that row. -/
theorem C28_cells (t : Tab) (x y : ℚ) (i id : Nat) (h : id ∈ idsOf t i) (ha : isAuthored t id = true) :
    ∃ a, TEvent.cell id a ∈ (Item.row i y).events t x ∧ a.y0 = y ∧ a.width = (t.dim id).1 ∧ a.height = (t.dim id).2 := by
  show ∃ a, TEvent.cell id a ∈ cellEvents t y x (idsOf t i) ∧ _
  revert h
  generalize idsOf t i = ids
  induction ids generalizing x with
  | nil => intro h; simp at h
  | cons b ids ih =>
    intro h
    rw [cellEvents]
    by_cases hb : id = b
    · subst hb
      rw [ha]
      exact ⟨⟨x, y, x + (t.dim id).1, y + (t.dim id).2⟩, by simp, rfl, by simp [Area.width], by simp [Area.height]⟩
    · obtain ⟨a, h1, h2⟩ := ih (x + (t.cell b).width) (by simpa [hb] using h)
      exact ⟨a, List.mem_append_right _ h1, h2⟩

private theorem fits_of {y1 : ℚ} {init items : List Item} (hr : Run t rh bottom (some false) 0 y1 items) (hi : init = [] ∨ init = [.page y1]) :
    ∀ pre post i y, init ++ items = pre ++ .row i y :: post →
      Fits t i y bottom ∨ ∃ pre' top, pre = pre' ++ .page top :: (if i > 0 ∧ rh > 0 then headersAt t rh.toNat top else []) := by
  intro pre post i y hd
  rcases hi with rfl | rfl
  · exact hr.at_row pre post i y hd
  · cases pre with
    | nil => simp at hd
    | cons p pre =>
      simp only [List.cons_append, List.nil_append, List.cons.injEq] at hd
      rcases hr.at_row pre post i y hd.2 with h | ⟨pre', top, h⟩
      · exact Or.inl h
      · exact Or.inr ⟨p :: pre', top, by rw [h]; rfl⟩

private theorem pages_of {mode : Option Bool} {y y1 : ℚ} {init items : List Item} {C : Prop} (hr : Run t rh bottom mode 0 y1 items)
    (hi : (init = [] ∧ y1 = y) ∨ (init = [.page y1] ∧ C)) : ∀ pre post top, init ++ items = pre ++ .page top :: post → (pre = [] ∧ C) ∨
      ∃ i z post', i < t.rows.length ∧ post = (if i > 0 ∧ rh > 0 then headersAt t rh.toNat top else []) ++ .row i z :: post' ∧
        ¬ Fits t i (endY t y pre) bottom := by
  intro pre post top hd
  rcases hi with ⟨rfl, rfl⟩ | ⟨rfl, hgt⟩
  · obtain ⟨_, k, z, post', h1, h2, h3⟩ := hr.at_page pre post top hd
    exact Or.inr ⟨k, z, post', h1, h2, h3⟩
  · cases pre with
    | nil => exact Or.inl ⟨rfl, hgt⟩
    | cons p pre =>
      simp only [List.cons_append, List.nil_append, List.cons.injEq] at hd
      obtain ⟨_, k, z, post', h1, h2, h3⟩ := hr.at_page pre post top hd.2
      refine Or.inr ⟨k, z, post', h1, h2, ?_⟩
      rw [← hd.1]
      exact h3

private theorem headers_of {mode : Option Bool} {y1 : ℚ} {init items : List Item} (hr : Run t rh bottom mode 0 y1 items) (hi : init = [] ∨ init = [.page y1]) :
    ∀ pre post j z, init ++ items = pre ++ .header j z :: post →
      ∃ i top y pre' post', i > 0 ∧ rh > 0 ∧ init ++ items = pre' ++ .page top :: headersAt t rh.toNat top ++ .row i y :: post' ∧
        pre = pre' ++ .page top :: (headersAt t rh.toNat top).take j := by
  intro pre post j z hd
  rcases hi with rfl | rfl
  · exact hr.at_header pre post j z hd
  · cases pre with
    | nil => simp at hd
    | cons p pre =>
      simp only [List.cons_append, List.nil_append, List.cons.injEq] at hd
      obtain ⟨k, top, z', pre', post', e1, e2, e3, e4⟩ := hr.at_header pre post j z hd.2
      exact ⟨k, top, z', p :: pre', post', e1, e2, by rw [e3, ← hd.1]; rfl, by rw [e4]; rfl⟩

/-- C29: where page breaks are allowed, each row ends above the bottom of the page, or it stands directly below the repeated header
at the top of a new page. -/
theorem C29_fits {I : σ → Prop} (hk : Keeps ops false I) (hI : I s) (h : renderLaid (traced ops) t rh bottom (s, []) = some (s', log)) :
    ∃ items, Explains t (ops.getXY s).1 (ops.getXY s).2 log items ∧
      ∀ pre post i y, items = pre ++ .row i y :: post →
        Fits t i y bottom ∨ ∃ pre' top, pre = pre' ++ .page top :: (if i > 0 ∧ rh > 0 then headersAt t rh.toNat top else []) := by
  obtain ⟨init, items, y1, hl, hr, hi, s2, he⟩ := run_of (mode := some false) hk hI h
  exact ⟨init ++ items, explains_of hl hr (hi.imp (fun h => ⟨h.1, h.2.1⟩) (fun h => h.1)), fits_of hr (hi.imp (fun h => h.1) (fun h => h.1))⟩

/-- C30: a page is added only before the table, if header and first row do not fit, or before a row that does not fit; in the latter
case the header rows and the row follow.  Header rows are repeated nowhere else. -/
theorem C30_headers (h : renderLaid (traced ops) t rh bottom (s, []) = some (s', log)) :
    ∃ items, Explains t (ops.getXY s).1 (ops.getXY s).2 log items ∧
      (∀ pre post top, items = pre ++ .page top :: post →
        (pre = [] ∧ (ops.getXY s).2 + stacked t (min (rh + 1).toNat t.rows.length) > bottom) ∨
        ∃ i y post', i < t.rows.length ∧ post = (if i > 0 ∧ rh > 0 then headersAt t rh.toNat top else []) ++ .row i y :: post' ∧
          ¬ Fits t i (endY t (ops.getXY s).2 pre) bottom) ∧
      (∀ pre post j z, items = pre ++ .header j z :: post →
        ∃ i top y pre' post', i > 0 ∧ rh > 0 ∧ items = pre' ++ .page top :: headersAt t rh.toNat top ++ .row i y :: post' ∧
          pre = pre' ++ .page top :: (headersAt t rh.toNat top).take j) := by
  obtain ⟨init, items, y1, hl, hr, hi, s2, he⟩ := run_of (mode := none) (I := fun _ => True) (fun _ => trivial) trivial h
  exact ⟨init ++ items, explains_of hl hr (hi.imp (fun h => ⟨h.1, h.2.1⟩) (fun h => h.1)),
    pages_of hr (hi.imp (fun h => ⟨h.1, h.2.1⟩) (fun h => ⟨h.1, h.2.2⟩)), headers_of hr (hi.imp (fun h => h.1) (fun h => h.1))⟩

/-- C28-C30 together, for the same steps; the last thing done is to set the position below the last row, at the left edge of the table. -/
theorem C30_steps {I : σ → Prop} (hk : Keeps ops false I) (hI : I s) (h : renderLaid (traced ops) t rh bottom (s, []) = some (s', log)) :
    ∃ items, Explains t (ops.getXY s).1 (ops.getXY s).2 log items ∧
      (∀ pre post i y, items = pre ++ .row i y :: post →
        Fits t i y bottom ∨ ∃ pre' top, pre = pre' ++ .page top :: (if i > 0 ∧ rh > 0 then headersAt t rh.toNat top else [])) ∧
      (∀ pre post top, items = pre ++ .page top :: post →
        (pre = [] ∧ (ops.getXY s).2 + stacked t (min (rh + 1).toNat t.rows.length) > bottom) ∨
        ∃ i y post', i < t.rows.length ∧ post = (if i > 0 ∧ rh > 0 then headersAt t rh.toNat top else []) ++ .row i y :: post' ∧
          ¬ Fits t i (endY t (ops.getXY s).2 pre) bottom) ∧
      (∀ pre post j z, items = pre ++ .header j z :: post →
        ∃ i top y pre' post', i > 0 ∧ rh > 0 ∧ items = pre' ++ .page top :: headersAt t rh.toNat top ++ .row i y :: post' ∧
          pre = pre' ++ .page top :: (headersAt t rh.toNat top).take j) ∧
      ((ops.getXY s).2 + stacked t (min (rh + 1).toNat t.rows.length) > bottom → ∃ top post, items = .page top :: post) ∧
      ∃ s2, s' = ops.setY (endY t (ops.getXY s).2 items) s2 := by
  obtain ⟨init, items, y1, hl, hr, hi, s2, he⟩ := run_of (mode := some false) hk hI h
  refine ⟨init ++ items, explains_of hl hr (hi.imp (fun h => ⟨h.1, h.2.1⟩) (fun h => h.1)), ?_, ?_, ?_, ?_, s2, ?_⟩
  · exact fits_of hr (hi.imp (fun h => h.1) (fun h => h.1))
  · exact pages_of hr (hi.imp (fun h => ⟨h.1, h.2.1⟩) (fun h => ⟨h.1, h.2.2⟩))
  · exact headers_of hr (hi.imp (fun h => h.1) (fun h => h.1))
  · intro hgt
    rcases hi with ⟨_, _, hle⟩ | ⟨rfl, _, _⟩
    · exact absurd (hle rfl) (not_le.mpr hgt)
    · exact ⟨y1, items, rfl⟩
  · rw [he]
    rcases hi with ⟨rfl, rfl, _⟩ | ⟨rfl, _, _⟩
    · rfl
    · rfl

/-- C30: inside header and footer there are no page breaks, and nothing is repeated. -/
theorem C30_prevented {I : σ → Prop} (hk : Keeps ops true I) (hI : I s) (h : renderLaid (traced ops) t rh bottom (s, []) = some (s', log)) :
    log = (List.range t.rows.length).flatMap fun i => (Item.row i ((ops.getXY s).2 + heightsBefore t i)).events t (ops.getXY s).1 := by
  obtain ⟨init, items, y1, hl, hr, hi, s2, he⟩ := run_of (mode := some true) hk hI h
  rcases hi with ⟨rfl, rfl, _⟩ | ⟨_, hc, _⟩
  · have key : ∀ i y items, Run t rh bottom (some true) i y items → y = (ops.getXY s).2 + heightsBefore t i →
        items = (List.range' i (t.rows.length - i)).map fun k => .row k ((ops.getXY s).2 + heightsBefore t k) := by
      intro i y items hr
      induction hr with
      | nil hi => intro _; subst hi; simp
      | @stay i y items hi _ _ ih =>
        intro hy
        rw [show t.rows.length - i = (t.rows.length - (i + 1)) + 1 by omega, List.range'_succ, List.map_cons, hy,
          ih (by rw [heightsBefore_succ, hy]; ring)]
      | brk _ hmo => exact absurd rfl hmo
    rw [hl, List.nil_append, key 0 _ items hr (by simp [heightsBefore]), Nat.sub_zero, ← List.range_eq_range', List.flatMap_map]
  · exact absurd rfl hc

/-! ### Example -/

/-- A table of three rows of heights 12, 50 and 12 with one column. -/
def exTab : Option (Tab × Unit) :=
  transformTable exMeasure [] ⟨⟨0, 0, 100, 200⟩⟩ zeroStyles ⟨[[([2, 0], .flt (-1))]], []⟩
    [.mk ⟨[], []⟩ [.mk ⟨[], []⟩ 0 0 [.textBlock b!"h"]], .mk ⟨[], []⟩ [.mk ⟨[[([2, 1], .flt 50)]], []⟩ 0 0 []],
     .mk ⟨[], []⟩ [.mk ⟨[], []⟩ 0 0 [.textBlock b!"x"]]] ()

/-- Operations that do nothing but remember the position; a new page starts at 10. -/
def exOps (prevent : Bool) : TableOps (ℚ × ℚ) where
  getXY s := s
  setX x s := (x, s.2)
  setY y s := (s.1, y)
  prevent _ := prevent
  addPage s := some (s.1, 10)
  renderCell _ _ s := some s

/-- The hypotheses of C29 and of `C30_prevented` hold for these. -/
example (b : Bool) : Keeps (exOps b) b (fun _ => True) :=
  ⟨fun _ _ => rfl, fun _ _ _ => trivial, fun _ _ _ _ _ _ => trivial, fun _ _ _ _ _ => trivial⟩

/-- With a page ending at 80 and one header row, the third row goes to a new page, below the repeated header row. -/
example : exTab.bind (fun t => (renderLaid (traced (exOps false)) t.1 1 80 ((5, 15), [])).map fun r => (r.1, r.2)) =
    some ((5, 34), [.cell 0 ⟨5, 15, 105, 27⟩, .cell 1 ⟨5, 27, 105, 77⟩, .page 10, .cell 0 ⟨5, 10, 105, 22⟩, .cell 2 ⟨5, 22, 105, 34⟩]) := by
  decide +kernel

end Verif.Props
