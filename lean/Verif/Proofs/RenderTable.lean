import Verif.Spec.RenderTable
import Verif.Proofs.TableLaid
import Mathlib.Algebra.Order.Field.Rat
import Mathlib.Tactic.Linarith
/-
Rendering tables: the steps taken by renderTable.
-/
namespace Verif.Proofs
open Verif.Go Verif.Model Verif.Spec

/-- The largest of some heights, from `m` on. -/
theorem foldl_max_le (f : Nat → ℚ) (b : ℚ) : ∀ (l : List Nat) (m : ℚ),
    l.foldl (fun m id => if f id > m then f id else m) m ≤ b ↔ m ≤ b ∧ ∀ x ∈ l, f x ≤ b := by
  intro l
  induction l with
  | nil => intro m; simp
  | cons a l ih =>
    intro m
    rw [List.foldl_cons, ih]
    simp only [List.mem_cons, forall_eq_or_imp]
    split
    · constructor
      · rintro ⟨h1, h2⟩; exact ⟨by linarith, h1, h2⟩
      · rintro ⟨_, h1, h2⟩; exact ⟨h1, h2⟩
    · constructor
      · rintro ⟨h1, h2⟩; exact ⟨h1, by linarith, h2⟩
      · rintro ⟨h0, _, h2⟩; exact ⟨h0, h2⟩

theorem maxCellHeight_le (t : Tab) (row : TRow) (b : ℚ) : t.maxCellHeight row ≤ b ↔ 0 ≤ b ∧ ∀ id ∈ row.cells, (t.dim id).2 ≤ b := by
  unfold Tab.maxCellHeight
  exact foldl_max_le (fun id => (t.dim id).2) b row.cells 0

theorem idsOf_of {t : Tab} {i : Nat} {row : TRow} (h : t.rows[i]? = some row) : idsOf t i = row.cells := by
  unfold idsOf; rw [h]

theorem heightOf_of {t : Tab} {i : Nat} {row : TRow} (h : t.rows[i]? = some row) : heightOf t i = row.height := by
  unfold heightOf; rw [h]

theorem fits_iff {t : Tab} {i : Nat} {row : TRow} (h : t.rows[i]? = some row) (y bottom : ℚ) :
    y + t.maxCellHeight row ≤ bottom ↔ Fits t i y bottom := by
  unfold Fits
  rw [idsOf_of h]
  have := maxCellHeight_le t row (bottom - y)
  constructor
  · intro hh
    obtain ⟨h1, h2⟩ := this.mp (by linarith)
    exact ⟨by linarith, fun id hid => by have := h2 id hid; linarith⟩
  · rintro ⟨h1, h2⟩
    have := this.mpr ⟨by linarith, fun id hid => by have := h2 id hid; linarith⟩
    linarith

section
variable {σ : Type} {ops : TableOps σ} {t : Tab}

theorem rowCells_traced {y : ℚ} : ∀ (ids : List Nat) (x : ℚ) (s : σ) (log : List TEvent) {s' : σ} {log' : List TEvent},
    renderRowCells (traced ops) t y x ids (s, log) = some (s', log') → log' = log ++ cellEvents t y x ids := by
  intro ids
  induction ids with
  | nil => intro x s log s' log' h; simp only [renderRowCells, Option.some.injEq, Prod.mk.injEq] at h; simp [cellEvents, h.2]
  | cons id ids ih =>
    intro x s log s' log' h
    simp only [renderRowCells] at h
    by_cases hc : (t.cell id).spannedBy.isSome ∨ (t.cell id).zero
    · have hna : isAuthored t id = false := by
        unfold isAuthored
        rcases hc with hc | hc
        · cases hx : (t.cell id).spannedBy <;> simp_all
        · simp [hc]
      rw [if_pos hc] at h
      rw [cellEvents, hna]
      simpa using ih _ _ _ h
    · have hna : isAuthored t id = true := by
        unfold isAuthored
        rw [not_or] at hc
        cases hx : (t.cell id).spannedBy <;> simp_all
      rw [if_neg hc] at h
      rw [cellEvents, hna]
      simp only [traced] at h
      cases hr : ops.renderCell { x0 := x, y0 := y, x1 := x + (t.dim id).1, y1 := y + (t.dim id).2 } id s with
      | none => rw [hr] at h; simp at h
      | some s1 =>
        rw [hr] at h
        simp only [Option.map_some] at h
        rw [ih _ _ _ h]
        simp

theorem row_traced {x0 y : ℚ} {i : Nat} {row : TRow} (hr : t.rows[i]? = some row) {s : σ} {log : List TEvent} {y' : ℚ} {s' : σ}
    {log' : List TEvent} (h : renderRow (traced ops) t x0 row y (s, log) = some (y', (s', log'))) :
    y' = y + heightOf t i ∧ log' = log ++ (Item.row i y).events t x0 := by
  unfold renderRow at h
  cases hc : renderRowCells (traced ops) t y x0 row.cells (s, log) with
  | none => rw [hc] at h; simp at h
  | some p =>
    obtain ⟨s1, log1⟩ := p
    rw [hc] at h
    simp only [traced, Option.some.injEq, Prod.mk.injEq] at h
    obtain ⟨h1, h2, h3⟩ := h
    rw [heightOf_of hr, ← h1, ← h3]
    refine ⟨rfl, ?_⟩
    show log1 = log ++ cellEvents t y x0 (idsOf t i)
    rw [idsOf_of hr]
    exact rowCells_traced _ _ _ _ hc

theorem heightsBefore_succ (t : Tab) (k : Nat) : heightsBefore t (k + 1) = heightsBefore t k + heightOf t k := by
  unfold heightsBefore; rw [List.range_succ]; simp

/-- The header rows from index `k` on. -/
def headersFrom (t : Tab) (k n : Nat) (top : ℚ) : List Item :=
  (List.range' k n).map fun j => .header j (top + heightsBefore t j)

theorem header_traced {x0 top : ℚ} : ∀ (rows : List TRow) (k : Nat) (s : σ) (log : List TEvent) {y' : ℚ} {s' : σ} {log' : List TEvent},
    (∀ j < rows.length, t.rows[k + j]? = rows[j]?) →
    renderHeader (traced ops) t x0 rows (top + heightsBefore t k) (s, log) = some (y', (s', log')) →
    y' = top + heightsBefore t (k + rows.length) ∧ log' = log ++ (headersFrom t k rows.length top).flatMap (Item.events t x0) := by
  intro rows
  induction rows with
  | nil =>
    intro k s log y' s' log' _ h
    simp only [renderHeader, Option.some.injEq, Prod.mk.injEq] at h
    obtain ⟨h1, _, h2⟩ := h
    simp [headersFrom, ← h1, ← h2]
  | cons row rows ih =>
    intro k s log y' s' log' hrows h
    simp only [renderHeader] at h
    cases hr : renderRow (traced ops) t x0 row (top + heightsBefore t k) (s, log) with
    | none => rw [hr] at h; simp at h
    | some p =>
      obtain ⟨y1, s1, log1⟩ := p
      have hk : t.rows[k]? = some row := by simpa using hrows 0 (by simp)
      obtain ⟨e1, e2⟩ := row_traced hk hr
      rw [hr] at h
      simp only at h
      have hy : y1 = top + heightsBefore t (k + 1) := by rw [heightsBefore_succ, e1]; ring
      rw [hy] at h
      obtain ⟨f1, f2⟩ := ih (k + 1) s1 log1 (fun j hj => by
        have := hrows (j + 1) (by simpa using hj)
        rw [show k + 1 + j = k + (j + 1) by omega]
        simpa using this) h
      refine ⟨by rw [f1, List.length_cons, show k + 1 + rows.length = k + (rows.length + 1) by omega], ?_⟩
      rw [f2, e2]
      simp [headersFrom, List.range'_succ, Item.events]

/-- The steps from row `i` on, at `y`.  `mode` is what is known of preventPageBreak. -/
inductive Run (t : Tab) (rh : Int) (bottom : ℚ) (mode : Option Bool) : Nat → ℚ → List Item → Prop
  | nil {i : Nat} {y : ℚ} : i = t.rows.length → Run t rh bottom mode i y []
  | stay {i : Nat} {y : ℚ} {items : List Item} : i < t.rows.length → (mode = some false → Fits t i y bottom) →
      Run t rh bottom mode (i + 1) (y + heightOf t i) items → Run t rh bottom mode i y (.row i y :: items)
  | brk {i : Nat} {y top y1 : ℚ} {hs items : List Item} : i < t.rows.length → mode ≠ some true → ¬ Fits t i y bottom →
      hs = (if i > 0 ∧ rh > 0 then headersAt t rh.toNat top else []) →
      y1 = (if i > 0 ∧ rh > 0 then top + heightsBefore t (min rh.toNat t.rows.length) else top) →
      Run t rh bottom mode (i + 1) (y1 + heightOf t i) items →
      Run t rh bottom mode i y (.page top :: hs ++ .row i y1 :: items)

/-- What is known of preventPageBreak, and a condition on states that ensures it. -/
def Mode (ops : TableOps σ) : Option Bool → (σ → Prop) → Prop
  | none, I => ∀ s, I s
  | some b, I => Keeps ops b I

theorem Mode.rowCells {mode : Option Bool} {I : σ → Prop} (hm : Mode ops mode I) {y : ℚ} :
    ∀ (ids : List Nat) (x : ℚ) (s : σ) (log : List TEvent) {s' : σ} {log' : List TEvent},
    I s → renderRowCells (traced ops) t y x ids (s, log) = some (s', log') → I s' := by
  cases mode with
  | none => intro ids x s log s' log' _ _; exact hm s'
  | some b =>
    intro ids
    induction ids with
    | nil => intro x s log s' log' hI h; simp only [renderRowCells, Option.some.injEq, Prod.mk.injEq] at h; rw [← h.1]; exact hI
    | cons id ids ih =>
      intro x s log s' log' hI h
      simp only [renderRowCells] at h
      split at h
      · exact ih _ _ _ hI h
      · simp only [traced] at h
        cases hr : ops.renderCell { x0 := x, y0 := y, x1 := x + (t.dim id).1, y1 := y + (t.dim id).2 } id s with
        | none => rw [hr] at h; simp at h
        | some s1 =>
          rw [hr] at h
          exact ih _ _ _ (hm.renderCell _ _ _ _ hI hr) h

theorem Mode.row {mode : Option Bool} {I : σ → Prop} (hm : Mode ops mode I) {x0 y : ℚ} {row : TRow} {s : σ} {log : List TEvent} {y' : ℚ}
    {s' : σ} {log' : List TEvent} (hI : I s) (h : renderRow (traced ops) t x0 row y (s, log) = some (y', (s', log'))) : I s' := by
  unfold renderRow at h
  cases hc : renderRowCells (traced ops) t y x0 row.cells (s, log) with
  | none => rw [hc] at h; simp at h
  | some p =>
    obtain ⟨s1, log1⟩ := p
    rw [hc] at h
    simp only [traced, Option.some.injEq, Prod.mk.injEq] at h
    rw [← h.2.1]
    have := hm.rowCells _ _ _ _ hI hc
    cases mode with
    | none => exact hm _
    | some b => exact hm.setX _ _ this

theorem Mode.header {mode : Option Bool} {I : σ → Prop} (hm : Mode ops mode I) {x0 : ℚ} : ∀ (rows : List TRow) (y : ℚ) (s : σ)
    (log : List TEvent) {y' : ℚ} {s' : σ} {log' : List TEvent}, I s →
    renderHeader (traced ops) t x0 rows y (s, log) = some (y', (s', log')) → I s' := by
  intro rows
  induction rows with
  | nil => intro y s log y' s' log' hI h; simp only [renderHeader, Option.some.injEq, Prod.mk.injEq] at h; rw [← h.2.1]; exact hI
  | cons row rows ih =>
    intro y s log y' s' log' hI h
    simp only [renderHeader] at h
    cases hr : renderRow (traced ops) t x0 row y (s, log) with
    | none => rw [hr] at h; simp at h
    | some p =>
      obtain ⟨y1, s1, log1⟩ := p
      rw [hr] at h
      exact ih _ _ _ (hm.row hI hr) h

theorem Mode.addPage {mode : Option Bool} {I : σ → Prop} (hm : Mode ops mode I) {s s' : σ} (hI : I s) (hp : ops.prevent s = false)
    (h : ops.addPage s = some s') : I s' ∧ mode ≠ some true := by
  cases mode with
  | none => exact ⟨hm _, by simp⟩
  | some b =>
    have := hm.prevent s hI
    rw [hp] at this
    subst this
    exact ⟨Keeps.addPage (b := false) hm rfl _ _ hI h, by simp⟩

theorem rows_traced {mode : Option Bool} {I : σ → Prop} (hm : Mode ops mode I) {rh : Int} {bottom x0 : ℚ} :
    ∀ (rows : List TRow) (i : Nat) (y : ℚ) (s : σ) (log : List TEvent) {y' : ℚ} {s' : σ} {log' : List TEvent},
    rows = t.rows.drop i → i ≤ t.rows.length → I s → renderRows (traced ops) t rh bottom x0 i rows y (s, log) = some (y', (s', log')) →
    ∃ items, Run t rh bottom mode i y items ∧ log' = log ++ items.flatMap (Item.events t x0) ∧ I s' ∧ y' = endY t y items := by
  intro rows
  induction rows with
  | nil =>
    intro i y s log y' s' log' hd hle hI h
    simp only [renderRows, Option.some.injEq, Prod.mk.injEq] at h
    have : i = t.rows.length := by have := List.drop_eq_nil_iff.mp hd.symm; omega
    exact ⟨[], .nil this, by simp [h.2.2], h.2.1 ▸ hI, by simp [endY, h.1]⟩
  | cons row rows ih =>
    intro i y s log y' s' log' hd hle hI h
    have hi : i < t.rows.length := by
      by_contra hc
      rw [List.drop_eq_nil_iff.mpr (by omega)] at hd
      simp at hd
    have hrow : t.rows[i]? = some row := by
      have := List.getElem?_drop (xs := t.rows) (i := i) (j := 0)
      rw [← hd] at this
      simpa using this.symm
    have hd' : rows = t.rows.drop (i + 1) := by
      have := List.drop_drop (l := t.rows) (i := 1) (j := i)
      rw [← hd] at this
      simpa [Nat.add_comm] using this
    simp only [renderRows] at h
    by_cases hb : (!(traced ops).prevent (s, log)) = true ∧ y + t.maxCellHeight row > bottom
    · rw [if_pos hb] at h
      obtain ⟨hp, hgt⟩ := hb
      have hp' : ops.prevent s = false := by simpa [traced] using hp
      cases ha : ops.addPage s with
      | none => simp [traced, ha] at h
      | some s1 =>
        have haT : (traced ops).addPage (s, log) = some (s1, log ++ [.page (ops.getXY s1).2]) := by simp [traced, ha]
        obtain ⟨hI1, hmode⟩ := hm.addPage hI hp' ha
        have hnf : ¬ Fits t i y bottom := by
          rw [← fits_iff hrow]; exact not_le.mpr hgt
        rw [haT] at h
        simp only at h
        rw [show ((traced ops).getXY (s1, log ++ [TEvent.page (ops.getXY s1).2])) = ops.getXY s1 from rfl] at h
        generalize ops.getXY s1 = gxy at h
        obtain ⟨gx, top⟩ := gxy
        simp only at h
        by_cases hh : i > 0 ∧ rh > 0
        · rw [if_pos hh] at h
          cases hH : renderHeader (traced ops) t x0 (t.rows.take rh.toNat) top (s1, log ++ [.page top]) with
          | none => rw [hH] at h; simp at h
          | some p =>
            obtain ⟨y2, s2, log2⟩ := p
            have hI2 := hm.header _ _ _ _ hI1 hH
            have hH' : renderHeader (traced ops) t x0 (t.rows.take rh.toNat) (top + heightsBefore t 0) (s1, log ++ [.page top]) =
                some (y2, s2, log2) := by simpa [heightsBefore] using hH
            obtain ⟨e1, e2⟩ := header_traced (t.rows.take rh.toNat) 0 s1 _ (fun j hj => by
              rw [Nat.zero_add, List.getElem?_take_of_lt]
              rw [List.length_take] at hj
              omega) hH'
            rw [hH] at h
            simp only at h
            cases hr : renderRow (traced ops) t x0 row y2 (s2, log2) with
            | none => rw [hr] at h; simp at h
            | some q =>
              obtain ⟨y3, s3, log3⟩ := q
              obtain ⟨f1, f2⟩ := row_traced hrow hr
              have hI3 := hm.row hI2 hr
              rw [hr] at h
              obtain ⟨items, g1, g2, g3, g4⟩ := ih (i + 1) y3 s3 log3 hd' hi hI3 h
              have hlen : (t.rows.take rh.toNat).length = min rh.toNat t.rows.length := List.length_take
              refine ⟨.page top :: headersAt t rh.toNat top ++ .row i y2 :: items, ?_, ?_, g3, ?_⟩
              · refine .brk hi hmode hnf (by rw [if_pos hh]) ?_ (by rw [← f1]; exact g1)
                rw [if_pos hh, e1, hlen, Nat.zero_add]
              · rw [g2, f2, e2, hlen]
                have : headersFrom t 0 (min rh.toNat t.rows.length) top = headersAt t rh.toNat top := by
                  unfold headersFrom headersAt
                  rw [List.range_eq_range']
                rw [this]
                simp [Item.events]
              · rw [g4, f1]
                simp [endY, Item.endY]
        · rw [if_neg hh] at h
          simp only at h
          cases hr : renderRow (traced ops) t x0 row top (s1, log ++ [.page top]) with
          | none => rw [hr] at h; simp at h
          | some q =>
            obtain ⟨y3, s3, log3⟩ := q
            obtain ⟨f1, f2⟩ := row_traced hrow hr
            have hI3 := hm.row hI1 hr
            rw [hr] at h
            obtain ⟨items, g1, g2, g3, g4⟩ := ih (i + 1) y3 s3 log3 hd' hi hI3 h
            refine ⟨.page top :: [] ++ .row i top :: items, ?_, ?_, g3, ?_⟩
            · exact .brk hi hmode hnf (by rw [if_neg hh]) (by rw [if_neg hh]) (by rw [← f1]; exact g1)
            · rw [g2, f2]
              simp [Item.events]
            · rw [g4, f1]
              simp [endY, Item.endY]
    · rw [if_neg hb] at h
      simp only at h
      cases hr : renderRow (traced ops) t x0 row y (s, log) with
      | none => rw [hr] at h; simp at h
      | some q =>
        obtain ⟨y3, s3, log3⟩ := q
        obtain ⟨f1, f2⟩ := row_traced hrow hr
        have hI3 := hm.row hI hr
        rw [hr] at h
        obtain ⟨items, g1, g2, g3, g4⟩ := ih (i + 1) y3 s3 log3 hd' hi hI3 h
        refine ⟨.row i y :: items, ?_, ?_, g3, ?_⟩
        · refine .stay hi (fun hmo => ?_) (by rw [← f1]; exact g1)
          subst hmo
          rw [← fits_iff hrow]
          rw [not_and_or] at hb
          rcases hb with hb | hb
          · have := hm.prevent s hI
            simp [traced, this] at hb
          · exact not_lt.mp hb
        · rw [g2, f2]; simp
        · rw [g4, f1]; simp [endY, Item.endY]

end

/-! ### Consequences -/

theorem headersAt_rowIdx (t : Tab) (h : Nat) (top : ℚ) : (headersAt t h top).filterMap Item.rowIdx = [] := by
  unfold headersAt
  rw [List.filterMap_map]
  simp [Function.comp_def, Item.rowIdx]

theorem headersAt_no_page (t : Tab) (h : Nat) (top : ℚ) {it : Item} (hit : it ∈ headersAt t h top) : ∃ j z, it = .header j z := by
  unfold headersAt at hit
  simp only [List.mem_map] at hit
  obtain ⟨k, _, rfl⟩ := hit
  exact ⟨_, _, rfl⟩

theorem chained_headers (t : Tab) (top : ℚ) (rest : List Item) : ∀ (n k : Nat),
    Chained t (top + heightsBefore t (k + n)) rest →
    Chained t (top + heightsBefore t k) ((List.range' k n).map (fun j => Item.header j (top + heightsBefore t j)) ++ rest) := by
  intro n
  induction n with
  | zero => intro k h; simpa using h
  | succ n ih =>
    intro k h
    rw [List.range'_succ, List.map_cons, List.cons_append]
    refine ⟨rfl, ?_⟩
    have := ih (k + 1) (by rw [show k + 1 + n = k + (n + 1) by omega]; exact h)
    rw [heightsBefore_succ] at this
    rw [add_assoc]
    exact this

variable {t : Tab} {rh : Int} {bottom : ℚ} {mode : Option Bool}

theorem Run.rows {i : Nat} {y : ℚ} {items : List Item} (h : Run t rh bottom mode i y items) :
    items.filterMap Item.rowIdx = List.range' i (t.rows.length - i) := by
  induction h with
  | nil hi => subst hi; simp
  | @stay i y items hi _ _ ih =>
    rw [show t.rows.length - i = (t.rows.length - (i + 1)) + 1 by omega, List.range'_succ]
    simp [Item.rowIdx, ih]
  | @brk i y top y1 hs items hi _ _ hhs hy1 _ ih =>
    rw [show t.rows.length - i = (t.rows.length - (i + 1)) + 1 by omega, List.range'_succ]
    have : hs.filterMap Item.rowIdx = [] := by
      rw [hhs]; split
      · exact headersAt_rowIdx _ _ _
      · rfl
    rw [List.cons_append, List.filterMap_cons_none rfl, List.filterMap_append, this, List.nil_append]
    simp [Item.rowIdx, ih]

theorem Run.chained {i : Nat} {y : ℚ} {items : List Item} (h : Run t rh bottom mode i y items) : Chained t y items := by
  induction h with
  | nil _ => trivial
  | stay _ _ _ ih => exact ⟨rfl, ih⟩
  | @brk i y top y1 hs items hi _ _ hhs hy1 _ ih =>
    show Chained t top (hs ++ _)
    rw [hhs]
    by_cases hc : i > 0 ∧ rh > 0
    · rw [if_pos hc] at hy1 ⊢
      unfold headersAt
      rw [List.range_eq_range']
      have := chained_headers t top (.row i y1 :: items) (min rh.toNat t.rows.length) 0 (by
        rw [Nat.zero_add, ← hy1]; exact ⟨rfl, ih⟩)
      simpa [heightsBefore] using this
    · rw [if_neg hc] at hy1 ⊢
      rw [hy1] at ih ⊢
      exact ⟨rfl, ih⟩

/-- The headers after a break before row `k`. -/
def hdrs (t : Tab) (rh : Int) (k : Nat) (top : ℚ) : List Item := if k > 0 ∧ rh > 0 then headersAt t rh.toNat top else []

theorem hdrs_header {k : Nat} {top : ℚ} {it : Item} (h : it ∈ hdrs t rh k top) : ∃ j z, it = .header j z := by
  unfold hdrs at h
  split at h
  · exact headersAt_no_page _ _ _ h
  · simp at h

/-- Splitting at an item that is not a header. -/
theorem split_hdrs {hs pre post items : List Item} {x r : Item} (hhs : ∀ it ∈ hs, ∃ j z, it = Item.header j z)
    (hx : ∀ j z, x ≠ .header j z) (h : hs ++ r :: items = pre ++ x :: post) :
    (pre = hs ∧ x = r ∧ post = items) ∨ ∃ pre', pre = hs ++ r :: pre' ∧ items = pre' ++ x :: post := by
  rcases List.append_eq_append_iff.mp h with ⟨a, h1, h2⟩ | ⟨c, h1, h2⟩
  · cases a with
    | nil =>
      simp only [List.nil_append, List.cons.injEq] at h2
      left
      exact ⟨by simpa using h1, h2.1.symm, h2.2.symm⟩
    | cons a0 a =>
      simp only [List.cons_append, List.cons.injEq] at h2
      obtain ⟨rfl, h2⟩ := h2
      exact Or.inr ⟨a, h1, h2⟩
  · cases c with
    | nil =>
      simp only [List.nil_append, List.cons.injEq] at h2
      left
      exact ⟨by simpa using h1.symm, h2.1, h2.2⟩
    | cons c0 c =>
      simp only [List.cons_append, List.cons.injEq] at h2
      obtain ⟨j, z, e⟩ := hhs x (by rw [h1, h2.1]; simp)
      exact absurd e (hx j z)

theorem Run.at_row {i : Nat} {y : ℚ} {items : List Item} (h : Run t rh bottom (some false) i y items) :
    ∀ (pre post : List Item) (k : Nat) (z : ℚ), items = pre ++ .row k z :: post →
      Fits t k z bottom ∨ ∃ pre' top, pre = pre' ++ .page top :: hdrs t rh k top := by
  induction h with
  | nil _ => intro pre post k z he; simp at he
  | @stay i y items hi hf _ ih =>
    intro pre post k z he
    cases pre with
    | nil =>
      simp only [List.nil_append, List.cons.injEq, Item.row.injEq] at he
      obtain ⟨⟨rfl, rfl⟩, _⟩ := he
      exact Or.inl (hf rfl)
    | cons p pre =>
      simp only [List.cons_append, List.cons.injEq] at he
      rcases ih pre post k z he.2 with h | ⟨pre', top, h⟩
      · exact Or.inl h
      · exact Or.inr ⟨p :: pre', top, by rw [h]; rfl⟩
  | @brk i y top y1 hs items hi _ _ hhs hy1 _ ih =>
    intro pre post k z he
    have hhs' : hs = hdrs t rh i top := hhs
    cases pre with
    | nil => simp at he
    | cons p pre =>
      simp only [List.cons_append, List.cons.injEq] at he
      obtain ⟨rfl, he⟩ := he
      rcases split_hdrs (fun it hit => hdrs_header (by rw [← hhs']; exact hit)) (fun j z => by simp) he with ⟨h1, h2, _⟩ | ⟨pre2, h1, h2⟩
      · simp only [Item.row.injEq] at h2
        obtain ⟨rfl, rfl⟩ := h2
        exact Or.inr ⟨[], top, by rw [h1, hhs']; rfl⟩
      · rcases ih pre2 post k z h2 with h | ⟨pre', top', h⟩
        · exact Or.inl h
        · exact Or.inr ⟨.page top :: hs ++ .row i y1 :: pre', top', by rw [h1, h]; simp⟩

theorem Run.at_page {i : Nat} {y : ℚ} {items : List Item} (h : Run t rh bottom mode i y items) :
    ∀ (pre post : List Item) (top : ℚ), items = pre ++ .page top :: post →
      mode ≠ some true ∧ ∃ k z post', k < t.rows.length ∧ post = hdrs t rh k top ++ .row k z :: post' ∧ ¬ Fits t k (endY t y pre) bottom := by
  induction h with
  | nil _ => intro pre post top he; simp at he
  | @stay i y items hi hf _ ih =>
    intro pre post top he
    cases pre with
    | nil => simp at he
    | cons p pre =>
      simp only [List.cons_append, List.cons.injEq] at he
      have := ih pre post top he.2
      rw [← he.1]
      exact this
  | @brk i y top y1 hs items hi hmo hnf hhs hy1 _ ih =>
    intro pre post top' he
    have hhs' : hs = hdrs t rh i top := hhs
    cases pre with
    | nil =>
      simp only [List.nil_append, List.cons_append, List.cons.injEq, Item.page.injEq] at he
      obtain ⟨rfl, he⟩ := he
      exact ⟨hmo, i, y1, items, hi, by rw [← he, hhs'], hnf⟩
    | cons p pre =>
      simp only [List.cons_append, List.cons.injEq] at he
      obtain ⟨rfl, he⟩ := he
      rcases split_hdrs (fun it hit => hdrs_header (by rw [← hhs']; exact hit)) (fun j z => by simp) he with ⟨h1, h2, _⟩ | ⟨pre2, h1, h2⟩
      · simp at h2
      · have := ih pre2 post top' h2
        have e : endY t y (.page top :: pre) = endY t (y1 + heightOf t i) pre2 := by
          rw [h1]; simp [endY, Item.endY]
        rw [e]
        exact this

theorem Run.at_header {i : Nat} {y : ℚ} {items : List Item} (h : Run t rh bottom mode i y items) :
    ∀ (pre post : List Item) (j : Nat) (z : ℚ), items = pre ++ .header j z :: post →
      ∃ k top z' pre' post', k > 0 ∧ rh > 0 ∧ items = pre' ++ .page top :: headersAt t rh.toNat top ++ .row k z' :: post' ∧
        pre = pre' ++ .page top :: (headersAt t rh.toNat top).take j := by
  induction h with
  | nil _ => intro pre post j z he; simp at he
  | @stay i y items hi hf _ ih =>
    intro pre post j z he
    cases pre with
    | nil => simp at he
    | cons p pre =>
      simp only [List.cons_append, List.cons.injEq] at he
      obtain ⟨k, top, z', pre', post', h1, h2, h3, h4⟩ := ih pre post j z he.2
      exact ⟨k, top, z', .row i y :: pre', post', h1, h2, by rw [h3]; rfl, by rw [h4, ← he.1]; rfl⟩
  | @brk i y top y1 hs items hi hmo hnf hhs hy1 _ ih =>
    intro pre post j z he
    have hhs' : hs = hdrs t rh i top := hhs
    cases pre with
    | nil => simp at he
    | cons p pre =>
      simp only [List.cons_append, List.cons.injEq] at he
      obtain ⟨rfl, he⟩ := he
      rcases List.append_eq_append_iff.mp he with ⟨a, h1, h2⟩ | ⟨c, h1, h2⟩
      · cases a with
        | nil => simp at h2
        | cons a0 a =>
          simp only [List.cons_append, List.cons.injEq] at h2
          obtain ⟨k, top', z', pre', post', e1, e2, e3, e4⟩ := ih a post j z h2.2
          exact ⟨k, top', z', .page top :: hs ++ .row i y1 :: pre', post', e1, e2, by rw [e3]; simp, by rw [h1, e4, ← h2.1]; simp⟩
      · cases c with
        | nil => simp at h2
        | cons c0 c =>
          simp only [List.cons_append, List.cons.injEq] at h2
          obtain ⟨rfl, h2⟩ := h2
          have hc : i > 0 ∧ rh > 0 := by
            by_contra hc
            rw [if_neg hc] at hhs
            rw [hhs] at h1
            simp at h1
          rw [if_pos hc] at hhs
          refine ⟨i, top, y1, [], items, hc.1, hc.2, by rw [hhs]; rfl, ?_⟩
          have hlen : pre.length = j := by
            have := congrArg (fun l => l[pre.length]?) h1
            rw [hhs] at this
            unfold headersAt at this
            simp only [List.getElem?_map, List.getElem?_append_right (Nat.le_refl _), Nat.sub_self, List.getElem?_cons_zero] at this
            rw [Option.map_eq_some_iff] at this
            obtain ⟨m, hm1, hm2⟩ := this
            simp only [Item.header.injEq] at hm2
            rw [List.getElem?_range] at hm1
            · simp only [Option.some.injEq] at hm1; omega
            · by_contra hge
              rw [List.getElem?_eq_none (by rw [List.length_range]; omega)] at hm1
              simp at hm1
          rw [← hhs, h1, ← hlen]
          simp

end Verif.Proofs
