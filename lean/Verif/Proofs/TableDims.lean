import Verif.Proofs.TableSpans
import Mathlib.Tactic.Linarith
import Mathlib.Tactic.Ring
import Mathlib.Tactic.FieldSimp
import Mathlib.Algebra.Order.Field.Rat
/-
Column widths and row heights.
-/
namespace Verif.Proofs
open Verif.Go Verif.Model

/-- Changing every cell of a row, by its column. -/
def updCells (g : Nat → TCell → TCell) : Nat → List Nat → Tab → Tab
  | _, [], t => t
  | ic, id :: ids, t => updCells g (ic + 1) ids (t.modCell id (g ic))

/-- Changing every cell. -/
def updRows (g : TRow → Nat → TCell → TCell) (rows : List TRow) (t : Tab) : Tab :=
  rows.foldl (fun t r => updCells (g r) 0 r.cells t) t

theorem updCells_spec (g : Nat → TCell → TCell) : ∀ (ids : List Nat) (ic : Nat) (t : Tab), (∀ x ∈ ids, x < t.heap.length) → ids.Nodup →
    let t' := updCells g ic ids t
    t'.heap.length = t.heap.length ∧ t'.rows = t.rows ∧ t'.columnCount = t.columnCount ∧
      (∀ x, x ∉ ids → t'.cell x = t.cell x) ∧
      (∀ k x, ids[k]? = some x → t'.cell x = g (ic + k) (t.cell x)) := by
  intro ids
  induction ids with
  | nil => intro ic t _ _; exact ⟨rfl, rfl, rfl, fun _ _ => rfl, by simp⟩
  | cons id ids ih =>
    intro ic t hb hn
    have hid := hb id (by simp)
    set t1 := t.modCell id (g ic) with ht1
    have hc1 : ∀ x, t1.cell x = if x = id then g ic (t.cell id) else t.cell x := fun x => by
      rw [ht1, cell_modCell _ _ _ _ hid]
    have hh1 : t1.heap.length = t.heap.length := by rw [ht1, heap_modCell]
    have hnot := (List.nodup_cons.mp hn).1
    obtain ⟨q1, q2, q3, q5, q6⟩ := ih (ic + 1) t1 (fun x hx => by rw [hh1]; exact hb x (by simp [hx])) (List.nodup_cons.mp hn).2
    refine ⟨by rw [updCells, q1, hh1], q2, q3, ?_, ?_⟩
    · intro x hx
      rw [updCells, q5 x (fun h => hx (by simp [h])), hc1, if_neg (fun h => hx (by simp [h]))]
    · intro k x hk
      cases k with
      | zero =>
        simp at hk
        subst hk
        rw [updCells, q5 id hnot, hc1, if_pos rfl]; rfl
      | succ k =>
        have hk' : ids[k]? = some x := by simpa using hk
        have := q6 k x hk'
        rw [updCells, this, hc1, if_neg (by rintro rfl; exact hnot (List.mem_of_getElem? hk'))]
        congr 1; omega

theorem updRows_spec (g : TRow → Nat → TCell → TCell) : ∀ (rows : List TRow) (t : Tab), (∀ r ∈ rows, ∀ x ∈ r.cells, x < t.heap.length) →
    (∀ r ∈ rows, r.cells.Nodup) →
    (∀ (i j x : Nat) (r r' : TRow), rows[i]? = some r → rows[j]? = some r' → x ∈ r.cells → x ∈ r'.cells → i = j) →
    let t' := updRows g rows t
    t'.heap.length = t.heap.length ∧ t'.rows = t.rows ∧ t'.columnCount = t.columnCount ∧
      (∀ x, (∀ r ∈ rows, x ∉ r.cells) → t'.cell x = t.cell x) ∧
      (∀ (r : TRow) (k x : Nat), r ∈ rows → r.cells[k]? = some x → t'.cell x = g r k (t.cell x)) := by
  intro rows
  induction rows with
  | nil => intro t _ _ _; exact ⟨rfl, rfl, rfl, fun _ _ => rfl, by simp⟩
  | cons r rows ih =>
    intro t hb hn hd
    obtain ⟨p1, p2, p3, p5, p6⟩ := updCells_spec (g r) r.cells 0 t (hb r (by simp)) (hn r (by simp))
    set t1 := updCells (g r) 0 r.cells t with ht1
    obtain ⟨q1, q2, q3, q5, q6⟩ := ih t1 (fun r' hr' x hx => by rw [p1]; exact hb r' (by simp [hr']) x hx)
      (fun r' hr' => hn r' (by simp [hr']))
      (fun i j x r1 r2 h1 h2 hx1 hx2 => by
        have := hd (i + 1) (j + 1) x r1 r2 (by simpa using h1) (by simpa using h2) hx1 hx2
        omega)
    have heq : updRows g (r :: rows) t = updRows g rows t1 := rfl
    have hnot : ∀ x ∈ r.cells, ∀ r' ∈ rows, x ∉ r'.cells := by
      intro x hx r' hr' hx'
      obtain ⟨j, hj⟩ := List.getElem?_of_mem hr'
      have := hd 0 (j + 1) x r r' (by simp) (by simpa using hj) hx hx'
      omega
    refine ⟨by rw [heq, q1, p1], by rw [heq, q2, p2], by rw [heq, q3, p3], ?_, ?_⟩
    · intro x hx
      rw [heq, q5 x (fun r' hr' => hx r' (by simp [hr'])), p5 x (hx r (by simp))]
    · intro r' k x hr hx
      rw [heq]
      by_cases hin : r' ∈ rows
      · rw [q6 r' k x hin hx, p5 x (fun h => hnot x h r' hin (List.mem_of_getElem? hx))]
      · rcases List.mem_cons.mp hr with rfl | h
        · rw [q5 x (hnot x (List.mem_of_getElem? hx)), p6 k x hx]; simp
        · exact absurd h hin

/-- The premises of `updRows_spec` from the invariant. -/
theorem Inv.upd {H0 : List TCell} {orig : List (List Nat)} {t : Tab} (hi : Inv H0 orig t) :
    (∀ r ∈ t.rows, ∀ x ∈ r.cells, x < t.heap.length) ∧ (∀ r ∈ t.rows, r.cells.Nodup) ∧
    (∀ (i j x : Nat) (r r' : TRow), t.rows[i]? = some r → t.rows[j]? = some r' → x ∈ r.cells → x ∈ r'.cells → i = j) := by
  refine ⟨?_, ?_, ?_⟩
  · intro r hr x hx
    obtain ⟨i, _, hrow⟩ := hi.cell_mem hr
    exact hi.bound i x (by rw [hrow]; exact hx)
  · intro r hr
    obtain ⟨i, _, hrow⟩ := hi.cell_mem hr
    rw [← hrow]; exact hi.nod i
  · intro i j x r r' hr hr' hx hx'
    exact hi.inj i j x (by rw [rowAt_of_getElem? hr]; exact hx) (by rw [rowAt_of_getElem? hr']; exact hx')

/-- Equal but for sizes. -/
def Shape (t t' : Tab) : Prop :=
  t'.heap.length = t.heap.length ∧ t'.columnCount = t.columnCount ∧ t'.rows.length = t.rows.length ∧ (∀ r, rowAt t' r = rowAt t r) ∧
  ∀ x, Core (t'.cell x) (t.cell x) ∧ (t'.cell x).rowIdx = (t.cell x).rowIdx ∧ (t'.cell x).cellIdx = (t.cell x).cellIdx

theorem Shape.refl (t : Tab) : Shape t t := ⟨rfl, rfl, rfl, fun _ => rfl, fun _ => ⟨Core.refl _, rfl, rfl⟩⟩

theorem Shape.trans {t t' t'' : Tab} (h : Shape t t') (h' : Shape t' t'') : Shape t t'' :=
  ⟨h'.1.trans h.1, h'.2.1.trans h.2.1, h'.2.2.1.trans h.2.2.1, fun r => (h'.2.2.2.1 r).trans (h.2.2.2.1 r), fun x =>
    ⟨(h'.2.2.2.2 x).1.trans (h.2.2.2.2 x).1, (h'.2.2.2.2 x).2.1.trans (h.2.2.2.2 x).2.1, (h'.2.2.2.2 x).2.2.trans (h.2.2.2.2 x).2.2⟩⟩

theorem Spanned.shape {H0 : List TCell} {orig : List (List Nat)} {t t' : Tab} (h : Spanned H0 orig t) (hs : Shape t t') :
    Spanned H0 orig t' := by
  obtain ⟨s1, s2, s3, s4, s5⟩ := hs
  refine ⟨h.inv.core s1 (fun x => (s5 x).1) s4, by rw [s3]; exact h.height, ?_, ?_, ?_, ?_, ?_⟩
  · intro r hr; rw [s4, s2]; exact h.width r (by omega)
  · intro r k x hx; rw [s4] at hx; rw [(s5 x).2.1, (s5 x).2.2]; exact h.index r k x hx
  · intro r h1 h2
    obtain ⟨s, q1, q2⟩ := h.extra r h1 (by omega)
    exact ⟨s, by rw [s4]; exact q1, by rw [(s5 s).1.2.2.2.2.1]; exact q2⟩
  · intro a ha; rw [(s5 a).1.2.2.2.2.2.1]; exact h.nCols a ha
  · intro a ha; rw [(s5 a).1.2.2.2.2.2.2.1]; exact h.nRows a ha

/-! ### Widths -/

theorem widthsRow_spec (t : Tab) : ∀ (ids : List Nat) (ic : Nat) (cws : List ℚ), ic + ids.length ≤ cws.length →
    ∃ cws', widthsRow t ic ids cws = some cws' ∧ cws'.length = cws.length ∧
      (∀ k, (k < ic ∨ ic + ids.length ≤ k) → cws'.getD k 0 = cws.getD k 0) ∧
      (∀ k x, ids[k]? = some x → cws'.getD (ic + k) 0 = max (cws.getD (ic + k) 0) (t.cell x).styles.columnWidth) := by
  intro ids
  induction ids with
  | nil => intro ic cws _; exact ⟨cws, rfl, rfl, fun _ _ => rfl, by simp⟩
  | cons id ids ih =>
    intro ic cws hl
    simp only [List.length_cons] at hl
    have hlt : ic < cws.length := by omega
    have hget := List.getElem?_eq_getElem hlt
    set cws1 := if (t.cell id).styles.columnWidth > cws[ic] then cws.set ic (t.cell id).styles.columnWidth else cws with h1
    have hlen1 : cws1.length = cws.length := by rw [h1]; split <;> simp
    have hother : ∀ k, k ≠ ic → cws1.getD k 0 = cws.getD k 0 := by
      intro k hk
      rw [h1]; split
      · simp only [List.getD_eq_getElem?_getD, List.getElem?_set]
        rw [if_neg (fun h => hk h.symm)]
      · rfl
    have hself : cws1.getD ic 0 = max (cws.getD ic 0) (t.cell id).styles.columnWidth := by
      have hg : cws.getD ic 0 = cws[ic] := by simp [List.getD_eq_getElem?_getD, hget]
      rw [h1, hg]; split
      · rename_i h
        rw [max_eq_right (le_of_lt h)]
        simp [List.getD_eq_getElem?_getD, hlt]
      · rename_i h
        rw [max_eq_left (not_lt.mp h), hg]
    obtain ⟨cws', q1, q2, q3, q4⟩ := ih (ic + 1) cws1 (by omega)
    refine ⟨cws', by rw [widthsRow, hget]; exact q1, by omega, ?_, ?_⟩
    · intro k hk
      simp only [List.length_cons] at hk
      rw [q3 k (by omega), hother k (by omega)]
    · intro k x hx
      cases k with
      | zero =>
        simp at hx
        subst hx
        rw [Nat.add_zero, q3 ic (by omega), hself]
      | succ k =>
        have := q4 k x (by simpa using hx)
        rw [show ic + (k + 1) = ic + 1 + k by omega, this, hother _ (by omega)]

theorem widthsRows_spec (t : Tab) (cc : Nat) : ∀ (rows : List TRow) (cws : List ℚ), (∀ r ∈ rows, r.cells.length = cc) → cws.length = cc →
    ∃ cws', widthsRows t rows cws = some cws' ∧ cws'.length = cc ∧
      (∀ k, cws.getD k 0 ≤ cws'.getD k 0) ∧
      (∀ (r : TRow) (k x : Nat), r ∈ rows → r.cells[k]? = some x → (t.cell x).styles.columnWidth ≤ cws'.getD k 0) ∧
      (∀ k, cws'.getD k 0 = cws.getD k 0 ∨ ∃ r ∈ rows, ∃ x, r.cells[k]? = some x ∧ (t.cell x).styles.columnWidth = cws'.getD k 0) := by
  intro rows
  induction rows with
  | nil => intro cws _ hl; exact ⟨cws, rfl, hl, fun _ => le_refl _, by simp, fun k => Or.inl rfl⟩
  | cons r rows ih =>
    intro cws hr hl
    have hrl := hr r (by simp)
    obtain ⟨cws1, p1, p2, p3, p4⟩ := widthsRow_spec t r.cells 0 cws (by omega)
    obtain ⟨cws', q1, q2, q3, q4, q5⟩ := ih cws1 (fun r' h => hr r' (by simp [h])) (by omega)
    have hle : ∀ k, cws.getD k 0 ≤ cws1.getD k 0 := by
      intro k
      rcases Nat.lt_or_ge k r.cells.length with h | h
      · have := p4 k _ (List.getElem?_eq_getElem h)
        rw [Nat.zero_add] at this
        rw [this]; exact le_max_left _ _
      · rw [p3 k (by omega)]
    refine ⟨cws', by rw [widthsRows, p1]; exact q1, q2, fun k => le_trans (hle k) (q3 k), ?_, ?_⟩
    · intro r' k x hr' hx
      rcases List.mem_cons.mp hr' with rfl | h
      · have := p4 k x hx
        rw [Nat.zero_add] at this
        exact le_trans (by rw [this]; exact le_max_right _ _) (q3 k)
      · exact q4 r' k x h hx
    · intro k
      rcases q5 k with h | ⟨r', h1, x, h2, h3⟩
      · rcases Nat.lt_or_ge k r.cells.length with hk | hk
        · have hg := List.getElem?_eq_getElem hk
          have := p4 k _ hg
          rw [Nat.zero_add] at this
          rcases le_total (cws.getD k 0) (t.cell r.cells[k]).styles.columnWidth with hm | hm
          · right; exact ⟨r, by simp, _, hg, by rw [h, this, max_eq_right hm]⟩
          · left; rw [h, this, max_eq_left hm]
        · left; rw [h, p3 k (by omega)]
      · right; exact ⟨r', by simp [h1], x, h2, h3⟩

theorem setWidths_eq (cws : List ℚ) : ∀ (ids : List Nat) (ic : Nat) (t : Tab), ic + ids.length ≤ cws.length →
    setWidths cws ic ids t = some (updCells (fun k c => { c with width := cws.getD k 0 }) ic ids t) := by
  intro ids
  induction ids with
  | nil => intro ic t _; rfl
  | cons id ids ih =>
    intro ic t hl
    simp only [List.length_cons] at hl
    have hget := List.getElem?_eq_getElem (show ic < cws.length by omega)
    rw [setWidths, hget]
    simp only
    rw [ih (ic + 1) _ (by omega), updCells]
    simp [List.getD_eq_getElem?_getD, hget]

theorem setAllWidths_eq (cws : List ℚ) : ∀ (rows : List TRow) (t : Tab), (∀ r ∈ rows, r.cells.length ≤ cws.length) →
    setAllWidths cws rows t = some (updRows (fun _ k c => { c with width := cws.getD k 0 }) rows t) := by
  intro rows
  induction rows with
  | nil => intro t _; rfl
  | cons r rows ih =>
    intro t h
    rw [setAllWidths, setWidths_eq cws r.cells 0 t (by have := h r (by simp); omega)]
    simp only
    rw [ih _ (fun r' h' => h r' (by simp [h']))]
    rfl

theorem rowAt_mem_rows {t : Tab} {r k x : Nat} (h : (rowAt t r)[k]? = some x) : ∃ row ∈ t.rows, row.cells[k]? = some x ∧ t.rows[r]? = some row := by
  have hr : r < t.rows.length := by
    by_contra hc
    rw [rowAt_ge (by omega)] at h
    simp at h
  have hg := List.getElem?_eq_getElem hr
  rw [rowAt_of_getElem? hg] at h
  exact ⟨_, List.getElem_mem hr, h, hg⟩

theorem updRows_shape {H0 : List TCell} {orig : List (List Nat)} {t : Tab} (hi : Inv H0 orig t) (g : TRow → Nat → TCell → TCell)
    (hg : ∀ r k c, Core (g r k c) c ∧ (g r k c).rowIdx = c.rowIdx ∧ (g r k c).cellIdx = c.cellIdx) :
    Shape t (updRows g t.rows t) := by
  obtain ⟨u1, u2, u3⟩ := hi.upd
  obtain ⟨q1, q2, q3, q4, q5⟩ := updRows_spec g t.rows t u1 u2 u3
  refine ⟨q1, q3, by rw [q2], fun r => by unfold rowAt; rw [q2], fun x => ?_⟩
  by_cases h : ∃ r ∈ t.rows, x ∈ r.cells
  · obtain ⟨r, hr, hx⟩ := h
    obtain ⟨k, hk⟩ := List.getElem?_of_mem hx
    rw [q5 r k x hr hk]
    exact hg r k _
  · rw [q4 x (fun r hr hx => h ⟨r, hr, hx⟩)]
    exact ⟨Core.refl _, rfl, rfl⟩

/-- Widths: never out of range; the column widths. -/
theorem assignColumnWidths_spec {H0 : List TCell} {orig : List (List Nat)} {t : Tab} (h : Spanned H0 orig t) (width : ℚ) :
    ∃ t' cws, assignColumnWidths width t = some t' ∧ Shape t t' ∧ cws.length = t.columnCount ∧
      (∀ k, 0 ≤ cws.getD k 0) ∧
      (∀ r k x, (rowAt t r)[k]? = some x → (t.cell x).styles.columnWidth ≤ cws.getD k 0) ∧
      (∀ k, cws.getD k 0 = 0 ∨ ∃ r x, (rowAt t r)[k]? = some x ∧ (t.cell x).styles.columnWidth = cws.getD k 0) ∧
      (∀ r k x, (rowAt t r)[k]? = some x → (t'.cell x).width = (fillWidths width cws).getD k 0) := by
  have hlen : ∀ r ∈ t.rows, r.cells.length = t.columnCount := by
    intro r hr
    obtain ⟨i, hi, hrow⟩ := h.inv.cell_mem hr
    rw [← hrow]
    refine h.width i ?_
    by_contra hc
    rw [List.getElem?_eq_none (by omega)] at hi
    simp at hi
  have hzero : ∀ k, (List.replicate t.columnCount (0 : ℚ)).getD k 0 = 0 := by
    intro k
    simp only [List.getD_eq_getElem?_getD, List.getElem?_replicate]
    split <;> rfl
  obtain ⟨cws, q1, q2, q3, q4, q5⟩ := widthsRows_spec t t.columnCount t.rows (List.replicate t.columnCount 0) hlen (by simp)
  have hfl : (fillWidths width cws).length = cws.length := by
    unfold fillWidths; dsimp only; split <;> simp
  have hset := setAllWidths_eq (fillWidths width cws) t.rows t (fun r hr => by rw [hlen r hr, hfl, q2])
  refine ⟨_, cws, by rw [assignColumnWidths, q1]; exact hset, ?_, q2, ?_, ?_, ?_, ?_⟩
  · exact updRows_shape h.inv _ (fun r k c => ⟨⟨rfl, rfl, rfl, rfl, rfl, rfl, rfl, rfl⟩, rfl, rfl⟩)
  · intro k; have := q3 k; rw [hzero] at this; exact this
  · intro r k x hx
    obtain ⟨row, h1, h2, _⟩ := rowAt_mem_rows hx
    exact q4 row k x h1 h2
  · intro k
    rcases q5 k with e | ⟨row, h1, x, h2, h3⟩
    · left; rw [e, hzero]
    · right
      obtain ⟨i, hi, hrow⟩ := h.inv.cell_mem h1
      exact ⟨i, x, by rw [hrow]; exact h2, h3⟩
  · intro r k x hx
    obtain ⟨row, h1, h2, _⟩ := rowAt_mem_rows hx
    obtain ⟨u1, u2, u3⟩ := h.inv.upd
    obtain ⟨_, _, _, _, w5⟩ := updRows_spec (fun _ k c => { c with width := (fillWidths width cws).getD k 0 }) t.rows t u1 u2 u3
    rw [w5 row k x h1 h2]

theorem usedSpace_spec (share : ℚ) : ∀ cws : List ℚ, (∀ w ∈ cws, 0 ≤ w) →
    (cws.map fun w => if w = 0 then share else w).sum = (usedSpace cws).1 + (usedSpace cws).2 * share ∧
    ((usedSpace cws).2 = 0 ↔ 0 ∉ cws) := by
  intro cws
  induction cws with
  | nil => intro _; simp [usedSpace]
  | cons w cws ih =>
    intro h
    obtain ⟨i1, i2⟩ := ih (fun w' h' => h w' (by simp [h']))
    rw [List.map_cons, List.sum_cons, i1, usedSpace]
    have hw := h w (by simp)
    by_cases hp : w > 0
    · have hne : w ≠ 0 := ne_of_gt hp
      simp only [hp, if_true, hne, if_false]
      refine ⟨by ring, ?_⟩
      rw [i2]
      simp [Ne.symm hne]
    · have he : w = 0 := le_antisymm (not_lt.mp hp) hw
      subst he
      simp
      ring

/-- The columns without a width share what is left. -/
theorem fillWidths_spec {cws : List ℚ} (h : ∀ w ∈ cws, 0 ≤ w) (width : ℚ) :
    (0 ∈ cws → (fillWidths width cws).sum = width) ∧
    ∃ share : ℚ, fillWidths width cws = cws.map fun w => if w = 0 then share else w := by
  have hz := (usedSpace_spec 0 cws h).2
  unfold fillWidths
  dsimp only
  by_cases h0 : (usedSpace cws).2 > 0
  · rw [if_pos h0]
    refine ⟨fun _ => ?_, _, rfl⟩
    rw [(usedSpace_spec _ cws h).1]
    have : ((usedSpace cws).2 : ℚ) ≠ 0 := by
      have : (usedSpace cws).2 ≠ 0 := by omega
      exact_mod_cast this
    field_simp
    ring
  · rw [if_neg h0]
    have hn : 0 ∉ cws := hz.mp (by omega)
    refine ⟨fun hc => absurd hc hn, 0, ?_⟩
    symm
    rw [List.map_congr_left (g := id)]
    · simp
    · intro w hw
      by_cases e : w = 0
      · subst e; exact absurd hw hn
      · simp [e]

end Verif.Proofs
