import Verif.Proofs.TableRows
import Mathlib.Data.List.Nodup
/-
Span processing as a whole.
-/
namespace Verif.Proofs
open Verif.Go Verif.Model

/-- Equal but for position and size. -/
def Core (c d : TCell) : Prop :=
  c.styles = d.styles ∧ c.iss = d.iss ∧ c.colSpan = d.colSpan ∧ c.rowSpan = d.rowSpan ∧ c.spannedBy = d.spannedBy ∧
  c.spansCols = d.spansCols ∧ c.spansRows = d.spansRows ∧ c.zero = d.zero

theorem Core.refl (c : TCell) : Core c c := ⟨rfl, rfl, rfl, rfl, rfl, rfl, rfl, rfl⟩

theorem Core.trans {c d e : TCell} (h1 : Core c d) (h2 : Core d e) : Core c e := by
  obtain ⟨a1, a2, a3, a4, a5, a6, a7, a8⟩ := h1
  obtain ⟨b1, b2, b3, b4, b5, b6, b7, b8⟩ := h2
  exact ⟨a1.trans b1, a2.trans b2, a3.trans b3, a4.trans b4, a5.trans b5, a6.trans b6, a7.trans b7, a8.trans b8⟩

theorem SameButIdx.core {c d : TCell} (h : SameButIdx c d) : Core c d := by
  obtain ⟨i, j, rfl⟩ := h
  exact Core.refl _

theorem Inv.core {H0 : List TCell} {orig : List (List Nat)} {t t' : Tab} (hi : Inv H0 orig t)
    (hl : t'.heap.length = t.heap.length) (hc : ∀ x, Core (t'.cell x) (t.cell x)) (hr : ∀ r, rowAt t' r = rowAt t r) : Inv H0 orig t' := by
  have c1 := fun x => (hc x).1
  have c2 := fun x => (hc x).2.1
  have c3 := fun x => (hc x).2.2.1
  have c4 := fun x => (hc x).2.2.2.1
  have c5 := fun x => (hc x).2.2.2.2.1
  have c6 := fun x => (hc x).2.2.2.2.2.1
  have c7 := fun x => (hc x).2.2.2.2.2.2.1
  have c8 := fun x => (hc x).2.2.2.2.2.2.2
  constructor
  · rw [hl]; exact hi.len
  · intro r; rw [hr, hl]; exact hi.bound r
  · intro r r' x; rw [hr, hr]; exact hi.inj r r' x
  · intro r; rw [hr]; exact hi.nod r
  · intro r; rw [hr]; exact hi.auth r
  · intro a; rw [c1, c2, c3, c4, c5, c8]; exact hi.authored a
  · intro s; rw [c1, c2, c5, c6, c7, c8, hl]; exact hi.made s
  · intro a i; rw [c6, hr]; intro h1 h2 s hs; rw [c5]; exact hi.cols a i h1 h2 s hs
  · intro a; rw [c6]; exact hi.colsNodup a
  · intro a i; rw [c7, hr]; intro h1 h2 n s hs; rw [c5, hr]; exact hi.rows a i h1 h2 n s hs
  · intro r s a; rw [c5, c6, c7, hr]; exact hi.own r s a

/-- A table before span processing. -/
structure Fresh (H0 : List TCell) (orig : List (List Nat)) (t : Tab) : Prop where
  heap : t.heap = H0
  row : ∀ r, rowAt t r = orig.getD r []
  len : t.rows.length = orig.length
  ids : orig.flatten = List.range H0.length
  new : ∀ c ∈ H0, c.spannedBy = none ∧ c.zero = false ∧ c.spansCols = [] ∧ c.spansRows = []

theorem getD_mem_or_nil (l : List (List Nat)) (r : Nat) : l.getD r [] ∈ l ∨ l.getD r [] = [] := by
  rcases Nat.lt_or_ge r l.length with h | h
  · left; rw [List.getD_eq_getElem?_getD, List.getElem?_eq_getElem h]; simp
  · right; simp [List.getD_eq_getElem?_getD, List.getElem?_eq_none h]

theorem getD_disjoint {l : List (List Nat)} (hn : l.flatten.Nodup) {r r' x : Nat} (h : x ∈ l.getD r []) (h' : x ∈ l.getD r' []) :
    r = r' := by
  have hp := (List.nodup_flatten.mp hn).2
  rw [List.getD_eq_getElem?_getD] at h h'
  have hr : r < l.length := by
    by_contra hc; rw [List.getElem?_eq_none (by omega)] at h; simp at h
  have hr' : r' < l.length := by
    by_contra hc; rw [List.getElem?_eq_none (by omega)] at h'; simp at h'
  rw [List.getElem?_eq_getElem hr] at h
  rw [List.getElem?_eq_getElem hr'] at h'
  rw [List.pairwise_iff_getElem] at hp
  rcases Nat.lt_trichotomy r r' with q | q | q
  · exact absurd h' (hp r r' hr hr' q h)
  · exact q
  · exact absurd h (hp r' r hr' hr q h')

theorem Fresh.cell {H0 : List TCell} {orig : List (List Nat)} {t : Tab} (h : Fresh H0 orig t) (a : Nat) :
    t.cell a = H0.getD a TCell.new := by unfold Tab.cell; rw [h.heap]

theorem Fresh.cell_new {H0 : List TCell} {orig : List (List Nat)} {t : Tab} (h : Fresh H0 orig t) (a : Nat) :
    (t.cell a).spannedBy = none ∧ (t.cell a).zero = false ∧ (t.cell a).spansCols = [] ∧ (t.cell a).spansRows = [] := by
  rw [h.cell]
  rcases Nat.lt_or_ge a H0.length with q | q
  · rw [List.getD_eq_getElem?_getD, List.getElem?_eq_getElem q]
    exact h.new _ (List.getElem_mem q)
  · rw [List.getD_eq_getElem?_getD, List.getElem?_eq_none q]
    simp [TCell.new]

theorem Fresh.lt {H0 : List TCell} {orig : List (List Nat)} {t : Tab} (h : Fresh H0 orig t) {r x : Nat} (hx : x ∈ orig.getD r []) :
    x < H0.length := by
  have : x ∈ orig.flatten := by
    rcases getD_mem_or_nil orig r with q | q
    · exact List.mem_flatten.mpr ⟨_, q, hx⟩
    · rw [q] at hx; simp at hx
  rw [h.ids] at this
  simpa using this

theorem Fresh.inv {H0 : List TCell} {orig : List (List Nat)} {t : Tab} (h : Fresh H0 orig t) : Inv H0 orig t := by
  have hn : orig.flatten.Nodup := by rw [h.ids]; exact List.nodup_range
  constructor
  · rw [h.heap]
  · intro r x hx; rw [h.row] at hx; rw [h.heap]; exact h.lt hx
  · intro r r' x h1 h2; rw [h.row] at h1 h2; exact getD_disjoint hn h1 h2
  · intro r; rw [h.row]
    rcases getD_mem_or_nil orig r with q | q
    · exact (List.nodup_flatten.mp hn).1 _ q
    · rw [q]; simp
  · intro r; rw [h.row]
    exact List.filter_eq_self.mpr (fun x hx => by simpa using h.lt hx)
  · intro a ha
    have := h.cell_new a
    refine ⟨by rw [h.cell], by rw [h.cell], by rw [h.cell], by rw [h.cell], this.1, this.2.1⟩
  · intro s h1 h2; rw [h.heap] at h2; omega
  · intro a i _ _ s hs; rw [(h.cell_new a).2.2.1] at hs; simp at hs
  · intro a; rw [(h.cell_new a).2.2.1]; simp
  · intro a i _ _ n s hs; rw [(h.cell_new a).2.2.2] at hs; simp at hs
  · intro r s a _ hs; rw [(h.cell_new s).1] at hs; simp at hs

/-- Every authored cell is in a row. -/
theorem Fresh.in_row {H0 : List TCell} {orig : List (List Nat)} {t : Tab} (h : Fresh H0 orig t) {a : Nat} (ha : a < H0.length) :
    ∃ r, r < orig.length ∧ a ∈ orig.getD r [] := by
  have : a ∈ orig.flatten := by rw [h.ids]; simpa using ha
  obtain ⟨l, hl, hal⟩ := List.mem_flatten.mp this
  obtain ⟨r, hr⟩ := List.getElem?_of_mem hl
  refine ⟨r, ?_, by rw [List.getD_eq_getElem?_getD, hr]; exact hal⟩
  by_contra hc
  rw [List.getElem?_eq_none (by omega)] at hr
  simp at hr

/-- The table after the column spans. -/
theorem processColumnSpans_spec {H0 : List TCell} {orig : List (List Nat)} {t : Tab} (h : Fresh H0 orig t) :
    Inv H0 orig (processColumnSpans t) ∧ (processColumnSpans t).rows.length = orig.length ∧
    (∀ r, rowAt (processColumnSpans t) r = (orig.getD r []).flatMap (fun x => x :: ((processColumnSpans t).cell x).spansCols)) ∧
    (∀ a, a < H0.length → ((processColumnSpans t).cell a).spansCols.length = ((H0.getD a TCell.new).colSpan - 1).toNat) ∧
    (∀ a, a < H0.length → ((processColumnSpans t).cell a).spansRows = []) := by
  obtain ⟨q1, q2, _, q4, _, q6, q7⟩ := colSpanRows_spec t.rows.length 0 t h.inv (by omega) (fun r _ => h.row r)
    (fun r _ x _ => (h.cell_new x).2.2.1)
  refine ⟨q1, by rw [← h.len]; exact q2, fun r => q4 r (Nat.zero_le _), ?_, ?_⟩
  · intro a ha
    obtain ⟨r, _, hr⟩ := h.in_row ha
    exact q6 r (Nat.zero_le _) a hr
  · intro a ha
    rw [processColumnSpans, q7 a ha, (h.cell_new a).2.2.2]

theorem Inv.cell_mem {H0 : List TCell} {orig : List (List Nat)} {t : Tab} (hi : Inv H0 orig t) {r : TRow} (hr : r ∈ t.rows) :
    ∃ i, t.rows[i]? = some r ∧ rowAt t i = r.cells := by
  obtain ⟨i, hi⟩ := List.getElem?_of_mem hr
  exact ⟨i, hi, rowAt_of_getElem? hi⟩

/-- What span processing establishes. -/
structure Spanned (H0 : List TCell) (orig : List (List Nat)) (t : Tab) : Prop where
  inv : Inv H0 orig t
  height : orig.length ≤ t.rows.length
  width : ∀ r, r < t.rows.length → (rowAt t r).length = t.columnCount
  index : ∀ r k x, (rowAt t r)[k]? = some x → (t.cell x).rowIdx = r ∧ (t.cell x).cellIdx = k
  extra : ∀ r, orig.length ≤ r → r < t.rows.length → ∃ s ∈ rowAt t r, (t.cell s).spannedBy.isSome
  nCols : ∀ a, a < H0.length → (t.cell a).spansCols.length = ((H0.getD a TCell.new).colSpan - 1).toNat
  nRows : ∀ a, a < H0.length → (t.cell a).spansRows.length = ((H0.getD a TCell.new).rowSpan - 1).toNat

theorem normalize_spec {H0 : List TCell} {orig : List (List Nat)} {t : Tab} (hi : Inv H0 orig t)
    (hT : ∀ r, orig.length ≤ r → r < t.rows.length → ∃ s ∈ rowAt t r, (t.cell s).spannedBy.isSome) :
    let t' := normalize t
    Inv H0 orig t' ∧ t'.rows.length = t.rows.length ∧ (∀ r, r < t'.rows.length → (rowAt t' r).length = t'.columnCount) ∧
    (∀ r k x, (rowAt t' r)[k]? = some x → (t'.cell x).rowIdx = r ∧ (t'.cell x).cellIdx = k) ∧
    (∀ r, orig.length ≤ r → r < t'.rows.length → ∃ s ∈ rowAt t' r, (t'.cell s).spannedBy.isSome) ∧
    (∀ a, a < H0.length → Core (t'.cell a) (t.cell a)) ∧
    (∀ r, ∃ zs, rowAt t' r = rowAt t r ++ zs ∧ ∀ z ∈ zs, H0.length ≤ z) := by
  have hle : ∀ r, (rowAt t r).length ≤ maxCells t.rows := by
    intro r
    rcases Nat.lt_or_ge r t.rows.length with h | h
    · have hg := List.getElem?_eq_getElem h
      rw [rowAt_of_getElem? hg]
      exact le_maxCells (List.getElem_mem h)
    · rw [rowAt_ge h]; simp
  set t0 : Tab := { t with columnCount := maxCells t.rows } with ht0
  have hi0 : Inv H0 orig t0 := hi.congr rfl (fun _ => rfl) (fun _ => rfl)
  obtain ⟨q1, q2, q3, q4, q5, q6, q7⟩ := padRows_spec (maxCells t.rows) t.rows.length 0 t0 hi0 (by simp [ht0]) hle (fun r h => by omega)
  set t1 := padRows (maxCells t.rows) t.rows.length 0 t0 with ht1
  obtain ⟨p1, p2, p3, p4, p5, p6⟩ := indexRows_spec t1.rows 0 t1
    (fun r hr x hx => by
      obtain ⟨i, _, hrow⟩ := q1.cell_mem hr
      exact q1.bound i x (by rw [hrow]; exact hx))
    (fun r hr => by
      obtain ⟨i, _, hrow⟩ := q1.cell_mem hr
      rw [← hrow]; exact q1.nod i)
    (fun i j x r r' hr hr' hx hx' =>
      q1.inj i j x (by rw [rowAt_of_getElem? hr]; exact hx) (by rw [rowAt_of_getElem? hr']; exact hx'))
  have heq : normalize t = indexRows 0 t1.rows t1 := rfl
  have hrow : ∀ r, rowAt (normalize t) r = rowAt t1 r := fun r => by unfold rowAt; rw [heq, p2]
  have hlen : (normalize t).rows.length = t.rows.length := by rw [heq, p2, q2]
  refine ⟨q1.core (by rw [heq]; exact p1) (fun x => (p4 x).core) hrow, hlen, ?_, ?_, ?_, ?_, ?_⟩
  · intro r h
    rw [hrow, heq, p3, q7]
    exact q3 r (by rw [hlen] at h; exact h)
  · intro r k x hx
    rw [hrow] at hx
    have hr : r < t1.rows.length := by
      by_contra hc
      rw [rowAt_ge (by omega)] at hx
      simp at hx
    have hg := List.getElem?_eq_getElem hr
    rw [rowAt_of_getElem? hg] at hx
    have := p6 r _ k x hg hx
    rw [heq]
    exact ⟨by rw [this.1]; omega, this.2⟩
  · intro r h1 h2
    obtain ⟨s, hs, hsp⟩ := hT r h1 (by rw [hlen] at h2; exact h2)
    obtain ⟨zs, hz, _⟩ := q4 r
    refine ⟨s, by rw [hrow, hz]; exact List.mem_append_left _ hs, ?_⟩
    rw [heq, (p4 s).core.2.2.2.2.1, q6 s (hi.bound _ _ hs)]
    exact hsp
  · intro a ha
    have := (p4 a).core
    rw [q6 a (by have := hi.len; show a < t.heap.length; omega)] at this
    exact this
  · intro r
    obtain ⟨zs, hz, hzb⟩ := q4 r
    exact ⟨zs, by rw [hrow, hz]; rfl, fun z h => le_trans hi.len (hzb z h)⟩

theorem processSpans_spec {H0 : List TCell} {orig : List (List Nat)} {t : Tab} (h : Fresh H0 orig t) :
    ∃ t', processSpans t = some t' ∧ Spanned H0 orig t' := by
  obtain ⟨c1, c2, c3, c4, c5⟩ := processColumnSpans_spec h
  obtain ⟨t1, q1, q2, q3, q4, q5, _, q7, _⟩ := rowSpanRows_spec orig.length 0 (processColumnSpans t) c1 (by omega) (by omega)
    (fun r _ x hx => c5 x (h.lt hx)) (fun r h1 h2 => by omega)
  obtain ⟨n1, n2, n3, n4, n5, n6, _⟩ := normalize_spec q2 q4
  refine ⟨normalize t1, ?_, n1, by omega, n3, n4, n5, ?_, ?_⟩
  · rw [processSpans, processRowSpans, c2, q1]; rfl
  · intro a ha
    rw [(n6 a ha).2.2.2.2.2.1, q7 a ha, c4 a ha]
  · intro a ha
    obtain ⟨r, _, hr⟩ := h.in_row ha
    rw [(n6 a ha).2.2.2.2.2.2.1, q5 r (Nat.zero_le _) a hr]

/-! ### The table as written -/

theorem makeCells_spec (cs : Classes) (sty : Styles) (n : Nat) : ∀ (xcs : List TableCell) (ic : Nat) (heap : List TCell),
    ∃ new, makeCells cs sty n ic xcs heap = (heap ++ new, List.range' heap.length xcs.length) ∧ new.length = xcs.length ∧
      (∀ c ∈ new, c.spannedBy = none ∧ c.zero = false ∧ c.spansCols = [] ∧ c.spansRows = []) ∧
      new.map (fun c => (c.iss, c.colSpan, c.rowSpan)) = xcs.map (fun x => (x.iss, x.colSpan, x.rowSpan)) := by
  intro xcs
  induction xcs with
  | nil => intro ic heap; exact ⟨[], by simp [makeCells]⟩
  | cons xc xcs ih =>
    intro ic heap
    obtain ⟨new, h1, h2, h3, h4⟩ := ih (ic + 1) (heap ++ [{ TCell.new with styles := cellStyles cs sty n ic xc.st, colSpan := xc.colSpan, rowSpan := xc.rowSpan, iss := xc.iss }])
    refine ⟨{ TCell.new with styles := cellStyles cs sty n ic xc.st, colSpan := xc.colSpan, rowSpan := xc.rowSpan, iss := xc.iss } :: new, ?_, ?_, ?_, ?_⟩
    · rw [makeCells]
      simp only [h1]
      simp [List.range'_succ]
    · simp [h2]
    · intro c hc
      rcases List.mem_cons.mp hc with rfl | hc
      · simp [TCell.new]
      · exact h3 c hc
    · simp [h4]

theorem makeRows_spec (cs : Classes) (sty : Styles) (n : Nat) : ∀ (xrs : List TableRow) (ir : Nat) (heap : List TCell),
    ∃ new rows, makeRows cs sty n ir xrs heap = (heap ++ new, rows) ∧ rows.length = xrs.length ∧
      (rows.map TRow.cells).flatten = List.range' heap.length new.length ∧
      (∀ c ∈ new, c.spannedBy = none ∧ c.zero = false ∧ c.spansCols = [] ∧ c.spansRows = []) ∧
      rows.map (fun r => r.cells.map fun id => (((heap ++ new).getD id TCell.new).iss, ((heap ++ new).getD id TCell.new).colSpan, ((heap ++ new).getD id TCell.new).rowSpan)) =
        xrs.map (fun x => x.cells.map fun c => (c.iss, c.colSpan, c.rowSpan)) := by
  intro xrs
  induction xrs with
  | nil => intro ir heap; exact ⟨[], [], by simp [makeRows]⟩
  | cons xr xrs ih =>
    intro ir heap
    obtain ⟨new1, a1, a2, a3, a4⟩ := makeCells_spec cs (rowStyles cs sty n ir xr.st) xr.cells.length xr.cells 0 heap
    obtain ⟨new2, rows, b1, b2, b3, b4, b5⟩ := ih (ir + 1) (heap ++ new1)
    refine ⟨new1 ++ new2, { cells := List.range' heap.length xr.cells.length, height := 0 } :: rows, ?_, by simp [b2], ?_, ?_, ?_⟩
    · rw [makeRows]
      simp only [a1, b1]
      simp
    · rw [List.map_cons, List.flatten_cons, b3, List.length_append, a2, List.length_append, a2, List.range'_append_1]
    · intro c hc
      rcases List.mem_append.mp hc with h | h
      · exact a3 c h
      · exact b4 c h
    · rw [List.map_cons, List.map_cons, ← List.append_assoc, b5]
      congr 1
      rw [← a4]
      apply List.ext_getElem
      · simp [a2]
      · intro k h1 h2
        simp only [List.getElem_map, List.getElem_range', List.getD_eq_getElem?_getD]
        have hk : k < new1.length := by simpa using h2
        rw [List.append_assoc, List.getElem?_append_right (by omega)]
        rw [List.getElem?_append_left (by omega)]
        simp [hk]

theorem makeTable_fresh (cs : Classes) (sty : Styles) (xrows : List TableRow) :
    Fresh (makeTable cs sty xrows).heap ((makeTable cs sty xrows).rows.map TRow.cells) (makeTable cs sty xrows) ∧
    (makeTable cs sty xrows).rows.map (fun r => r.cells.map fun id =>
      (((makeTable cs sty xrows).cell id).iss, ((makeTable cs sty xrows).cell id).colSpan, ((makeTable cs sty xrows).cell id).rowSpan)) =
        xrows.map (fun x => x.cells.map fun c => (c.iss, c.colSpan, c.rowSpan)) := by
  obtain ⟨new, rows, h1, h2, h3, h4, h5⟩ := makeRows_spec cs sty xrows.length xrows 0 []
  have heq : makeTable cs sty xrows = { heap := new, rows := rows, columnCount := 0 } := by rw [makeTable, h1]; rfl
  rw [heq]
  refine ⟨⟨rfl, ?_, by simp, ?_, h4⟩, ?_⟩
  · intro r
    simp only [rowAt, List.getD_eq_getElem?_getD, List.getElem?_map]
    cases rows[r]? <;> rfl
  · rw [h3]; simp [List.range_eq_range']
  · simpa [Tab.cell] using h5

end Verif.Proofs
