import Verif.Spec.Alike
import Verif.Model.Table
import Mathlib.Data.List.Forall2
/-
Laying out two tables that look the same gives layouts that differ only in the contents of the cells, which look the same.
-/
namespace Verif.Proofs
open Verif.Go Verif.Model Verif.Spec

section

/-- What layout sees of the styles of a cell: column width, height and padding. -/
class Seen (S : Styles → Styles → Prop) (I : List Instr → List Instr → Prop) : Prop where
  refl : ∀ s, S s s
  nil : I [] []
  columnWidth : ∀ {s s'}, S s s' → s'.columnWidth = s.columnWidth
  height : ∀ {s s'}, S s s' → s'.dim.height = s.dim.height
  padding : ∀ {s s'}, S s s' → s'.box.padding = s.box.padding

instance (R : StyledKind → Styled → Styled → Prop) (T : Str → Str → Prop) : Seen Eq (AlikeAll R T) where
  refl _ := rfl
  nil := .nil
  columnWidth h := by rw [h]
  height h := by rw [h]
  padding h := by rw [h]

variable {S : Styles → Styles → Prop} {I : List Instr → List Instr → Prop}

/-- Two cells with styles and contents that look the same, equal in all else. -/
structure CellLike (S : Styles → Styles → Prop) (I : List Instr → List Instr → Prop) (c c' : TCell) : Prop where
  iss : I c.iss c'.iss
  styles : S c.styles c'.styles
  rest : { c with iss := [], styles := zeroStyles } = { c' with iss := [], styles := zeroStyles }

theorem CellLike.colSpan {c c' : TCell} (h : CellLike S I c c') : c'.colSpan = c.colSpan := (congrArg TCell.colSpan h.rest).symm
theorem CellLike.rowSpan {c c' : TCell} (h : CellLike S I c c') : c'.rowSpan = c.rowSpan := (congrArg TCell.rowSpan h.rest).symm
theorem CellLike.minHeight {c c' : TCell} (h : CellLike S I c c') : c'.minHeight = c.minHeight := (congrArg TCell.minHeight h.rest).symm
theorem CellLike.height {c c' : TCell} (h : CellLike S I c c') : c'.height = c.height := (congrArg TCell.height h.rest).symm
theorem CellLike.width {c c' : TCell} (h : CellLike S I c c') : c'.width = c.width := (congrArg TCell.width h.rest).symm
theorem CellLike.spannedBy {c c' : TCell} (h : CellLike S I c c') : c'.spannedBy = c.spannedBy := (congrArg TCell.spannedBy h.rest).symm
theorem CellLike.spansCols {c c' : TCell} (h : CellLike S I c c') : c'.spansCols = c.spansCols := (congrArg TCell.spansCols h.rest).symm
theorem CellLike.spansRows {c c' : TCell} (h : CellLike S I c c') : c'.spansRows = c.spansRows := (congrArg TCell.spansRows h.rest).symm
theorem CellLike.zero {c c' : TCell} (h : CellLike S I c c') : c'.zero = c.zero := (congrArg TCell.zero h.rest).symm

variable [Seen S I]

theorem CellLike.refl_nil (c : TCell) (h : c.iss = []) : CellLike S I c c := ⟨by rw [h]; exact Seen.nil S, Seen.refl I _, rfl⟩

/-- Two layouts with cells that look the same. -/
structure TabLike (S : Styles → Styles → Prop) (I : List Instr → List Instr → Prop) (t t' : Tab) : Prop where
  rows : t'.rows = t.rows
  columnCount : t'.columnCount = t.columnCount
  heap : List.Forall₂ (CellLike S I) t.heap t'.heap

omit [Seen S I] in
theorem TabLike.length {t t' : Tab} (h : TabLike S I t t') : t'.heap.length = t.heap.length := h.heap.length_eq.symm

private theorem forall₂_getD {α : Type} {P : α → α → Prop} {d : α} (hd : P d d) : ∀ {l l' : List α}, List.Forall₂ P l l' →
    ∀ i, P (l.getD i d) (l'.getD i d) := by
  intro l l' h
  induction h with
  | nil => intro i; simpa using hd
  | cons h _ ih => intro i; cases i with
    | zero => simpa using h
    | succ i => simpa using ih i

theorem TabLike.cell {t t' : Tab} (h : TabLike S I t t') (id : Nat) : CellLike S I (t.cell id) (t'.cell id) :=
  forall₂_getD (CellLike.refl_nil _ rfl) h.heap id

private theorem forall₂_modify {α : Type} {P : α → α → Prop} {f f' : α → α} (hf : ∀ a b, P a b → P (f a) (f' b)) :
    ∀ {l l' : List α}, List.Forall₂ P l l' → ∀ i, List.Forall₂ P (l.modify i f) (l'.modify i f') := by
  intro l l' h
  induction h with
  | nil => intro i; cases i <;> simp
  | cons h ht ih => intro i; cases i with
    | zero => simp only [List.modify_zero_cons]; exact .cons (hf _ _ h) ht
    | succ i => simp only [List.modify_succ_cons]; exact .cons h (ih i)

omit [Seen S I] in
theorem TabLike.modCell {t t' : Tab} (h : TabLike S I t t') (id : Nat) {f f' : TCell → TCell}
    (hf : ∀ c c', CellLike S I c c' → CellLike S I (f c) (f' c')) : TabLike S I (t.modCell id f) (t'.modCell id f') :=
  ⟨h.rows, h.columnCount, forall₂_modify hf h.heap id⟩

theorem rel_append {α : Type} {P : α → α → Prop} : ∀ {l l' m m' : List α}, List.Forall₂ P l l' → List.Forall₂ P m m' →
    List.Forall₂ P (l ++ m) (l' ++ m')
  | _, _, _, _, .nil, h => h
  | _, _, _, _, .cons h1 h2, h => .cons h1 (rel_append h2 h)

omit [Seen S I] in
theorem TabLike.alloc {t t' : Tab} (h : TabLike S I t t') {c c' : TCell} (hc : CellLike S I c c') :
    TabLike S I (t.alloc c).1 (t'.alloc c').1 ∧ (t'.alloc c').2 = (t.alloc c).2 :=
  ⟨⟨h.rows, h.columnCount, by
    simp only [Tab.alloc]
    exact rel_append h.heap (.cons hc .nil)⟩, h.length⟩

omit [Seen S I] in
theorem TabLike.withRows {t t' : Tab} (h : TabLike S I t t') (rows : List TRow) :
    TabLike S I { t with rows := rows } { t' with rows := rows } := ⟨rfl, h.columnCount, h.heap⟩

omit [Seen S I] in
/-- A change that does not touch styles and contents. -/
theorem CellLike.set {c c' : TCell} (h : CellLike S I c c') (f : TCell → TCell) (h1 : ∀ c, (f c).iss = c.iss ∧ (f c).styles = c.styles)
    (h2 : ∀ c, { f c with iss := [], styles := zeroStyles } = f { c with iss := [], styles := zeroStyles }) : CellLike S I (f c) (f c') :=
  ⟨by rw [(h1 _).1, (h1 _).1]; exact h.iss, by rw [(h1 _).2, (h1 _).2]; exact h.styles, by rw [h2, h2, h.rest]⟩

omit [Seen S I] in
theorem TabLike.modSame {t t' : Tab} (h : TabLike S I t t') (id : Nat) {f : TCell → TCell} (h1 : ∀ c, (f c).iss = c.iss ∧ (f c).styles = c.styles)
    (h2 : ∀ c, { f c with iss := [], styles := zeroStyles } = f { c with iss := [], styles := zeroStyles }) : TabLike S I (t.modCell id f) (t'.modCell id f) :=
  h.modCell id fun _ _ hc => hc.set f h1 h2

/-! ### Spans -/

theorem colShadows_like (id : Nat) : ∀ (n : Nat) {t t' : Tab} (acc : List Nat), TabLike S I t t' →
    TabLike S I (colShadows id n t acc).1 (colShadows id n t' acc).1 ∧ (colShadows id n t' acc).2 = (colShadows id n t acc).2
  | 0, t, t', acc, h => ⟨h, rfl⟩
  | n + 1, t, t', acc, h => by
      have ha := h.alloc (c := { TCell.new with spannedBy := some id, rowSpan := (t.cell id).rowSpan })
        (c' := { TCell.new with spannedBy := some id, rowSpan := (t'.cell id).rowSpan })
        (by rw [(h.cell id).rowSpan]; exact CellLike.refl_nil _ rfl)
      simp only [colShadows]
      rw [ha.2]
      exact colShadows_like id n _ (ha.1.modSame id (fun _ => ⟨rfl, rfl⟩) (fun _ => rfl))

theorem colSpanCells_like : ∀ (ids : List Nat) {t t' : Tab} (acc : List Nat), TabLike S I t t' →
    TabLike S I (colSpanCells ids t acc).1 (colSpanCells ids t' acc).1 ∧ (colSpanCells ids t' acc).2 = (colSpanCells ids t acc).2
  | [], t, t', acc, h => ⟨h, rfl⟩
  | id :: ids, t, t', acc, h => by
      simp only [colSpanCells, (h.cell id).colSpan]
      split
      · exact colSpanCells_like ids _ h
      · have hs := colShadows_like id ((t.cell id).colSpan - 1).toNat (acc ++ [id]) h
        rw [hs.2]
        exact colSpanCells_like ids _ hs.1

theorem colSpanRows_like : ∀ (n ir : Nat) {t t' : Tab}, TabLike S I t t' → TabLike S I (colSpanRows n ir t) (colSpanRows n ir t')
  | 0, _, t, t', h => h
  | n + 1, ir, t, t', h => by
      simp only [colSpanRows, h.rows]
      cases hr : t.rows[ir]? with
      | none => exact h
      | some row =>
        have hs := colSpanCells_like row.cells [] h
        simp only [hs.2, hs.1.rows]
        exact colSpanRows_like n (ir + 1) (hs.1.withRows _)

theorem padZero_like : ∀ (k : Nat) {t t' : Tab} (cells : List Nat), TabLike S I t t' →
    TabLike S I (padZero k t cells).1 (padZero k t' cells).1 ∧ (padZero k t' cells).2 = (padZero k t cells).2
  | 0, t, t', cells, h => ⟨h, rfl⟩
  | k + 1, t, t', cells, h => by
      have ha := h.alloc (c := TCell.zeroCell) (c' := TCell.zeroCell) (CellLike.refl_nil _ rfl)
      simp only [padZero]
      rw [ha.2]
      exact padZero_like k _ ha.1

/-- Both fail, or both succeed with results that look the same. -/
def OptLike {α : Type} (P : α → α → Prop) : Option α → Option α → Prop
  | none, none => True
  | some a, some b => P a b
  | _, _ => False

theorem rowShadow_like (id ic sr : Nat) {t t' : Tab} (h : TabLike S I t t') :
    OptLike (TabLike S I) (rowShadow id ic sr t) (rowShadow id ic sr t') := by
  simp only [rowShadow, h.rows]
  set p := (if sr ≥ t.rows.length then (({ t with rows := t.rows ++ [⟨[], 0⟩] } : Tab), t.rows.length) else (t, sr)) with hp
  set p' := (if sr ≥ t.rows.length then (({ t' with rows := t.rows ++ [⟨[], 0⟩] } : Tab), t.rows.length) else (t', sr)) with hp'
  have h1 : TabLike S I p.1 p'.1 ∧ p'.2 = p.2 := by
    rw [hp, hp']; split
    · exact ⟨h.withRows _, rfl⟩
    · exact ⟨h, rfl⟩
  rw [h1.1.rows, h1.2]
  cases hr : p.1.rows[p.2]? with
  | none => trivial
  | some row =>
    have h2 := padZero_like (ic - row.cells.length) row.cells h1.1
    have h3 := h2.1.alloc (c := { TCell.new with spannedBy := some id }) (c' := { TCell.new with spannedBy := some id })
      (CellLike.refl_nil _ rfl)
    simp only [h2.2, h3.2]
    split
    · trivial
    · have h4 := h3.1.modSame id (f := fun c => { c with spansRows := c.spansRows ++ [((padZero (ic - row.cells.length) p.1 row.cells).1.alloc
          { TCell.new with spannedBy := some id }).2] }) (fun _ => ⟨rfl, rfl⟩) (fun _ => rfl)
      simp only [OptLike, h4.rows]
      exact h4.withRows _

theorem rowShadows_like (id ic : Nat) : ∀ (n sr : Nat) {t t' : Tab}, TabLike S I t t' →
    OptLike (TabLike S I) (rowShadows id ic n sr t) (rowShadows id ic n sr t')
  | 0, _, t, t', h => h
  | n + 1, sr, t, t', h => by
      have := rowShadow_like id ic sr h
      simp only [rowShadows]
      revert this
      cases rowShadow id ic sr t <;> cases rowShadow id ic sr t' <;> intro this
      · trivial
      · exact this.elim
      · exact this.elim
      · exact rowShadows_like id ic n (sr + 1) this

theorem rowSpanCells_like (ir : Nat) : ∀ (ic : Nat) (ids : List Nat) {t t' : Tab}, TabLike S I t t' →
    OptLike (TabLike S I) (rowSpanCells ir ic ids t) (rowSpanCells ir ic ids t')
  | _, [], t, t', h => h
  | ic, id :: ids, t, t', h => by
      simp only [rowSpanCells, (h.cell id).rowSpan, (h.cell id).spannedBy, (h.cell id).zero]
      split
      · exact rowSpanCells_like ir _ ids h
      · split
        · exact rowSpanCells_like ir _ ids h
        · have := rowShadows_like id ic ((t.cell id).rowSpan - 1).toNat (ir + 1) h
          revert this
          cases rowShadows id ic ((t.cell id).rowSpan - 1).toNat (ir + 1) t <;>
            cases rowShadows id ic ((t.cell id).rowSpan - 1).toNat (ir + 1) t' <;> intro this
          · trivial
          · exact this.elim
          · exact this.elim
          · exact rowSpanCells_like ir _ ids this

theorem rowSpanRows_like : ∀ (n ir : Nat) {t t' : Tab}, TabLike S I t t' →
    OptLike (TabLike S I) (rowSpanRows n ir t) (rowSpanRows n ir t')
  | 0, _, t, t', h => h
  | n + 1, ir, t, t', h => by
      simp only [rowSpanRows, h.rows]
      cases hr : t.rows[ir]? with
      | none => trivial
      | some row =>
        have := rowSpanCells_like ir 0 row.cells h
        revert this
        simp only
        cases rowSpanCells ir 0 row.cells t <;> cases rowSpanCells ir 0 row.cells t' <;> intro this
        · trivial
        · exact this.elim
        · exact this.elim
        · exact rowSpanRows_like n (ir + 1) this

theorem padRows_like (cc : Nat) : ∀ (n ir : Nat) {t t' : Tab}, TabLike S I t t' → TabLike S I (padRows cc n ir t) (padRows cc n ir t')
  | 0, _, t, t', h => h
  | n + 1, ir, t, t', h => by
      simp only [padRows, h.rows]
      cases hr : t.rows[ir]? with
      | none => exact h
      | some row =>
        have hs := padZero_like (cc - row.cells.length) row.cells h
        simp only [hs.2, hs.1.rows]
        exact padRows_like cc n (ir + 1) (hs.1.withRows _)

omit [Seen S I] in
theorem indexCells_like (ir : Nat) : ∀ (ic : Nat) (ids : List Nat) {t t' : Tab}, TabLike S I t t' →
    TabLike S I (indexCells ir ic ids t) (indexCells ir ic ids t')
  | _, [], _, _, h => h
  | ic, id :: ids, t, t', h => by
      simp only [indexCells]
      exact indexCells_like ir (ic + 1) ids (h.modSame id (fun _ => ⟨rfl, rfl⟩) (fun _ => rfl))

omit [Seen S I] in
theorem indexRows_like : ∀ (ir : Nat) (rs : List TRow) {t t' : Tab}, TabLike S I t t' →
    TabLike S I (indexRows ir rs t) (indexRows ir rs t')
  | _, [], _, _, h => h
  | ir, r :: rs, t, t', h => by
      simp only [indexRows]
      exact indexRows_like (ir + 1) rs (indexCells_like ir 0 r.cells h)

theorem normalize_like {t t' : Tab} (h : TabLike S I t t') : TabLike S I (normalize t) (normalize t') := by
  simp only [normalize, h.rows]
  have h1 : TabLike S I { t with columnCount := maxCells t.rows } { t' with rows := t.rows, columnCount := maxCells t.rows } :=
    ⟨rfl, rfl, h.heap⟩
  have h2 := padRows_like (maxCells t.rows) t.rows.length 0 h1
  rw [h2.rows]
  exact indexRows_like 0 _ h2

theorem processSpans_like {t t' : Tab} (h : TabLike S I t t') : OptLike (TabLike S I) (processSpans t) (processSpans t') := by
  simp only [processSpans, processRowSpans, processColumnSpans, h.rows]
  have h1 := colSpanRows_like t.rows.length 0 h
  have h2 := rowSpanRows_like (colSpanRows t.rows.length 0 t).rows.length 0 h1
  rw [h1.rows]
  revert h2
  cases rowSpanRows (colSpanRows t.rows.length 0 t).rows.length 0 (colSpanRows t.rows.length 0 t) <;>
    cases rowSpanRows (colSpanRows t.rows.length 0 t).rows.length 0 (colSpanRows t.rows.length 0 t') <;> intro h2
  · trivial
  · exact h2.elim
  · exact h2.elim
  · exact normalize_like h2

/-! ### Widths and heights -/

theorem TabLike.dim {t t' : Tab} (h : TabLike S I t t') (id : Nat) : t'.dim id = t.dim id := by
  simp only [Tab.dim, (h.cell id).spansCols, (h.cell id).spansRows, (h.cell id).width, (h.cell id).height]
  have h1 : (fun (w : ℚ) s => w + (t'.cell s).width) = fun w s => w + (t.cell s).width := by
    funext w s; rw [(h.cell s).width]
  have h2 : (fun (w : ℚ) s => w + (t'.cell s).height) = fun w s => w + (t.cell s).height := by
    funext w s; rw [(h.cell s).height]
  rw [h1, h2]

theorem TabLike.maxCellHeight {t t' : Tab} (h : TabLike S I t t') (row : TRow) : t'.maxCellHeight row = t.maxCellHeight row := by
  simp only [Tab.maxCellHeight, h.dim]

theorem widthsRow_like {t t' : Tab} (h : TabLike S I t t') : ∀ (ic : Nat) (ids : List Nat) (cws : List ℚ),
    widthsRow t' ic ids cws = widthsRow t ic ids cws
  | _, [], _ => rfl
  | ic, id :: ids, cws => by
      simp only [widthsRow, Seen.columnWidth I (h.cell id).styles, widthsRow_like h (ic + 1) ids]

theorem widthsRows_like {t t' : Tab} (h : TabLike S I t t') : ∀ (rs : List TRow) (cws : List ℚ),
    widthsRows t' rs cws = widthsRows t rs cws
  | [], _ => rfl
  | r :: rs, cws => by simp only [widthsRows, widthsRow_like h, widthsRows_like h rs]

omit [Seen S I] in
theorem setWidths_like (cws : List ℚ) : ∀ (ic : Nat) (ids : List Nat) {t t' : Tab}, TabLike S I t t' →
    OptLike (TabLike S I) (setWidths cws ic ids t) (setWidths cws ic ids t')
  | _, [], _, _, h => h
  | ic, id :: ids, t, t', h => by
      simp only [setWidths]
      cases cws[ic]? with
      | none => trivial
      | some w => exact setWidths_like cws (ic + 1) ids (h.modSame id (fun _ => ⟨rfl, rfl⟩) (fun _ => rfl))

omit [Seen S I] in
theorem setAllWidths_like (cws : List ℚ) : ∀ (rs : List TRow) {t t' : Tab}, TabLike S I t t' →
    OptLike (TabLike S I) (setAllWidths cws rs t) (setAllWidths cws rs t')
  | [], _, _, h => h
  | r :: rs, t, t', h => by
      have := setWidths_like cws 0 r.cells h
      simp only [setAllWidths]
      revert this
      cases setWidths cws 0 r.cells t <;> cases setWidths cws 0 r.cells t' <;> intro this
      · trivial
      · exact this.elim
      · exact this.elim
      · exact setAllWidths_like cws rs this

theorem assignColumnWidths_like (width : ℚ) {t t' : Tab} (h : TabLike S I t t') :
    OptLike (TabLike S I) (assignColumnWidths width t) (assignColumnWidths width t') := by
  simp only [assignColumnWidths, h.rows, h.columnCount, widthsRows_like h]
  cases widthsRows t t.rows (List.replicate t.columnCount 0) with
  | none => trivial
  | some cws => exact setAllWidths_like _ _ h

section
variable {σ : Type} {m m' : Measure σ}

theorem assignCellMinHeight_like (hm : ∀ sty sty' iss iss' w s, S sty sty' → I iss iss' → m' sty' iss' w s = m sty iss w s) (id : Nat) {t t' : Tab}
    (h : TabLike S I t t') (s : σ) :
    TabLike S I (assignCellMinHeight m id t s).1 (assignCellMinHeight m' id t' s).1 ∧
      (assignCellMinHeight m' id t' s).2 = (assignCellMinHeight m id t s).2 := by
  have hc := h.cell id
  have h1 : (fun (w : ℚ) s => w + (t'.cell s).width) = fun w s => w + (t.cell s).width := by
    funext w s; rw [(h.cell s).width]
  simp only [assignCellMinHeight, hc.spannedBy, hc.zero, Seen.height I hc.styles, Seen.padding I hc.styles, hc.spansCols, hc.spansRows, hc.width, h1,
    hm _ _ _ _ _ _ hc.styles hc.iss]
  split
  · exact ⟨h, rfl⟩
  · split
    · refine ⟨h.modCell id fun c c' hc => ⟨hc.iss, hc.styles, ?_⟩, rfl⟩
      rw [Seen.height I hc.styles]
      exact congrArg (fun x : TCell => { x with minHeight := c.styles.dim.height }) hc.rest
    · refine ⟨?_, rfl⟩
      generalize hh : ((m _ _ _ _).1 + _ + _) / _ = q
      have h0 : TabLike S I (t.modCell id fun c => { c with minHeight := q }) (t'.modCell id fun c => { c with minHeight := q }) :=
        h.modSame id (fun _ => ⟨rfl, rfl⟩) (fun _ => rfl)
      revert h0
      generalize (t.modCell id fun c => { c with minHeight := q }) = u
      generalize (t'.modCell id fun c => { c with minHeight := q }) = u'
      generalize (t.cell id).spansRows = l
      intro h0
      induction l generalizing u u' with
      | nil => exact h0
      | cons a l ih =>
        simp only [List.foldl_cons]
        exact ih _ _ (h0.modSame a (fun _ => ⟨rfl, rfl⟩) (fun _ => rfl))

theorem minHeightsRow_like (hm : ∀ sty sty' iss iss' w s, S sty sty' → I iss iss' → m' sty' iss' w s = m sty iss w s) : ∀ (ids : List Nat)
    {t t' : Tab} (s : σ), TabLike S I t t' →
    TabLike S I (minHeightsRow m ids t s).1 (minHeightsRow m' ids t' s).1 ∧ (minHeightsRow m' ids t' s).2 = (minHeightsRow m ids t s).2
  | [], _, _, _, h => ⟨h, rfl⟩
  | id :: ids, t, t', s, h => by
      have := assignCellMinHeight_like hm id h s
      simp only [minHeightsRow, this.2]
      exact minHeightsRow_like hm ids _ this.1

theorem minHeights_like (hm : ∀ sty sty' iss iss' w s, S sty sty' → I iss iss' → m' sty' iss' w s = m sty iss w s) : ∀ (rs : List TRow)
    {t t' : Tab} (s : σ), TabLike S I t t' →
    TabLike S I (minHeights m rs t s).1 (minHeights m' rs t' s).1 ∧ (minHeights m' rs t' s).2 = (minHeights m rs t s).2
  | [], _, _, _, h => ⟨h, rfl⟩
  | r :: rs, t, t', s, h => by
      have := minHeightsRow_like hm r.cells s h
      simp only [minHeights, this.2]
      exact minHeights_like hm rs _ this.1

theorem setRowHeights_like {t t' : Tab} (h : TabLike S I t t') : TabLike S I (setRowHeights t) (setRowHeights t') := by
  have : ∀ ids, maxMinHeight t' ids = maxMinHeight t ids := by
    intro ids
    simp only [maxMinHeight]
    congr 1
    funext q id
    rw [(h.cell id).minHeight]
  simp only [setRowHeights, h.rows, this]
  exact h.withRows _

omit [Seen S I] in
theorem setCellHeights_like {t t' : Tab} (h : TabLike S I t t') : TabLike S I (setCellHeights t) (setCellHeights t') := by
  simp only [setCellHeights, h.rows]
  generalize t.rows = rs
  induction rs generalizing t t' with
  | nil => exact h
  | cons r rs ih =>
    simp only [List.foldl_cons]
    apply ih
    generalize r.cells = ids
    induction ids generalizing t t' with
    | nil => exact h
    | cons id ids ih2 =>
      simp only [List.foldl_cons]
      exact ih2 (h.modSame id (fun _ => ⟨rfl, rfl⟩) (fun _ => rfl))

theorem assignHeights_like (hm : ∀ sty sty' iss iss' w s, S sty sty' → I iss iss' → m' sty' iss' w s = m sty iss w s) {t t' : Tab}
    (h : TabLike S I t t') (s : σ) :
    TabLike S I (assignHeights m t s).1 (assignHeights m' t' s).1 ∧ (assignHeights m' t' s).2 = (assignHeights m t s).2 := by
  simp only [assignHeights, h.rows]
  have := minHeights_like hm t.rows s h
  exact ⟨setCellHeights_like (setRowHeights_like this.1), this.2⟩
end

/-! ### transformTable -/

theorem AlikeCells.length {R : StyledKind → Styled → Styled → Prop} {T : Str → Str → Prop} : ∀ {cs cs'}, AlikeCells R T cs cs' → cs'.length = cs.length
  | _, _, .nil => rfl
  | _, _, .cons _ h => by simp [AlikeCells.length h]

theorem AlikeRows.length {R : StyledKind → Styled → Styled → Prop} {T : Str → Str → Prop} : ∀ {cs cs'}, AlikeRows R T cs cs' → cs'.length = cs.length
  | _, _, .nil => rfl
  | _, _, .cons _ h => by simp [AlikeRows.length h]

theorem AlikeAll.length {R : StyledKind → Styled → Styled → Prop} {T : Str → Str → Prop} : ∀ {cs cs'}, AlikeAll R T cs cs' → cs'.length = cs.length
  | _, _, .nil => rfl
  | _, _, .cons _ h => by simp [AlikeAll.length h]

variable {cs cs' : Classes} {R : StyledKind → Styled → Styled → Prop} {T : Str → Str → Prop} [Seen S (AlikeAll R T)]

/-- What related styles of rows and cells do to related styles. -/
structure Making (S : Styles → Styles → Prop) (R : StyledKind → Styled → Styled → Prop) (cs cs' : Classes) : Prop where
  row : ∀ {st st' a b}, R .row st st' → S a b → ∀ n ir, S (rowStyles cs a n ir st) (rowStyles cs' b n ir st')
  cell : ∀ {st st' a b}, R .cell st st' → S a b → ∀ n ic, S (cellStyles cs a n ic st) (cellStyles cs' b n ic st')

omit [Seen S (AlikeAll R T)] in
theorem makeCells_like (k : Making S R cs cs') {rowSty rowSty' : Styles} (hsty : S rowSty rowSty') (n : Nat) :
    ∀ (ic : Nat) {xcs xcs' : List TableCell} {heap heap' : List TCell},
    AlikeCells R T xcs xcs' → List.Forall₂ (CellLike S (AlikeAll R T)) heap heap' →
    List.Forall₂ (CellLike S (AlikeAll R T)) (makeCells cs rowSty n ic xcs heap).1 (makeCells cs' rowSty' n ic xcs' heap').1 ∧
      (makeCells cs' rowSty' n ic xcs' heap').2 = (makeCells cs rowSty n ic xcs heap).2
  | _, _, _, _, _, .nil, hh => ⟨hh, rfl⟩
  | ic, _, _, heap, heap', .cons (@AlikeCell.mk _ _ st st' iss iss' c r hst hi) hr, hh => by
      simp only [makeCells, hh.length_eq.symm]
      have := makeCells_like k hsty n (ic + 1) hr (heap := heap ++ [{ TCell.new with
        styles := cellStyles cs rowSty n ic st, colSpan := c, rowSpan := r, iss := iss }])
        (heap' := heap' ++ [{ TCell.new with styles := cellStyles cs' rowSty' n ic st', colSpan := c, rowSpan := r, iss := iss' }])
        (rel_append hh (.cons ⟨hi, k.cell hst hsty n ic, rfl⟩ .nil))
      exact ⟨this.1, by simp only [TableCell.st, TableCell.colSpan, TableCell.rowSpan, TableCell.iss]; rw [this.2]⟩

omit [Seen S (AlikeAll R T)] in
theorem makeRows_like (k : Making S R cs cs') {tabSty tabSty' : Styles} (hsty : S tabSty tabSty') (n : Nat) :
    ∀ (ir : Nat) {xrs xrs' : List TableRow} {heap heap' : List TCell},
    AlikeRows R T xrs xrs' → List.Forall₂ (CellLike S (AlikeAll R T)) heap heap' →
    List.Forall₂ (CellLike S (AlikeAll R T)) (makeRows cs tabSty n ir xrs heap).1 (makeRows cs' tabSty' n ir xrs' heap').1 ∧
      (makeRows cs' tabSty' n ir xrs' heap').2 = (makeRows cs tabSty n ir xrs heap).2
  | _, _, _, _, _, .nil, hh => ⟨hh, rfl⟩
  | ir, _, _, heap, heap', .cons (@AlikeRow.mk _ _ st st' cells cells' hst hc) hr, hh => by
      have h1 := makeCells_like k (k.row hst hsty n ir) cells.length 0 hc hh
      have h2 := makeRows_like k hsty n (ir + 1) hr h1.1
      simp only [makeRows, TableRow.st, TableRow.cells, AlikeCells.length hc]
      exact ⟨h2.1, by rw [h1.2, h2.2]⟩

/-- The layouts of two tables that look the same. -/
theorem transformTable_like {σ : Type} {m m' : Measure σ} (k : Making S R cs cs')
    (hm : ∀ sty sty' iss iss' w s, S sty sty' → AlikeAll R T iss iss' → m' sty' iss' w s = m sty iss w s)
    (page : Page) (curr : Styles) {st st' : Styled} (hst : S (st.mutatedStyles cs curr) (st'.mutatedStyles cs' curr))
    (hw : (st'.mutatedStyles cs' curr).dim.width = (st.mutatedStyles cs curr).dim.width) {xrows xrows' : List TableRow}
    (h : AlikeRows R T xrows xrows') (s : σ) :
    OptLike (fun a b => TabLike S (AlikeAll R T) a.1 b.1 ∧ b.2 = a.2) (transformTable m cs page curr st xrows s)
      (transformTable m' cs' page curr st' xrows' s) := by
  simp only [transformTable, hw]
  have h0 : TabLike S (AlikeAll R T) (makeTable cs (st.mutatedStyles cs curr) xrows)
      (makeTable cs' (st'.mutatedStyles cs' curr) xrows') := by
    have := makeRows_like k hst xrows.length 0 h (heap := []) (heap' := []) .nil
    simp only [makeTable, AlikeRows.length h]
    exact ⟨this.2, rfl, this.1⟩
  have h1 := processSpans_like h0
  revert h1
  cases processSpans (makeTable cs (st.mutatedStyles cs curr) xrows) <;>
    cases processSpans (makeTable cs' (st'.mutatedStyles cs' curr) xrows') <;> intro h1
  · trivial
  · exact h1.elim
  · exact h1.elim
  · rename_i t t'
    have h2 := assignColumnWidths_like (page.effectiveWidth (st.mutatedStyles cs curr).dim.width) h1
    simp only
    revert h2
    cases assignColumnWidths (page.effectiveWidth (st.mutatedStyles cs curr).dim.width) t <;>
      cases assignColumnWidths (page.effectiveWidth (st.mutatedStyles cs curr).dim.width) t' <;> intro h2
    · trivial
    · exact h2.elim
    · exact h2.elim
    · exact assignHeights_like hm h2 s

/-- Styles with the same effect do the same to the same styles. -/
theorem making_same : Making Eq (fun _ => SameEffect cs cs') cs cs' where
  row h hab n ir := by subst hab; simp only [rowStyles, h.1, h.2]
  cell h hab n ic := by subst hab; simp only [cellStyles, h.1, h.2]

end
end Verif.Proofs
