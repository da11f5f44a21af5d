import Verif.Props.TableOverlap
import Verif.Props.Places
/-
Property C25, said of the rows of the file: which tables have cells that overlap (/repo/table.go)?
-/
namespace Verif.Props
open Verif.Go Verif.Model Verif.Proofs Verif.Spec

variable {σ : Type} {m : Measure σ} {cs : Classes} {page : Page} {curr : Styles} {st : Styled} {xrows : List TableRow} {s s' : σ} {t : Tab}

private theorem placeAt_found (h : transformTable m cs page curr st xrows s = some (t, s')) (i j : Nat) : placeAt xrows i j = (idsOf t i)[j]?.map (foundAt t) := by
  unfold placeAt idsOf
  rw [← C122_places h, List.getElem?_map]
  cases t.rows[i]? with
  | none => simp
  | some r => simp

private theorem spans_of (h : transformTable m cs page curr st xrows s = some (t, s')) {i a : Nat} (ha : a ∈ idsOf t i) (hau : isAuthored t a = true) :
    (t.cell a).rowSpan = rowSpanOf xrows a ∧ (t.cell a).colSpan = colSpanOf xrows a := by
  obtain ⟨H0, orig, cws, hl, hf, _⟩ := table_laid_of h
  have hlen := congrArg List.length (makeTable_cells cs (st.mutatedStyles cs curr) xrows)
  rw [hf.heap, List.length_map, List.length_map] at hlen
  rw [idsOf_eq] at ha
  rw [hl.span.inv.isAuthored_iff ha, decide_eq_true_eq, hlen] at hau
  obtain ⟨_, _, e1, e2⟩ := C122_cells h (List.getElem?_eq_getElem hau)
  unfold rowSpanOf colSpanOf
  rw [List.getElem?_eq_getElem hau]
  exact ⟨e2, e1⟩

private theorem place_iff (h : transformTable m cs page curr st xrows s = some (t, s')) (i j a : Nat) :
    placeAt xrows i j = some (.cell a) ↔ (idsOf t i)[j]? = some a ∧ isAuthored t a = true := by
  rw [placeAt_found h, Option.map_eq_some_iff]
  unfold isAuthored foundAt
  constructor
  · rintro ⟨x, hx, e⟩
    split at e
    · simp at e
    · rename_i hz
      cases hs : (t.cell x).spannedBy with
      | some b => rw [hs] at e; simp at e
      | none =>
        rw [hs] at e
        simp only [TPlace.cell.injEq] at e
        subst e
        exact ⟨hx, by simp [hs, hz]⟩
  · rintro ⟨hx, e⟩
    simp only [Bool.and_eq_true, Option.isNone_iff_eq_none, Bool.not_eq_true'] at e
    exact ⟨a, hx, by rw [e.1, e.2]; rfl⟩

/-- C25: whether cells overlap can be told from the file: the code never makes it depend on texts, styles or the page. -/
theorem C25_file (h : transformTable m cs page curr st xrows s = some (t, s')) :
    NoOverlap t ↔ ∀ a b r k, CoversIn xrows a r k → CoversIn xrows b r k → a = b := by
  have key : ∀ a r k, Covers t a r k ↔ CoversIn xrows a r k := by
    intro a r k
    unfold Covers CoversIn
    constructor
    · rintro ⟨i, j, h1, h2, h3⟩
      obtain ⟨e1, e2⟩ := spans_of h (List.mem_of_getElem? h1) h2
      rw [e1, e2] at h3
      exact ⟨i, j, (place_iff h i j a).mpr ⟨h1, h2⟩, h3⟩
    · rintro ⟨i, j, h1, h3⟩
      obtain ⟨h1, h2⟩ := (place_iff h i j a).mp h1
      obtain ⟨e1, e2⟩ := spans_of h (List.mem_of_getElem? h1) h2
      rw [← e1, ← e2] at h3
      exact ⟨i, j, h1, h2, h3⟩
  unfold NoOverlap
  simp only [key]

theorem authored_row (h : transformTable m cs page curr st xrows s = some (t, s')) {i a : Nat} (ha : a ∈ idsOf t i) (hau : isAuthored t a = true) :
    ∃ x, xrows[i]? = some x ∧ ∃ c ∈ x.cells, c.colSpan = (t.cell a).colSpan ∧ c.rowSpan = (t.cell a).rowSpan := by
  have hm : ((t.cell a).iss, (t.cell a).colSpan, (t.cell a).rowSpan) ∈ authoredIn t i :=
    List.mem_map.mpr ⟨a, List.mem_filter.mpr ⟨ha, hau⟩, rfl⟩
  rw [C22_authored h i] at hm
  unfold written at hm
  cases hx : xrows[i]? with
  | none => rw [hx] at hm; simp at hm
  | some xr =>
    rw [hx] at hm
    simp only [List.mem_map, Prod.mk.injEq] at hm
    obtain ⟨c, hc, _, e1, e2⟩ := hm
    exact ⟨xr, rfl, c, hc, e1, e2⟩

/-- The conditions of `C25_partial` follow from those on the file. -/
theorem conditions_in (h : transformTable m cs page curr st xrows s = some (t, s')) :
    (NoBlocksIn xrows → NoBlocks t) ∧ (RowsClearIn xrows → RowsClear t) ∧ (DescendingIn xrows → Descending t) ∧ (RowsLowIn xrows → Descending t) := by
  refine ⟨fun h1 i a ha hau => ?_, fun h2 i r a b ha hau hb hbu hlt hr => ?_, fun h3 i j i' j' a b ha hau hb hbu hlt hr hs => ?_, fun h4 i j i' j' a b ha hau hb hbu hlt hr hs => ?_⟩
  · obtain ⟨x, hx, c, hc, e1, e2⟩ := authored_row h ha hau
    rw [← e1, ← e2]
    exact h1 x (List.mem_of_getElem? hx) c hc
  · obtain ⟨x, hx, c, hc, e1, e2⟩ := authored_row h ha hau
    obtain ⟨y, hy, d, hd, e3, e4⟩ := authored_row h hb hbu
    rw [← e2] at hr
    rw [← e3]
    exact h2 i r x y hx hy hlt c hc d hd hr
  · obtain ⟨e1, _⟩ := spans_of h (List.mem_of_getElem? ha) hau
    obtain ⟨e2, _⟩ := spans_of h (List.mem_of_getElem? hb) hbu
    rw [e1] at hr
    rw [e2] at hs
    exact h3 i j i' j' a b ((place_iff h i j a).mpr ⟨ha, hau⟩) ((place_iff h i' j' b).mpr ⟨hb, hbu⟩) hlt hr hs
  · obtain ⟨x, hx, c, hc, e1, e2⟩ := authored_row h (List.mem_of_getElem? ha) hau
    obtain ⟨y, hy, d, hd, e3, e4⟩ := authored_row h (List.mem_of_getElem? hb) hbu
    rw [← e2] at hr
    have := h4 i i' x y hx hy hlt c hc d hd hr
    omega

/-- C25 with conditions on the file only; what is missing for the full claim is what `C25_partial` names. -/
theorem C25_file_partial (h : transformTable m cs page curr st xrows s = some (t, s')) (h1 : NoBlocksIn xrows) (h2 : RowsClearIn xrows)
    (h3 : DescendingIn xrows ∨ RowsLowIn xrows) : NoOverlap t := by
  obtain ⟨c1, c2, c3, c4⟩ := conditions_in h
  exact C25_partial h (c1 h1) (c2 h2) (h3.elim c3 c4)

private def plain : Styled := ⟨[], []⟩

/-- A title over three columns, a cell over three rows beside rows of cells, and a last row with a cell over two columns. -/
private def exSide : List TableRow :=
  [.mk plain [.mk plain 3 0 []], .mk plain [.mk plain 0 3 [], .mk plain 0 0 [], .mk plain 0 0 []], .mk plain [.mk plain 0 0 []], .mk plain [.mk plain 0 0 []],
   .mk plain [.mk plain 0 0 [], .mk plain 2 0 []]]

/-- C25: the conditions on the file hold for a table with both sorts of spans. -/
example : NoBlocksIn exSide ∧ RowsClearIn exSide ∧ RowsLowIn exSide := by
  refine ⟨by unfold NoBlocksIn; decide +kernel, fun i r x y hx hy => ?_, fun i r x y hx hy => ?_⟩
  · have key : ∀ p ∈ exSide.zipIdx, ∀ q ∈ exSide.zipIdx, p.2 < q.2 → ∀ c ∈ p.1.cells, ∀ d ∈ q.1.cells, q.2 < p.2 + extent c.rowSpan → d.colSpan ≤ 1 := by decide +kernel
    exact key (x, i) (List.mem_zipIdx_iff_getElem?.mpr hx) (y, r) (List.mem_zipIdx_iff_getElem?.mpr hy)
  · have key : ∀ p ∈ exSide.zipIdx, ∀ q ∈ exSide.zipIdx, p.2 < q.2 → ∀ c ∈ p.1.cells, ∀ d ∈ q.1.cells, q.2 + 1 < p.2 + extent c.rowSpan → d.rowSpan ≤ 1 := by decide +kernel
    exact key (x, i) (List.mem_zipIdx_iff_getElem?.mpr hx) (y, r) (List.mem_zipIdx_iff_getElem?.mpr hy)

/-- C25: in this table cells 0 and 1 overlap (see `C25_block_overlap`): both cover row 1 and column 1. -/
example : CoversIn exBlock 0 1 1 ∧ CoversIn exBlock 1 1 1 := ⟨⟨0, 0, by decide +kernel⟩, ⟨1, 1, by decide +kernel⟩⟩

end Verif.Props
