import Verif.Spec.Laying
import Verif.Proofs.Looks
import Verif.Props.Sizes
/-
A table laid out, from what is in the file alone (C123).
-/
namespace Verif.Proofs
open Verif.Go Verif.Model Verif.Spec Verif.Props

theorem makeCells_looks (cs : Classes) (sty : Styles) (n : Nat) : ∀ (xcs : List TableCell) (ic : Nat) (heap : List TCell),
    (makeCells cs sty n ic xcs heap).1.map (fun c => (c.styles, c.iss)) = heap.map (fun c => (c.styles, c.iss)) ++ xcs.mapIdx fun j c => (cellStyles cs sty n (ic + j) c.st, c.iss) := by
  intro xcs
  induction xcs with
  | nil => intro ic heap; simp [makeCells]
  | cons xc xcs ih =>
    intro ic heap
    rw [makeCells]
    simp only [ih]
    rw [List.map_append, List.mapIdx_cons, List.append_assoc]
    simp only [List.map_cons, List.map_nil, List.singleton_append, Nat.add_zero]
    congr 3
    funext j c
    rw [show ic + 1 + j = ic + (j + 1) by omega]

theorem makeRows_looks (cs : Classes) (sty : Styles) (n : Nat) : ∀ (xrs : List TableRow) (ir : Nat) (heap : List TCell),
    (makeRows cs sty n ir xrs heap).1.map (fun c => (c.styles, c.iss)) = heap.map (fun c => (c.styles, c.iss)) ++
      (xrs.mapIdx fun i r => r.cells.mapIdx fun j c => (cellStyles cs (rowStyles cs sty n (ir + i) r.st) r.cells.length j c.st, c.iss)).flatten := by
  intro xrs
  induction xrs with
  | nil => intro ir heap; simp [makeRows]
  | cons xr xrs ih =>
    intro ir heap
    rw [makeRows]
    simp only [ih, makeCells_looks]
    rw [List.mapIdx_cons, List.flatten_cons, List.append_assoc]
    simp only [Nat.add_zero, Nat.zero_add]
    congr 4
    funext i r
    rw [show ir + 1 + i = ir + (i + 1) by omega]

/-- The styles and the contents of the cells. -/
theorem makeTable_looks (cs : Classes) (sty : Styles) (xrows : List TableRow) :
    (makeTable cs sty xrows).heap.map (fun c => (c.styles, c.iss)) = (styledCells cs sty xrows).flatten := by
  unfold makeTable styledCells
  dsimp only
  rw [makeRows_looks]
  simp only [List.map_nil, List.nil_append, Nat.zero_add, stylesAt_cell, stylesAt_row]

variable {σ : Type} {m : Measure σ} {cs : Classes} {page : Page} {curr : Styles} {st : Styled} {xrows : List TableRow} {s s' : σ} {t : Tab}

theorem maxCellHeight_largest (t : Tab) (r : TRow) : t.maxCellHeight r = largest (r.cells.map fun x => (t.dim x).2) := by
  unfold Tab.maxCellHeight
  suffices ∀ (l : List Nat) (v : ℚ), 0 ≤ v → l.foldl (fun m id => if (t.dim id).2 > m then (t.dim id).2 else m) v = max v (largest (l.map fun x => (t.dim x).2)) by
    exact (this r.cells 0 (le_refl _)).trans (max_eq_right (largest_nonneg _))
  intro l
  induction l with
  | nil => intro v hv; exact (max_eq_left hv).symm
  | cons x l ih =>
    intro v hv
    have e : (if (t.dim x).2 > v then (t.dim x).2 else v) = max v (t.dim x).2 := by
      split
      · exact (max_eq_right (le_of_lt (by assumption))).symm
      · exact (max_eq_left (not_lt.mp (by assumption))).symm
    rw [List.foldl_cons, e, ih _ (le_trans hv (le_max_left _ _)), max_assoc]
    rfl

/-- The table that the code lays out is the one laid out by the rules. -/
theorem layTable_eq (h : transformTable m cs page curr st xrows s = some (t, s')) :
    layTable m cs (page.effectiveWidth (st.mutatedStyles cs curr).dim.width) (st.mutatedStyles cs curr) xrows s = (laidRows t, s') := by
  obtain ⟨H0, orig, cws, hl, hf, _⟩ := table_laid_of h
  have hi := hl.span.inv
  have hlook := makeTable_looks cs (st.mutatedStyles cs curr) xrows
  rw [hf.heap] at hlook
  have hcells := makeTable_cells cs (st.mutatedStyles cs curr) xrows
  rw [hf.heap] at hcells
  have hsty : (fun a => ((styledCells cs (st.mutatedStyles cs curr) xrows).flatten.getD a (zeroStyles, [])).1) = fun a => (t.cell a).styles := by
    funext a
    rw [← hlook, List.getD_eq_getElem?_getD, List.getElem?_map]
    by_cases ha : a < H0.length
    · rw [(hi.authored a ha).1, List.getD_eq_getElem?_getD, List.getElem?_eq_getElem ha]
      rfl
    · rw [List.getElem?_eq_none (by omega)]
      by_cases ha' : a < t.heap.length
      · rw [(hi.made a (by omega) ha').2.2.1]
        rfl
      · unfold Tab.cell
        rw [List.getD_eq_getElem?_getD, List.getElem?_eq_none (by omega)]
        rfl
  have hw := fun row hr => C123_widths h (row := row) hr
  have hh := C123_heights h
  have hd := fun i a ha hau => C123_cell h (i := i) (a := a) ha hau
  have hsty' := fun a => congrFun hsty a
  unfold layTable
  simp only [hsty']
  unfold sharesOf at hh
  unfold widthsOf at hw hh hd
  simp only [← tableWidth_eq] at hw hh hd
  set ws := columnWidths (fun a => (t.cell a).styles) (page.effectiveWidth (st.mutatedStyles cs curr).dim.width) (tablePlaces xrows) with ews
  obtain ⟨hh, hst⟩ := hh
  rw [← hst, ← hh]
  congr 1
  have hpl : rowPlaces t t.rows = tablePlaces xrows := C122_places h
  unfold setRows laidRows
  rw [← hpl]
  unfold rowPlaces idPlaces
  apply List.ext_getElem?
  intro i
  rw [List.getElem?_mapIdx, List.getElem?_map, List.getElem?_map]
  cases e : t.rows[i]? with
  | none => rfl
  | some r =>
    have hre := rowAt_of_getElem? e
    have hmem := List.mem_of_getElem? e
    have hids : idsOf t i = r.cells := by rw [idsOf_eq, hre]
    simp only [Option.map_some, Option.some.injEq]
    have hhe : (t.rows.map (·.height)).getD i 0 = r.height := by
      rw [List.getD_eq_getElem?_getD, List.getElem?_map, e]
      rfl
    rw [hhe]
    have hz : (r.cells.map (foundAt t)).zip ws = r.cells.map fun x => (foundAt t x, (t.cell x).width) := by rw [← hw r hmem, List.zip_map']
    have hc : (r.cells.map fun x => (foundAt t x, (t.cell x).width)).map (fun q => (q.2, cellSetAt xrows (styledCells cs (st.mutatedStyles cs curr) xrows).flatten ws (t.rows.map (·.height)) i q.1)) =
        r.cells.map fun x => ((t.cell x).width,
          if (t.cell x).spannedBy.isSome ∨ (t.cell x).zero then none else some (⟨(t.cell x).styles, (t.cell x).iss, (t.dim x).1, (t.dim x).2⟩ : SetCell)) := by
      rw [List.map_map]
      apply List.map_congr_left
      intro x hx
      have hx' : x ∈ rowAt t i := hre ▸ hx
      simp only [Function.comp, Prod.mk.injEq, true_and]
      rcases hi.found hx' with ⟨hlt, hfx⟩ | ⟨hge, _, ⟨a, _, hsp, hfx⟩ | hfx⟩
      · obtain ⟨q1, q2, q3, q4, q5, q6⟩ := hi.authored x hlt
        have hau : isAuthored t x = true := by unfold isAuthored; rw [q5, q6]; rfl
        obtain ⟨d1, d2⟩ := hd i x (hids ▸ hx) hau
        rw [hfx, if_neg (by rw [q5, q6]; simp), cellSetAt, ← hlook, List.getElem?_map, List.getElem?_eq_getElem hlt]
        have hrs : rowSpanOf xrows x = (t.cell x).rowSpan := by
          have e := congrArg (fun l => l[x]?) hcells
          simp only [List.getElem?_map, List.getElem?_eq_getElem hlt, Option.map_some] at e
          obtain ⟨y, hy, e⟩ := Option.map_eq_some_iff.mp e.symm
          simp only [Prod.mk.injEq] at e
          unfold rowSpanOf
          rw [hy, q4, List.getD_eq_getElem?_getD, List.getElem?_eq_getElem hlt]
          exact e.2.2.2.1
        simp only [Option.map_some, hrs, ← d1, ← d2]
        rw [q1, q2, List.getD_eq_getElem?_getD, List.getElem?_eq_getElem hlt]
        rfl
      · rw [hfx, if_pos (.inl (by rw [hsp]; rfl)), cellSetAt]; simp
      · have hz : (t.cell x).zero = true := by
          obtain ⟨_, _, _, _, g⟩ := hi.made x hge (hi.bound _ _ hx')
          rcases g with ⟨a, _, g1, g2⟩ | ⟨_, g⟩
          · unfold foundAt at hfx
            rw [g1, g2] at hfx
            cases hfx
          · exact g
        rw [hfx, if_pos (.inr hz), cellSetAt]; simp
    rw [hz, hc]
    congr 1
    unfold reachOf
    rw [maxCellHeight_largest, List.map_map]
    congr 1
    apply List.map_congr_left
    intro x hx
    have hx' : x ∈ rowAt t i := hre ▸ hx
    simp only [Function.comp]
    rcases Nat.lt_or_ge x H0.length with hlt | hge
    · obtain ⟨q1, q2, q3, q4, q5, q6⟩ := hi.authored x hlt
      rw [if_neg (by rw [q5, q6]; simp)]
      rfl
    · obtain ⟨_, g2, _, _, g⟩ := hi.made x hge (hi.bound _ _ hx')
      rw [if_pos (by rcases g with ⟨a, _, g1, _⟩ | ⟨_, g⟩; exacts [.inl (by rw [g1]; rfl), .inr g])]
      unfold Tab.dim
      simp only [g2, List.foldl_nil, Option.map_none, Option.getD_none]
      exact ((hl.rowHeights i r e).2.1 x hx).1.symm

end Verif.Proofs
