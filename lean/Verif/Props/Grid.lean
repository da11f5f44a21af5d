import Verif.Proofs.Grid
/-
Properties C32, C33: grids (/repo/grid.go, /repo/xdoc/grid.go).
-/
namespace Verif.Props
open Verif.Go Verif.Model Verif.Proofs

/-- The cell in row `i`, column `j` of the grid carries the name `a`. -/
def CellAt (rows : List (List Str)) (i j : Nat) (a : Str) : Prop := ∃ r, rows[i]? = some r ∧ r[j]? = some a

/-- The cells carrying the name are exactly those in rows `t..b` and columns `l..r`. -/
def IsRect (rows : List (List Str)) (a : Str) (l t r b : Nat) : Prop :=
  t ≤ b ∧ l ≤ r ∧ ∀ i j, CellAt rows i j a ↔ (t ≤ i ∧ i ≤ b) ∧ l ≤ j ∧ j ≤ r

private theorem mem_sel_cell (rows : List (List Str)) (a : Str) (i j : Nat) :
    (i, j) ∈ sel a (cellsOf 0 rows) ↔ CellAt rows i j a := by
  rw [mem_sel, mem_cellsOf]; simp [CellAt]

private theorem run_shape (rows : List (List Str)) (a : Str) (hne : sel a (cellsOf 0 rows) ≠ []) :
    runBox GridBox.zero (sel a (cellsOf 0 rows)) ≠ .panic ∧
    ∀ b, runBox GridBox.zero (sel a (cellsOf 0 rows)) = .ok b →
      ∃ t l ws k, 1 ≤ k ∧ b = boxOf t l (ws ++ [k]) ∧ posOf t l (ws ++ [k]) = sel a (cellsOf 0 rows) := by
  have hs := sel_sorted a rows 0
  revert hne hs
  generalize sel a (cellsOf 0 rows) = ps
  intro hne hs
  cases ps with
  | nil => simp at hne
  | cons p ps =>
    obtain ⟨i, j⟩ := p
    have h := run_sound i j ps [] 1 le_rfl (by simpa [posOf, rowsOf] using hs)
    simp only [runBox, zero_add_box, Res.bind]
    refine ⟨h.1, ?_⟩
    intro b hb
    obtain ⟨ws, k, h1, h2, h3⟩ := h.2 b hb
    exact ⟨i, j, ws, k, h1, h2, by simpa [posOf, rowsOf] using h3⟩

private theorem foldl_max_replicate (w : Nat) : ∀ n a, (List.replicate n w).foldl max a = if n = 0 then a else max a w := by
  intro n
  induction n with
  | zero => simp
  | succ n ih => intro a; simp only [List.replicate_succ, List.foldl_cons, ih]; split <;> simp

/-- A box made of the cells of a name passes `validate` exactly if the name forms a rectangle, whose corners it has. -/
private theorem shape_rect (rows : List (List Str)) (a : Str) (t l : Nat) (ws : List Nat) (k : Nat)
    (hp : posOf t l (ws ++ [k]) = sel a (cellsOf 0 rows)) (hk : 1 ≤ k) :
    let g := boxOf t l (ws ++ [k])
    g.validate ≠ .panic ∧ (g.validate = .ok () → IsRect rows a g.left g.top g.right g.bottom) := by
  obtain ⟨h1, h2⟩ := validate_iff t l (ws ++ [k]) (by simp)
  refine ⟨h1, ?_⟩
  intro hv
  obtain ⟨w, hw⟩ := h2.mp hv
  have hkw : k = w := by
    have : k ∈ ws ++ [k] := by simp
    rw [hw] at this; exact List.eq_of_mem_replicate this
  have hlen : (ws ++ [k]).length = ws.length + 1 := by simp
  have hright : l + (ws ++ [k]).foldl max 0 - 1 = l + w - 1 := by
    rw [hw, foldl_max_replicate]; simp
  refine ⟨?_, ?_, ?_⟩
  · simp [boxOf]
  · simp only [boxOf, hright]; omega
  · intro i j
    rw [← mem_sel_cell, ← hp]
    rw [hw, mem_posOf_replicate]
    simp only [boxOf, foldl_max_replicate, List.length_replicate, hlen]
    simp; omega

private theorem rect_run (rows : List (List Str)) (a : Str) (l t r b : Nat) (h : IsRect rows a l t r b) :
    ∃ g, runBox GridBox.zero (sel a (cellsOf 0 rows)) = .ok g ∧ g.validate = .ok () := by
  obtain ⟨h1, h2, h3⟩ := h
  have he : sel a (cellsOf 0 rows) = posOf t l (List.replicate (b - t + 1) (r - l + 1)) := by
    apply sorted_ext (sel_sorted a rows 0) (posOf_sorted _ _ _)
    rintro ⟨i, j⟩
    rw [mem_sel_cell, h3, mem_posOf_replicate]
    simp only; omega
  refine ⟨boxOf t l (List.replicate (b - t + 1) (r - l + 1)), ?_, ?_⟩
  · rw [he]
    exact run_rows t l _ (by simp) (fun w hw => by rw [List.eq_of_mem_replicate hw]; omega)
  · exact (validate_iff t l _ (by simp)).2.mpr ⟨r - l + 1, by simp⟩

private theorem validateAll_ok : ∀ bs : Boxes, (∀ e ∈ bs, e.2.validate ≠ .panic) → validateAll bs ≠ .panic ∧
    (validateAll bs = .ok () ↔ ∀ e ∈ bs, e.2.validate = .ok ()) := by
  intro bs
  induction bs with
  | nil => simp [validateAll]
  | cons e bs ih =>
    obtain ⟨a, g⟩ := e
    intro h
    obtain ⟨i1, i2⟩ := ih (fun e he => h e (by simp [he]))
    have hg := h (a, g) (by simp)
    simp only [validateAll]
    cases hv : g.validate with
    | ok u => simp [Res.bind, i1, i2, hv]
    | err => simp [Res.bind, hv]
    | panic => exact absurd hv hg

private theorem boxes_of_go {rows : List (List Str)} {m : Boxes} (h : goBoxes (cellsOf 0 rows) [] = .ok m) :
    (∀ a g, (a, g) ∈ m ↔ sel a (cellsOf 0 rows) ≠ [] ∧ runBox GridBox.zero (sel a (cellsOf 0 rows)) = .ok g) := by
  obtain ⟨h1, h2, h3⟩ := goBoxes_ok _ _ _ h
  have hn : (m.map Prod.fst).Nodup := h3 (by simp)
  intro a g
  have e0 : boxAt a [] = GridBox.zero := rfl
  have h1a := h1 a
  rw [e0] at h1a
  have h2a := h2 a
  simp only [mapGet, Option.isSome_none, Bool.false_eq_true, false_or] at h2a
  rw [← h2a, h1a]
  constructor
  · intro hm
    have := mapGet_of_mem hn hm
    simp [this, boxAt]
  · rintro ⟨hs, hg⟩
    obtain ⟨g', hg'⟩ := Option.isSome_iff_exists.mp hs
    simp [boxAt, hg'] at hg
    subst hg
    exact mem_of_mapGet hg'

/-- C32: area checking succeeds exactly if every name occurring in the grid fills a rectangle, whatever the iteration order
of the map is. -/
theorem C32_accepts (order : Boxes → Boxes) (hord : ∀ m, (order m).Perm m) (rows : List (List Str)) :
    (∃ boxes, renderGrid order rows = .ok boxes) ↔
      ∀ a, (∃ i j, CellAt rows i j a) → ∃ l t r b, IsRect rows a l t r b := by
  unfold renderGrid
  rw [addRows_eq]
  constructor
  · rintro ⟨boxes, h⟩ a ⟨i, j, hc⟩
    cases hg : goBoxes (cellsOf 0 rows) [] with
    | err => simp [hg, Res.bind] at h
    | panic => simp [hg, Res.bind] at h
    | ok m =>
      simp only [hg, Res.bind] at h
      have hb := boxes_of_go hg
      have hne : sel a (cellsOf 0 rows) ≠ [] := List.ne_nil_of_mem ((mem_sel_cell rows a i j).mpr hc)
      obtain ⟨h1, -, -⟩ := goBoxes_ok _ _ _ hg
      have hr : runBox GridBox.zero (sel a (cellsOf 0 rows)) = .ok (boxAt a m) := h1 a
      obtain ⟨t, l, ws, k, hk, e1, e2⟩ := (run_shape rows a hne).2 _ hr
      have hmem : (a, boxAt a m) ∈ order m := (hord m).mem_iff.mpr ((hb a _).mpr ⟨hne, hr⟩)
      have hnp : ∀ e ∈ order m, e.2.validate ≠ .panic := by
        rintro ⟨a', g'⟩ he
        obtain ⟨q1, q2⟩ := (hb a' g').mp ((hord m).mem_iff.mp he)
        obtain ⟨t', l', ws', k', hk', e1', e2'⟩ := (run_shape rows a' q1).2 _ q2
        subst e1'
        exact (shape_rect rows a' t' l' ws' k' e2' hk').1
      have hv : validateAll (order m) = .ok () := by
        cases hv : validateAll (order m) with
        | ok u => rfl
        | err => simp [hv] at h
        | panic => simp [hv] at h
      have hok := ((validateAll_ok _ hnp).2.mp hv) _ hmem
      simp only [e1] at hok
      exact ⟨_, _, _, _, (shape_rect rows a t l ws k e2 hk).2 hok⟩
  · intro h
    have hrun : ∀ a, ∃ b, runBox (boxAt a []) (sel a (cellsOf 0 rows)) = .ok b := by
      intro a
      have e0 : boxAt a [] = GridBox.zero := rfl
      rw [e0]
      cases hs : sel a (cellsOf 0 rows) with
      | nil => exact ⟨_, rfl⟩
      | cons p ps =>
        obtain ⟨i, j⟩ := p
        have hc : CellAt rows i j a := (mem_sel_cell rows a i j).mp (by rw [hs]; simp)
        obtain ⟨l, t, r, b, hr⟩ := h a ⟨i, j, hc⟩
        obtain ⟨g, hg, -⟩ := rect_run rows a l t r b hr
        exact ⟨g, by rw [← hs]; exact hg⟩
    obtain ⟨m, hm⟩ := (goBoxes_exists _ _).1 hrun
    have hb := boxes_of_go hm
    have hall : ∀ e ∈ order m, e.2.validate = .ok () := by
      rintro ⟨a, g⟩ he
      obtain ⟨q1, q2⟩ := (hb a g).mp ((hord m).mem_iff.mp he)
      obtain ⟨⟨i, j⟩, hp⟩ := List.exists_mem_of_ne_nil _ q1
      obtain ⟨l, t, r, b, hr⟩ := h a ⟨i, j, (mem_sel_cell rows a i j).mp hp⟩
      obtain ⟨g', hg', hv⟩ := rect_run rows a l t r b hr
      rw [q2] at hg'; simp at hg'; subst hg'; exact hv
    have hv := (validateAll_ok (order m) (fun e he => by rw [hall e he]; simp)).2.mpr hall
    exact ⟨m, by simp [hm, Res.bind, hv]⟩

/-- C32: on success the map has exactly the names of the grid, each with the corners of its rectangle. -/
theorem C32_corners (order : Boxes → Boxes) (hord : ∀ m, (order m).Perm m) (rows : List (List Str)) (boxes : Boxes)
    (h : renderGrid order rows = .ok boxes) (a : Str) :
    ((∃ i j, CellAt rows i j a) ↔ ∃ g, mapGet a boxes = some g) ∧
    ∀ g, mapGet a boxes = some g → IsRect rows a g.left g.top g.right g.bottom := by
  unfold renderGrid at h
  rw [addRows_eq] at h
  cases hg : goBoxes (cellsOf 0 rows) [] with
  | err => simp [hg, Res.bind] at h
  | panic => simp [hg, Res.bind] at h
  | ok m =>
    simp only [hg, Res.bind] at h
    have hb := boxes_of_go hg
    obtain ⟨-, h2, -⟩ := goBoxes_ok _ _ _ hg
    cases hv : validateAll (order m) with
    | err => simp [hv] at h
    | panic => simp [hv] at h
    | ok u =>
      simp only [hv, Res.ok.injEq] at h
      subst h
      have h2a := h2 a
      simp only [mapGet, Option.isSome_none, Bool.false_eq_true, false_or] at h2a
      refine ⟨?_, ?_⟩
      · rw [← Option.isSome_iff_exists, h2a]
        constructor
        · rintro ⟨i, j, hc⟩; exact List.ne_nil_of_mem ((mem_sel_cell rows a i j).mpr hc)
        · intro hne
          obtain ⟨⟨i, j⟩, hp⟩ := List.exists_mem_of_ne_nil _ hne
          exact ⟨i, j, (mem_sel_cell rows a i j).mp hp⟩
      · intro g hga
        have hnp : ∀ e ∈ order m, e.2.validate ≠ .panic := by
          rintro ⟨a', g'⟩ he
          obtain ⟨q1, q2⟩ := (hb a' g').mp ((hord m).mem_iff.mp he)
          obtain ⟨t', l', ws', k', hk', e1', e2'⟩ := (run_shape rows a' q1).2 _ q2
          subst e1'
          exact (shape_rect rows a' t' l' ws' k' e2' hk').1
        have hmem := mem_of_mapGet hga
        have hok := ((validateAll_ok _ hnp).2.mp hv) _ ((hord m).mem_iff.mpr hmem)
        obtain ⟨q1, q2⟩ := (hb a g).mp hmem
        obtain ⟨t, l, ws, k, hk, e1, e2⟩ := (run_shape rows a q1).2 _ q2
        subst e1
        exact (shape_rect rows a t l ws k e2 hk).2 hok

/-- C32: checking never panics. -/
theorem C32_no_panic (order : Boxes → Boxes) (hord : ∀ m, (order m).Perm m) (rows : List (List Str)) :
    renderGrid order rows ≠ .panic := by
  unfold renderGrid
  rw [addRows_eq]
  have hnp := (goBoxes_exists (cellsOf 0 rows) []).2 (by
    intro a
    have e0 : boxAt a [] = GridBox.zero := rfl
    rw [e0]
    by_cases hne : sel a (cellsOf 0 rows) = []
    · rw [hne]; simp [runBox]
    · exact (run_shape rows a hne).1)
  cases hg : goBoxes (cellsOf 0 rows) [] with
  | err => simp [Res.bind]
  | panic => exact absurd hg hnp
  | ok m =>
    simp only [Res.bind]
    have hb := boxes_of_go hg
    have hnp : ∀ e ∈ order m, e.2.validate ≠ .panic := by
      rintro ⟨a', g'⟩ he
      obtain ⟨q1, q2⟩ := (hb a' g').mp ((hord m).mem_iff.mp he)
      obtain ⟨t', l', ws', k', hk', e1', e2'⟩ := (run_shape rows a' q1).2 _ q2
      subst e1'
      exact (shape_rect rows a' t' l' ws' k' e2' hk').1
    have := (validateAll_ok _ hnp).1
    cases hv : validateAll (order m) with
    | err => simp
    | panic => exact absurd hv this
    | ok u => simp

private theorem gridNames_some (ac : Nat) : ∀ (rows : List (List Str)) (am am' : List Str),
    gridNames ac rows am = some am' ↔ (∀ r ∈ rows, r.length = ac) ∧ am' = am ++ rows.flatten := by
  intro rows
  induction rows with
  | nil => intro am am'; simp [gridNames, eq_comm]
  | cons r rows ih =>
    intro am am'
    simp only [gridNames]
    by_cases h : r.length = ac
    · simp [h, ih]
    · simp [h]

/-- C33: a grid is accepted exactly if it has a row, all rows have the same number of areas and every part names an area of
some row. -/
theorem C33 (rows : List (List Str)) (parts : List Str) :
    gridValidate rows parts = true ↔
      rows ≠ [] ∧ (∀ r ∈ rows, ∀ r' ∈ rows, r.length = r'.length) ∧ ∀ p ∈ parts, ∃ r ∈ rows, p ∈ r := by
  cases rows with
  | nil => simp [gridValidate]
  | cons r rows =>
    simp only [gridValidate]
    cases hn : gridNames r.length (r :: rows) [] with
    | none =>
      simp only [Bool.false_eq_true, false_iff]
      rintro ⟨_, h, _⟩
      have := (gridNames_some r.length (r :: rows) [] (r :: rows).flatten).mpr
        ⟨fun r' hr' => h r' hr' r (by simp), by simp⟩
      rw [hn] at this; simp at this
    | some am =>
      obtain ⟨h1, h2⟩ := (gridNames_some _ _ _ _).mp hn
      simp only [h2, List.nil_append, List.all_eq_true, List.contains_iff_mem, List.mem_flatten]
      constructor
      · intro h
        refine ⟨by simp, ?_, h⟩
        intro a ha b hb; rw [h1 a ha, h1 b hb]
      · rintro ⟨_, _, h⟩; exact h

/-! Cases: an accepted grid, and three kinds of refusal. -/

private def rg (rows : List (List Str)) : Option (List (Str × Nat × Nat × Nat × Nat)) :=
  match renderGrid id rows with
  | .ok m => some (m.map fun e => (e.1, e.2.left, e.2.top, e.2.right, e.2.bottom))
  | _ => none

example : rg [[b!"a", b!"a", b!"b"], [b!"a", b!"a", b!"c"], [b!"d"]] =
    some [(b!"a", 0, 0, 1, 1), (b!"b", 2, 0, 2, 0), (b!"c", 2, 1, 2, 1), (b!"d", 0, 2, 0, 2)] := by decide +kernel
-- a hole in a row, an L shape, a gap between rows
example : rg [[b!"a", b!"b", b!"a"]] = none ∧ rg [[b!"a", b!"a"], [b!"a", b!"b"]] = none ∧
    rg [[b!"a"], [b!"b"], [b!"a"]] = none ∧ rg [[b!"a", b!"b"], [b!"a", b!"a"]] = none := by decide +kernel
example : gridValidate [[b!"a", b!"b"], [b!"a", b!"c"]] [b!"c", b!"a"] = true ∧ gridValidate [] [] = false ∧
    gridValidate [[b!"a", b!"b"], [b!"a"]] [] = false ∧ gridValidate [[b!"a"]] [b!"b"] = false := by decide +kernel

end Verif.Props
