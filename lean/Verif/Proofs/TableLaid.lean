import Verif.Proofs.TableHeights
import Verif.Spec.Table
/-
All that is known of a table laid out by transformTable.
-/
namespace Verif.Proofs
open Verif.Go Verif.Model Verif.Spec

theorem idsOf_eq (t : Tab) (r : Nat) : idsOf t r = rowAt t r := by
  unfold idsOf rowAt
  cases t.rows[r]? <;> rfl

/-- What transformTable establishes; `cws` are the largest column widths asked for. -/
structure Laid {σ : Type} (m : Measure σ) (width : ℚ) (H0 : List TCell) (orig : List (List Nat)) (cws : List ℚ) (t : Tab) : Prop where
  span : Spanned H0 orig t
  cwsLen : cws.length = t.columnCount
  cwsNonneg : ∀ k, 0 ≤ cws.getD k 0
  cwsUpper : ∀ r k x, (rowAt t r)[k]? = some x → (t.cell x).styles.columnWidth ≤ cws.getD k 0
  cwsReached : ∀ k, cws.getD k 0 = 0 ∨ ∃ r x, (rowAt t r)[k]? = some x ∧ (t.cell x).styles.columnWidth = cws.getD k 0
  widths : ∀ r k x, (rowAt t r)[k]? = some x → (t.cell x).width = (fillWidths width cws).getD k 0
  rowHeights : ∀ (r : Nat) (row : TRow), t.rows[r]? = some row → 0 ≤ row.height ∧
      (∀ x ∈ row.cells, (t.cell x).height = row.height ∧ (t.cell x).minHeight ≤ row.height) ∧
      (row.height = 0 ∨ ∃ x ∈ row.cells, (t.cell x).minHeight = row.height)
  minSet : ∀ r a, a < H0.length → a ∈ rowAt t r → MinSet m t a

theorem layout_laid {σ : Type} (m : Measure σ) (width : ℚ) {H0 : List TCell} {orig : List (List Nat)} {t0 : Tab} (hf : Fresh H0 orig t0) (s : σ) :
    ∃ t1 t2 cws, processSpans t0 = some t1 ∧ assignColumnWidths width t1 = some t2 ∧
      Laid m width H0 orig cws (assignHeights m t2 s).1 := by
  obtain ⟨t1, h1, hs1⟩ := processSpans_spec hf
  obtain ⟨t2, cws, h2, sh12, c1, c2, c3, c4, c5⟩ := assignColumnWidths_spec hs1 width
  have hs2 := hs1.shape sh12
  obtain ⟨sh23, w, hr, hm⟩ := assignHeights_spec m hs2.inv s
  have hs3 := hs2.shape sh23
  have sh := sh12.trans sh23
  refine ⟨t1, t2, cws, h1, h2, hs3, ?_, c2, ?_, ?_, ?_, hr, hm⟩
  · rw [c1, ← sh.2.1]
  · intro r k x hx
    rw [sh.2.2.2.1] at hx
    rw [(sh.2.2.2.2 x).1.1]; exact c3 r k x hx
  · intro k
    rcases c4 k with h | ⟨r, x, q1, q2⟩
    · exact Or.inl h
    · exact Or.inr ⟨r, x, by rw [sh.2.2.2.1]; exact q1, by rw [(sh.2.2.2.2 x).1.1]; exact q2⟩
  · intro r k x hx
    rw [sh.2.2.2.1] at hx
    rw [w x, c5 r k x hx]

theorem transformTable_laid {σ : Type} (m : Measure σ) (cs : Classes) (page : Page) (curr : Styles) (st : Styled) (xrows : List TableRow)
    (s : σ) : ∃ t s' H0 orig cws, transformTable m cs page curr st xrows s = some (t, s') ∧
      Laid m (page.effectiveWidth (st.mutatedStyles cs curr).dim.width) H0 orig cws t ∧
      Fresh H0 orig (makeTable cs (st.mutatedStyles cs curr) xrows) ∧
      orig.map (fun ids => ids.map fun x => ((H0.getD x TCell.new).iss, (H0.getD x TCell.new).colSpan, (H0.getD x TCell.new).rowSpan)) =
        xrows.map (fun x => x.cells.map fun c => (c.iss, c.colSpan, c.rowSpan)) := by
  obtain ⟨hf, hw⟩ := makeTable_fresh cs (st.mutatedStyles cs curr) xrows
  obtain ⟨t1, t2, cws, h1, h2, h3⟩ := layout_laid m (page.effectiveWidth (st.mutatedStyles cs curr).dim.width) hf s
  refine ⟨_, (assignHeights m t2 s).2, _, _, cws, ?_, h3, hf, ?_⟩
  · unfold transformTable
    simp only [h1, h2]
  · rw [← hw, List.map_map]; rfl

theorem Inv.isAuthored_iff {H0 : List TCell} {orig : List (List Nat)} {t : Tab} (hi : Inv H0 orig t) {r x : Nat} (hx : x ∈ rowAt t r) :
    isAuthored t x = decide (x < H0.length) := by
  unfold isAuthored
  by_cases h : x < H0.length
  · have := hi.authored x h
    rw [this.2.2.2.2.1, this.2.2.2.2.2]; simp [h]
  · have := (hi.made x (by omega) (hi.bound _ _ hx)).2.2.2.2
    rcases this with ⟨a, _, h1, h2⟩ | ⟨h1, h2⟩
    · rw [h1]; simp [h]
    · rw [h2]; simp [h]

theorem Inv.authored_row {H0 : List TCell} {orig : List (List Nat)} {t : Tab} (hi : Inv H0 orig t) (r : Nat) :
    authoredIn t r = (orig.getD r []).map fun x => ((H0.getD x TCell.new).iss, (H0.getD x TCell.new).colSpan, (H0.getD x TCell.new).rowSpan) := by
  unfold authoredIn
  rw [idsOf_eq, List.filter_congr (fun x hx => hi.isAuthored_iff hx), hi.auth r]
  apply List.map_congr_left
  intro x hx
  have := hi.authored x ((hi.mem_orig r x).mp hx).2
  rw [this.2.1, this.2.2.1, this.2.2.2.1]

theorem extent_eq (n : Int) : extent n = 1 + (n - 1).toNat := by
  unfold extent
  split <;> omega

/-- The placeholders of `a` in its own row. -/
theorem Inv.placeholders_own {H0 : List TCell} {orig : List (List Nat)} {t : Tab} (hi : Inv H0 orig t) {a i : Nat} (ha : a < H0.length)
    (hai : a ∈ rowAt t i) : (placeholders t a i).Perm (t.cell a).spansCols := by
  unfold placeholders
  rw [idsOf_eq, List.perm_ext_iff_of_nodup ((hi.nod i).filter _) (hi.colsNodup a)]
  intro x
  simp only [List.mem_filter, decide_eq_true_eq]
  constructor
  · rintro ⟨h1, h2⟩
    rcases hi.own i x a h1 h2 with h | h
    · exact h
    · obtain ⟨n, hn⟩ := List.getElem?_of_mem h
      have := hi.inj _ _ _ h1 (hi.rows a i ha hai n x hn).1
      omega
  · intro h
    have := hi.cols a i ha hai x h
    exact ⟨this.1, this.2.2⟩

/-- The placeholder of `a` in the `n`-th row below. -/
theorem Inv.placeholders_below {H0 : List TCell} {orig : List (List Nat)} {t : Tab} (hi : Inv H0 orig t) {a i n : Nat} (ha : a < H0.length)
    (hai : a ∈ rowAt t i) : placeholders t a (i + 1 + n) = (t.cell a).spansRows[n]?.toList := by
  have hmem : ∀ x, x ∈ placeholders t a (i + 1 + n) ↔ (t.cell a).spansRows[n]? = some x := by
    intro x
    unfold placeholders
    simp only [idsOf_eq, List.mem_filter, decide_eq_true_eq]
    constructor
    · rintro ⟨h1, h2⟩
      rcases hi.own _ x a h1 h2 with h | h
      · have := hi.inj _ _ _ h1 (hi.cols a i ha hai x h).1
        omega
      · obtain ⟨k, hk⟩ := List.getElem?_of_mem h
        have := hi.inj _ _ _ h1 (hi.rows a i ha hai k x hk).1
        have : n = k := by omega
        subst this; exact hk
    · intro h
      have := hi.rows a i ha hai n x h
      exact ⟨this.1, this.2.2⟩
  have hnod : (placeholders t a (i + 1 + n)).Nodup := by
    unfold placeholders; rw [idsOf_eq]; exact (hi.nod _).filter _
  cases hs : (t.cell a).spansRows[n]? with
  | none =>
    have : placeholders t a (i + 1 + n) = [] :=
      List.eq_nil_iff_forall_not_mem.mpr (fun x hx => by rw [hmem, hs] at hx; simp at hx)
    rw [this]; rfl
  | some y =>
    have hy : y ∈ placeholders t a (i + 1 + n) := (hmem y).mpr hs
    have hall : ∀ x ∈ placeholders t a (i + 1 + n), x = y := fun x hx => by
      have := (hmem x).mp hx
      rw [hs] at this
      simpa using this.symm
    have hperm : (placeholders t a (i + 1 + n)).Perm [y] := by
      rw [List.perm_ext_iff_of_nodup hnod (by simp)]
      intro x
      simp only [List.mem_singleton]
      exact ⟨hall x, fun h => h ▸ hy⟩
    simpa using List.perm_singleton.mp hperm

/-- No placeholders elsewhere. -/
theorem Inv.placeholders_above {H0 : List TCell} {orig : List (List Nat)} {t : Tab} (hi : Inv H0 orig t) {a i r : Nat} (ha : a < H0.length)
    (hai : a ∈ rowAt t i) (hr : r < i) : placeholders t a r = [] := by
  rw [List.eq_nil_iff_forall_not_mem]
  intro x hx
  unfold placeholders at hx
  simp only [idsOf_eq, List.mem_filter, decide_eq_true_eq] at hx
  rcases hi.own r x a hx.1 hx.2 with h | h
  · have := hi.inj _ _ _ hx.1 (hi.cols a i ha hai x h).1
    omega
  · obtain ⟨n, hn⟩ := List.getElem?_of_mem h
    have := hi.inj _ _ _ hx.1 (hi.rows a i ha hai n x hn).1
    omega

theorem heightOf_of_mem {σ : Type} {m : Measure σ} {width : ℚ} {H0 : List TCell} {orig : List (List Nat)} {cws : List ℚ} {t : Tab}
    (h : Laid m width H0 orig cws t) {r x : Nat} (hx : x ∈ rowAt t r) :
    (t.cell x).height = heightOf t r ∧ (t.cell x).minHeight ≤ heightOf t r ∧ r < t.rows.length := by
  obtain ⟨k, hk⟩ := List.getElem?_of_mem hx
  obtain ⟨row, _, h2, h3⟩ := rowAt_mem_rows hk
  have := (h.rowHeights r row h3).2.1 x (List.mem_of_getElem? h2)
  have hr : r < t.rows.length := by
    by_contra hc
    rw [List.getElem?_eq_none (by omega)] at h3
    simp at h3
  unfold heightOf
  rw [h3]
  exact ⟨this.1, this.2, hr⟩

theorem sum_getElem (l : List Nat) (f : Nat → ℚ) (g : Nat → ℚ) (h : ∀ n x, l[n]? = some x → f x = g n) :
    (l.map f).sum = ((List.range l.length).map g).sum := by
  congr 1
  apply List.ext_getElem
  · simp
  · intro n h1 h2
    simp at h1
    simp only [List.getElem_map, List.getElem_range]
    exact h n _ (List.getElem?_eq_getElem h1)

theorem dim_fst (t : Tab) (a : Nat) : (t.dim a).1 = (t.cell a).width + ((t.cell a).spansCols.map fun s => (t.cell s).width).sum := by
  unfold Tab.dim; simp only; rw [foldl_add_sum]

theorem dim_snd (t : Tab) (a : Nat) : (t.dim a).2 = (t.cell a).height + ((t.cell a).spansRows.map fun s => (t.cell s).height).sum := by
  unfold Tab.dim; simp only; rw [foldl_add_sum]

/-- The height of a cell. -/
theorem Laid.dim_height {σ : Type} {m : Measure σ} {width : ℚ} {H0 : List TCell} {orig : List (List Nat)} {cws : List ℚ} {t : Tab}
    (h : Laid m width H0 orig cws t) {a i : Nat} (ha : a < H0.length) (hai : a ∈ rowAt t i) :
    (t.dim a).2 = ((List.range (1 + (t.cell a).spansRows.length)).map fun k => heightOf t (i + k)).sum := by
  rw [dim_snd, (heightOf_of_mem h hai).1]
  rw [sum_getElem (t.cell a).spansRows (fun s => (t.cell s).height) (fun n => heightOf t (i + 1 + n))
    (fun n x hx => (heightOf_of_mem h (h.span.inv.rows a i ha hai n x hx).1).1)]
  rw [Nat.add_comm 1, List.range_succ_eq_map, List.map_cons, List.sum_cons, List.map_map]
  congr 2
  apply List.map_congr_left
  intro n _
  show heightOf t (i + 1 + n) = heightOf t (i + (n + 1))
  congr 1; omega

theorem sum_const_le (l : List Nat) (f : Nat → ℚ) (v : ℚ) (h : ∀ x ∈ l, v ≤ f x) : (l.length : ℚ) * v ≤ (l.map f).sum := by
  induction l with
  | nil => simp
  | cons x l ih =>
    rw [List.map_cons, List.sum_cons, List.length_cons]
    have h1 := h x (by simp)
    have h2 := ih (fun y hy => h y (by simp [hy]))
    push_cast
    linarith

/-- The height of a cell holds its contents. -/
theorem Laid.dim_holds {σ : Type} {m : Measure σ} {width : ℚ} {H0 : List TCell} {orig : List (List Nat)} {cws : List ℚ} {t : Tab}
    (h : Laid m width H0 orig cws t) {a i : Nat} (ha : a < H0.length) (hai : a ∈ rowAt t i) :
    if (t.cell a).styles.dim.height > 0 then (t.cell a).styles.dim.height ≤ (t.dim a).2
    else ∃ s, (m (t.cell a).styles (t.cell a).iss
      ((t.dim a).1 - ((t.cell a).styles.box.padding.left + (t.cell a).styles.box.padding.right)) s).1
      + (t.cell a).styles.box.padding.top + (t.cell a).styles.box.padding.bottom ≤ (t.dim a).2 := by
  have hset := h.minSet i a ha hai
  unfold MinSet at hset
  have hown := heightOf_of_mem h hai
  have hrow : ∀ x ∈ (t.cell a).spansRows, (t.cell x).minHeight ≤ (t.cell x).height ∧ 0 ≤ (t.cell x).height := by
    intro x hx
    obtain ⟨n, hn⟩ := List.getElem?_of_mem hx
    have hxr := (h.span.inv.rows a i ha hai n x hn).1
    have q := heightOf_of_mem h hxr
    refine ⟨by rw [q.1]; exact q.2.1, ?_⟩
    rw [q.1]
    have := (h.rowHeights _ _ (List.getElem?_eq_getElem q.2.2)).1
    unfold heightOf
    rw [List.getElem?_eq_getElem q.2.2]
    exact this
  split
  · rename_i hh
    rw [if_pos hh] at hset
    rw [dim_snd, hown.1]
    have h0 := sum_const_le (t.cell a).spansRows (fun s => (t.cell s).height) 0 (fun x hx => (hrow x hx).2)
    have := hown.2.1
    rw [hset] at this
    simp only [mul_zero] at h0
    linarith
  · rename_i hh
    rw [if_neg hh] at hset
    obtain ⟨s, hs⟩ := hset
    refine ⟨s, ?_⟩
    have hav : (t.dim a).1 - ((t.cell a).styles.box.padding.left + (t.cell a).styles.box.padding.right) = availWidth t a := by
      rw [dim_fst]; rfl
    rw [hav]
    set total := (m (t.cell a).styles (t.cell a).iss (availWidth t a) s).1 + (t.cell a).styles.box.padding.top + (t.cell a).styles.box.padding.bottom
    have h1 := hs a (Or.inl rfl)
    have h2 := sum_const_le (t.cell a).spansRows (fun s => (t.cell s).height) (total / (1 + (t.cell a).spansRows.length))
      (fun x hx => by rw [← hs x (Or.inr hx)]; exact (hrow x hx).1)
    have h3 := hown.2.1
    rw [h1, ← hown.1] at h3
    rw [dim_snd]
    have hpos : (0 : ℚ) < 1 + ((t.cell a).spansRows.length : ℚ) := by
      have : (0 : ℚ) ≤ ((t.cell a).spansRows.length : ℚ) := Nat.cast_nonneg _
      linarith
    have key : total = total / (1 + ((t.cell a).spansRows.length : ℚ)) + ((t.cell a).spansRows.length : ℚ) * (total / (1 + ((t.cell a).spansRows.length : ℚ))) := by
      field_simp
    calc total = _ := key
      _ ≤ _ := add_le_add h3 h2

/-! ### Measuring in states of a kind -/

section
variable {σ τ : Type} {m : Measure σ} {m' : Measure τ} {f : τ → σ}
  (hf : ∀ sty iss w s, m sty iss w (f s) = ((m' sty iss w s).1, f (m' sty iss w s).2))
include hf

theorem assignCellMinHeight_nat (id : Nat) (t : Tab) (s : τ) :
    assignCellMinHeight m id t (f s) = ((assignCellMinHeight m' id t s).1, f (assignCellMinHeight m' id t s).2) := by
  unfold assignCellMinHeight
  simp only [hf]
  split
  · rfl
  · split <;> rfl

theorem minHeightsRow_nat : ∀ (ids : List Nat) (t : Tab) (s : τ),
    minHeightsRow m ids t (f s) = ((minHeightsRow m' ids t s).1, f (minHeightsRow m' ids t s).2) := by
  intro ids
  induction ids with
  | nil => intro t s; rfl
  | cons id ids ih =>
    intro t s
    simp only [minHeightsRow, assignCellMinHeight_nat hf, ih]

theorem minHeights_nat : ∀ (rows : List TRow) (t : Tab) (s : τ),
    minHeights m rows t (f s) = ((minHeights m' rows t s).1, f (minHeights m' rows t s).2) := by
  intro rows
  induction rows with
  | nil => intro t s; rfl
  | cons r rows ih =>
    intro t s
    simp only [minHeights, minHeightsRow_nat hf, ih]

theorem transformTable_nat (cs : Classes) (page : Page) (curr : Styles) (st : Styled) (xrows : List TableRow) (s : τ) :
    transformTable m cs page curr st xrows (f s) = (transformTable m' cs page curr st xrows s).map fun r => (r.1, f r.2) := by
  unfold transformTable
  simp only
  cases processSpans (makeTable cs (st.mutatedStyles cs curr) xrows) with
  | none => rfl
  | some t =>
    simp only
    cases assignColumnWidths (page.effectiveWidth (st.mutatedStyles cs curr).dim.width) t with
    | none => rfl
    | some t' => simp only [assignHeights, minHeights_nat hf, Option.map_some]
end

end Verif.Proofs
