import Verif.Proofs.TableDims
/-
Row heights.
-/
namespace Verif.Proofs
open Verif.Go Verif.Model

/-- Only minimal heights differ. -/
def MinOnly (t t' : Tab) : Prop :=
  t'.heap.length = t.heap.length ∧ t'.rows = t.rows ∧ t'.columnCount = t.columnCount ∧
  ∀ x, ∃ h, t'.cell x = { t.cell x with minHeight := h }

theorem MinOnly.refl (t : Tab) : MinOnly t t := ⟨rfl, rfl, rfl, fun x => ⟨(t.cell x).minHeight, rfl⟩⟩

theorem MinOnly.trans {t t' t'' : Tab} (h : MinOnly t t') (h' : MinOnly t' t'') : MinOnly t t'' := by
  refine ⟨h'.1.trans h.1, h'.2.1.trans h.2.1, h'.2.2.1.trans h.2.2.1, fun x => ?_⟩
  obtain ⟨a, ha⟩ := h.2.2.2 x
  obtain ⟨b, hb⟩ := h'.2.2.2 x
  exact ⟨b, by rw [hb, ha]⟩

theorem MinOnly.shape {t t' : Tab} (h : MinOnly t t') : Shape t t' := by
  obtain ⟨h1, h2, h3, h4⟩ := h
  refine ⟨h1, h3, by rw [h2], fun r => by unfold rowAt; rw [h2], fun x => ?_⟩
  obtain ⟨a, ha⟩ := h4 x
  rw [ha]
  exact ⟨Core.refl _, rfl, rfl⟩

theorem modMin_only (t : Tab) (id : Nat) (f : TCell → TCell) (hf : ∀ c, ∃ h, f c = { c with minHeight := h }) (hid : id < t.heap.length) :
    MinOnly t (t.modCell id f) := by
  refine ⟨heap_modCell _ _ _, rfl, rfl, fun x => ?_⟩
  rw [cell_modCell _ _ _ _ hid]
  split
  · rename_i e; subst e; exact hf _
  · exact ⟨_, rfl⟩

theorem foldMin_spec (h : ℚ) : ∀ (l : List Nat) (t : Tab), (∀ x ∈ l, x < t.heap.length) →
    let t' := l.foldl (fun t sc => t.modCell sc fun c => { c with minHeight := h }) t
    MinOnly t t' ∧ (∀ x, x ∉ l → t'.cell x = t.cell x) ∧ (∀ x ∈ l, (t'.cell x).minHeight = h) := by
  intro l
  induction l with
  | nil => intro t _; exact ⟨MinOnly.refl _, fun _ _ => rfl, by simp⟩
  | cons y l ih =>
    intro t hb
    have hy := hb y (by simp)
    set t1 := t.modCell y fun c => { c with minHeight := h } with ht1
    have hm : MinOnly t t1 := modMin_only t y _ (fun c => ⟨h, rfl⟩) hy
    obtain ⟨q1, q2, q3⟩ := ih t1 (fun x hx => by rw [hm.1]; exact hb x (by simp [hx]))
    refine ⟨hm.trans q1, ?_, ?_⟩
    · intro x hx
      rw [List.foldl_cons, q2 x (fun h' => hx (by simp [h'])), ht1, cell_modCell _ _ _ _ hy, if_neg (fun h' => hx (by simp [h']))]
    · intro x hx
      rw [List.foldl_cons]
      by_cases hl : x ∈ l
      · exact q3 x hl
      · rcases List.mem_cons.mp hx with rfl | h'
        · rw [q2 x hl, ht1, cell_modCell _ _ _ _ hy, if_pos rfl]
        · exact absurd h' hl

/-- The width for the text of a cell. -/
def availWidth (t : Tab) (a : Nat) : ℚ :=
  (t.cell a).width + ((t.cell a).spansCols.map fun s => (t.cell s).width).sum
    - ((t.cell a).styles.box.padding.left + (t.cell a).styles.box.padding.right)

theorem foldl_add_sum {α : Type} (f : α → ℚ) (l : List α) (w : ℚ) : l.foldl (fun w s => w + f s) w = w + (l.map f).sum := by
  induction l generalizing w with
  | nil => simp
  | cons x l ih => rw [List.foldl_cons, ih, List.map_cons, List.sum_cons]; ring

/-- A cell whose minimal height has been set. -/
def MinSet {σ : Type} (m : Measure σ) (t : Tab) (a : Nat) : Prop :=
  if (t.cell a).styles.dim.height > 0 then (t.cell a).minHeight = (t.cell a).styles.dim.height
  else ∃ s, ∀ x, (x = a ∨ x ∈ (t.cell a).spansRows) → (t.cell x).minHeight =
    ((m (t.cell a).styles (t.cell a).iss (availWidth t a) s).1 + (t.cell a).styles.box.padding.top + (t.cell a).styles.box.padding.bottom)
      / (1 + (t.cell a).spansRows.length)

theorem availWidth_minOnly {t t' : Tab} (h : MinOnly t t') (a : Nat) : availWidth t' a = availWidth t a := by
  have hw : ∀ x, (t'.cell x).width = (t.cell x).width ∧ (t'.cell x).spansCols = (t.cell x).spansCols ∧ (t'.cell x).styles = (t.cell x).styles := by
    intro x
    obtain ⟨v, hv⟩ := h.2.2.2 x
    rw [hv]; exact ⟨rfl, rfl, rfl⟩
  unfold availWidth
  rw [(hw a).1, (hw a).2.1, (hw a).2.2]
  simp only [(hw _).1]

/-- Setting the minimal height of one cell. -/
theorem assignCellMinHeight_spec {σ : Type} {H0 : List TCell} {orig : List (List Nat)} (m : Measure σ) {t : Tab} (hi : Inv H0 orig t) {b i : Nat}
    (hb : b ∈ rowAt t i) (s : σ) :
    let t' := (assignCellMinHeight m b t s).1
    MinOnly t t' ∧ (b < H0.length → MinSet m t' b) ∧
    (∀ x, (H0.length ≤ b ∨ (x ≠ b ∧ x ∉ (t.cell b).spansRows)) → t'.cell x = t.cell x) := by
  have hbl := hi.bound _ _ hb
  by_cases hA : b < H0.length
  · have hau := hi.authored b hA
    have hcond : ¬ ((t.cell b).spannedBy.isSome ∨ (t.cell b).zero = true) := by
      rw [hau.2.2.2.2.1, hau.2.2.2.2.2]; simp
    unfold assignCellMinHeight
    simp only
    rw [if_neg hcond]
    by_cases hh : (t.cell b).styles.dim.height > 0
    · rw [if_pos hh]
      have hm : MinOnly t (t.modCell b fun c => { c with minHeight := c.styles.dim.height }) :=
        modMin_only t b _ (fun c => ⟨_, rfl⟩) hbl
      refine ⟨hm, fun _ => ?_, ?_⟩
      · unfold MinSet
        rw [cell_modCell _ _ _ _ hbl, if_pos rfl]
        simp only
        rw [if_pos hh]; trivial
      · intro x hx
        rw [cell_modCell _ _ _ _ hbl, if_neg]
        rcases hx with h | h
        · omega
        · exact h.1
    · rw [if_neg hh]
      simp only
      rw [foldl_add_sum]
      set avail := (t.cell b).width + ((t.cell b).spansCols.map fun s => (t.cell s).width).sum
        - ((t.cell b).styles.box.padding.left + (t.cell b).styles.box.padding.right) with hav
      set v := ((m (t.cell b).styles (t.cell b).iss avail s).1 + (t.cell b).styles.box.padding.top + (t.cell b).styles.box.padding.bottom)
        / (1 + ((t.cell b).spansRows.length : ℚ)) with hv
      set t1 := t.modCell b fun c => { c with minHeight := v } with ht1
      have hm1 : MinOnly t t1 := modMin_only t b _ (fun c => ⟨_, rfl⟩) hbl
      have hbound : ∀ x ∈ (t.cell b).spansRows, x < t.heap.length ∧ x ≠ b := by
        intro x hx
        obtain ⟨n, hn⟩ := List.getElem?_of_mem hx
        have := hi.rows b i hA hb n x hn
        exact ⟨hi.bound _ _ this.1, by omega⟩
      obtain ⟨q1, q2, q3⟩ := foldMin_spec v (t.cell b).spansRows t1 (fun x hx => by rw [hm1.1]; exact (hbound x hx).1)
      set t2 := (t.cell b).spansRows.foldl (fun t sc => t.modCell sc fun c => { c with minHeight := v }) t1 with ht2
      have hm2 : MinOnly t t2 := hm1.trans q1
      refine ⟨hm2, fun _ => ?_, ?_⟩
      · have hcb : (t2.cell b).styles = (t.cell b).styles ∧ (t2.cell b).iss = (t.cell b).iss ∧ (t2.cell b).spansRows = (t.cell b).spansRows := by
          obtain ⟨w, hw⟩ := hm2.2.2.2 b
          rw [hw]; exact ⟨rfl, rfl, rfl⟩
        unfold MinSet
        rw [hcb.1, hcb.2.1, hcb.2.2, if_neg hh, availWidth_minOnly hm2]
        refine ⟨s, fun x hx => ?_⟩
        have : availWidth t b = avail := rfl
        rw [this, ← hv]
        rcases hx with rfl | hx
        · rw [q2 x (fun hc => (hbound x hc).2 rfl), ht1, cell_modCell _ _ _ _ hbl, if_pos rfl]
        · exact q3 x hx
      · intro x hx
        rcases hx with h | h
        · omega
        · rw [q2 x h.2, ht1, cell_modCell _ _ _ _ hbl, if_neg h.1]
  · have hmade := hi.made b (by omega) hbl
    have hcond : (t.cell b).spannedBy.isSome ∨ (t.cell b).zero = true := by
      rcases hmade.2.2.2.2 with ⟨a, _, h, _⟩ | ⟨_, h⟩
      · left; rw [h]; rfl
      · right; exact h
    unfold assignCellMinHeight
    simp only
    rw [if_pos hcond]
    exact ⟨MinOnly.refl _, fun h => absurd h hA, fun _ _ => rfl⟩

/-- A cell set before stays set. -/
theorem minSet_keep {σ : Type} {H0 : List TCell} {orig : List (List Nat)} (m : Measure σ) {t : Tab} (hi : Inv H0 orig t) {a b i j : Nat}
    (hb : b ∈ rowAt t i) (ha : a < H0.length) (haj : a ∈ rowAt t j) (s : σ) (hset : MinSet m t a) :
    MinSet m (assignCellMinHeight m b t s).1 a := by
  obtain ⟨q1, q2, q3⟩ := assignCellMinHeight_spec m hi hb s
  by_cases hab : a = b
  · subst hab; exact q2 ha
  · have hsame : ∀ x, (x = a ∨ x ∈ (t.cell a).spansRows) → (assignCellMinHeight m b t s).1.cell x = t.cell x := by
      intro x hx
      apply q3
      by_cases hA : b < H0.length
      · right
        have hb' : ∀ y ∈ (t.cell b).spansRows, H0.length ≤ y ∧ (t.cell y).spannedBy = some b := by
          intro y hy
          obtain ⟨n, hn⟩ := List.getElem?_of_mem hy
          exact ⟨(hi.rows b i hA hb n y hn).2.1, (hi.rows b i hA hb n y hn).2.2⟩
        rcases hx with rfl | hx
        · exact ⟨hab, fun h => by have := (hb' x h).1; omega⟩
        · obtain ⟨n, hn⟩ := List.getElem?_of_mem hx
          have hr := hi.rows a j ha haj n x hn
          refine ⟨by omega, fun h => ?_⟩
          have := (hb' x h).2
          rw [hr.2.2] at this
          simp at this
          exact hab this
      · left; omega
    have hca := hsame a (Or.inl rfl)
    unfold MinSet at hset ⊢
    rw [hca, availWidth_minOnly q1]
    split
    · rename_i hh
      rw [if_pos hh] at hset
      exact hset
    · rename_i hh
      rw [if_neg hh] at hset
      obtain ⟨s', hs'⟩ := hset
      exact ⟨s', fun x hx => by rw [hsame x hx]; exact hs' x hx⟩

theorem minHeightsRow_spec {σ : Type} {H0 : List TCell} {orig : List (List Nat)} (m : Measure σ) (i : Nat) : ∀ (ids : List Nat) (t : Tab) (s : σ),
    Inv H0 orig t → (∀ x ∈ ids, x ∈ rowAt t i) →
    let t' := (minHeightsRow m ids t s).1
    MinOnly t t' ∧ (∀ x ∈ ids, x < H0.length → MinSet m t' x) ∧
    (∀ a j, a < H0.length → a ∈ rowAt t j → MinSet m t a → MinSet m t' a) := by
  intro ids
  induction ids with
  | nil => intro t s _ _; exact ⟨MinOnly.refl _, by simp, fun _ _ _ _ h => h⟩
  | cons b ids ih =>
    intro t s hi hmem
    have hb := hmem b (by simp)
    obtain ⟨p1, p2, p3⟩ := assignCellMinHeight_spec m hi hb s
    rw [minHeightsRow]
    set t1 := (assignCellMinHeight m b t s).1 with ht1
    have hi1 : Inv H0 orig t1 := hi.core p1.shape.1 (fun x => (p1.shape.2.2.2.2 x).1) p1.shape.2.2.2.1
    have hrow : ∀ r, rowAt t1 r = rowAt t r := p1.shape.2.2.2.1
    obtain ⟨q1, q2, q3⟩ := ih t1 (assignCellMinHeight m b t s).2 hi1 (fun x hx => by rw [hrow]; exact hmem x (by simp [hx]))
    refine ⟨p1.trans q1, ?_, ?_⟩
    · intro x hx hA
      rcases List.mem_cons.mp hx with rfl | h
      · exact q3 x i hA (by rw [hrow]; exact hb) (p2 hA)
      · exact q2 x h hA
    · intro a j ha haj hset
      exact q3 a j ha (by rw [hrow]; exact haj) (minSet_keep m hi hb ha haj s hset)

theorem minHeights_spec {σ : Type} {H0 : List TCell} {orig : List (List Nat)} (m : Measure σ) : ∀ (rows : List TRow) (t : Tab) (s : σ),
    Inv H0 orig t → (∀ r ∈ rows, r ∈ t.rows) →
    let t' := (minHeights m rows t s).1
    MinOnly t t' ∧ (∀ r ∈ rows, ∀ x ∈ r.cells, x < H0.length → MinSet m t' x) ∧
    (∀ a j, a < H0.length → a ∈ rowAt t j → MinSet m t a → MinSet m t' a) := by
  intro rows
  induction rows with
  | nil => intro t s _ _; exact ⟨MinOnly.refl _, by simp, fun _ _ _ _ h => h⟩
  | cons r rows ih =>
    intro t s hi hmem
    obtain ⟨i, hri, hrow⟩ := hi.cell_mem (hmem r (by simp))
    obtain ⟨p1, p2, p3⟩ := minHeightsRow_spec m i r.cells t s hi (fun x hx => by rw [hrow]; exact hx)
    rw [minHeights]
    set t1 := (minHeightsRow m r.cells t s).1 with ht1
    have hi1 : Inv H0 orig t1 := hi.core p1.shape.1 (fun x => (p1.shape.2.2.2.2 x).1) p1.shape.2.2.2.1
    have hrow' : ∀ r, rowAt t1 r = rowAt t r := p1.shape.2.2.2.1
    obtain ⟨q1, q2, q3⟩ := ih t1 (minHeightsRow m r.cells t s).2 hi1 (fun r' hr' => by rw [p1.2.1]; exact hmem r' (by simp [hr']))
    refine ⟨p1.trans q1, ?_, ?_⟩
    · intro r' hr' x hx hA
      rcases List.mem_cons.mp hr' with rfl | h
      · exact q3 x i hA (by rw [hrow', hrow]; exact hx) (p2 x hx hA)
      · exact q2 r' h x hx hA
    · intro a j ha haj hset
      exact q3 a j ha (by rw [hrow']; exact haj) (p3 a j ha haj hset)

theorem maxMinHeight_aux (t : Tab) (ids : List Nat) : ∀ v : ℚ,
    v ≤ ids.foldl (fun m id => if (t.cell id).minHeight > m then (t.cell id).minHeight else m) v ∧
    (∀ x ∈ ids, (t.cell x).minHeight ≤ ids.foldl (fun m id => if (t.cell id).minHeight > m then (t.cell id).minHeight else m) v) ∧
    (ids.foldl (fun m id => if (t.cell id).minHeight > m then (t.cell id).minHeight else m) v = v ∨
      ∃ x ∈ ids, (t.cell x).minHeight = ids.foldl (fun m id => if (t.cell id).minHeight > m then (t.cell id).minHeight else m) v) := by
  induction ids with
  | nil => intro v; simp
  | cons y ids ih =>
    intro v
    rw [List.foldl_cons]
    obtain ⟨h1, h2, h3⟩ := ih (if (t.cell y).minHeight > v then (t.cell y).minHeight else v)
    have hm : v ≤ (if (t.cell y).minHeight > v then (t.cell y).minHeight else v) ∧
        (t.cell y).minHeight ≤ (if (t.cell y).minHeight > v then (t.cell y).minHeight else v) ∧
        ((if (t.cell y).minHeight > v then (t.cell y).minHeight else v) = v ∨
          (if (t.cell y).minHeight > v then (t.cell y).minHeight else v) = (t.cell y).minHeight) := by
      split
      · rename_i h; exact ⟨le_of_lt h, le_refl _, Or.inr rfl⟩
      · rename_i h; exact ⟨le_refl _, not_lt.mp h, Or.inl rfl⟩
    refine ⟨le_trans hm.1 h1, ?_, ?_⟩
    · intro x hx
      rcases List.mem_cons.mp hx with rfl | h
      · exact le_trans hm.2.1 h1
      · exact h2 x h
    · rcases h3 with h3 | ⟨x, q1, q2⟩
      · rcases hm.2.2 with h | h
        · left; rw [h3, h]
        · right; exact ⟨y, by simp, by rw [h3, h]⟩
      · right; exact ⟨x, by simp [q1], q2⟩

theorem foldl_modHeight (h : ℚ) : ∀ (ids : List Nat) (ic : Nat) (t : Tab),
    ids.foldl (fun t id => t.modCell id fun c => { c with height := h }) t = updCells (fun _ c => { c with height := h }) ic ids t := by
  intro ids
  induction ids with
  | nil => intro ic t; rfl
  | cons id ids ih => intro ic t; rw [List.foldl_cons, updCells, ih (ic + 1)]

theorem setCellHeights_eq (t : Tab) : setCellHeights t = updRows (fun r _ c => { c with height := r.height }) t.rows t := by
  unfold setCellHeights updRows
  congr 1
  funext t r
  exact foldl_modHeight _ _ _ _

/-- What is known of the laid-out table `t'`, laid out from `t`. -/
theorem assignHeights_spec {σ : Type} {H0 : List TCell} {orig : List (List Nat)} (m : Measure σ) {t : Tab} (hi : Inv H0 orig t) (s : σ) :
    let t' := (assignHeights m t s).1
    Shape t t' ∧ (∀ x, (t'.cell x).width = (t.cell x).width) ∧
    (∀ (r : Nat) (row : TRow), t'.rows[r]? = some row → 0 ≤ row.height ∧
      (∀ x ∈ row.cells, (t'.cell x).height = row.height ∧ (t'.cell x).minHeight ≤ row.height) ∧
      (row.height = 0 ∨ ∃ x ∈ row.cells, (t'.cell x).minHeight = row.height)) ∧
    (∀ r a, a < H0.length → a ∈ rowAt t' r → MinSet m t' a) := by
  obtain ⟨p1, p2, _⟩ := minHeights_spec m t.rows t s hi (fun _ h => h)
  have hdef : (assignHeights m t s).1 = setCellHeights (setRowHeights (minHeights m t.rows t s).1) := rfl
  rw [hdef]
  set t1 := (minHeights m t.rows t s).1 with ht1
  have hi1 : Inv H0 orig t1 := hi.core p1.shape.1 (fun x => (p1.shape.2.2.2.2 x).1) p1.shape.2.2.2.1
  set t2 := setRowHeights t1 with ht2
  have hrow2 : ∀ r, rowAt t2 r = rowAt t1 r := by
    intro r
    unfold rowAt
    rw [ht2, setRowHeights]
    simp only [List.getElem?_map]
    cases t1.rows[r]? <;> rfl
  have hcell2 : ∀ x, t2.cell x = t1.cell x := fun _ => rfl
  have hi2 : Inv H0 orig t2 := hi1.congr rfl hcell2 hrow2
  have hs12 : Shape t1 t2 := ⟨rfl, rfl, by simp [ht2, setRowHeights], hrow2, fun x => ⟨Core.refl _, rfl, rfl⟩⟩
  rw [setCellHeights_eq]
  set g : TRow → Nat → TCell → TCell := fun r _ c => { c with height := r.height } with hg
  have hs23 : Shape t2 (updRows g t2.rows t2) :=
    updRows_shape hi2 g (fun r k c => ⟨⟨rfl, rfl, rfl, rfl, rfl, rfl, rfl, rfl⟩, rfl, rfl⟩)
  obtain ⟨u1, u2, u3⟩ := hi2.upd
  obtain ⟨q1, q2, q3, q4, q5⟩ := updRows_spec g t2.rows t2 u1 u2 u3
  set t3 := updRows g t2.rows t2 with ht3
  have hcell3 : ∀ x, ∃ h, t3.cell x = { t1.cell x with height := h } := by
    intro x
    by_cases h : ∃ r ∈ t2.rows, x ∈ r.cells
    · obtain ⟨r, hr, hx⟩ := h
      obtain ⟨k, hk⟩ := List.getElem?_of_mem hx
      rw [q5 r k x hr hk]
      exact ⟨r.height, rfl⟩
    · rw [q4 x (fun r hr hx => h ⟨r, hr, hx⟩)]
      exact ⟨_, rfl⟩
  have hmin3 : ∀ x, (t3.cell x).minHeight = (t1.cell x).minHeight := fun x => by
    obtain ⟨h, e⟩ := hcell3 x; rw [e]
  refine ⟨(p1.shape.trans hs12).trans hs23, ?_, ?_, ?_⟩
  · intro x
    obtain ⟨h, e⟩ := hcell3 x
    obtain ⟨h', e'⟩ := p1.2.2.2 x
    rw [e, e']
  · intro r row hrow
    rw [q2] at hrow
    have hmem : row ∈ t2.rows := List.mem_of_getElem? hrow
    have hrow1 : ∃ row1 ∈ t1.rows, row = { row1 with height := maxMinHeight t1 row1.cells } := by
      rw [ht2, setRowHeights] at hmem
      simp only [List.mem_map] at hmem
      obtain ⟨row1, h1, h2⟩ := hmem
      exact ⟨row1, h1, h2.symm⟩
    obtain ⟨row1, _, rfl⟩ := hrow1
    obtain ⟨a1, a2, a3⟩ := maxMinHeight_aux t1 row1.cells 0
    refine ⟨a1, ?_, ?_⟩
    · intro x hx
      obtain ⟨k, hk⟩ := List.getElem?_of_mem hx
      refine ⟨by rw [q5 _ k x hmem hk], ?_⟩
      rw [hmin3]
      exact a2 x hx
    · rcases a3 with h | ⟨x, h1, h2⟩
      · exact Or.inl h
      · exact Or.inr ⟨x, h1, by rw [hmin3]; exact h2⟩
  · intro r a ha har
    have har1 : a ∈ rowAt t r := by
      rw [hs23.2.2.2.1, hrow2, p1.shape.2.2.2.1] at har
      exact har
    obtain ⟨k, hk⟩ := List.getElem?_of_mem har1
    obtain ⟨row, h1, h2, _⟩ := rowAt_mem_rows hk
    have hset := p2 row h1 a (List.mem_of_getElem? h2) ha
    obtain ⟨h, e⟩ := hcell3 a
    have hav : availWidth t3 a = availWidth t1 a := by
      have hw : ∀ x, (t3.cell x).width = (t1.cell x).width := fun x => by
        obtain ⟨h, e⟩ := hcell3 x; rw [e]
      unfold availWidth
      simp only [hw]
      rw [e]
    unfold MinSet at hset ⊢
    rw [hav, hmin3]
    simp only [hmin3]
    rw [e]
    exact hset

end Verif.Proofs
