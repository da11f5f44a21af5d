import Verif.Spec.Sizes
import Verif.Proofs.Places
/-
The sizes of the columns and rows of a table, exactly (C123).
-/
namespace Verif.Proofs
open Verif.Go Verif.Model Verif.Spec

theorem largest_nonneg (l : List ℚ) : 0 ≤ largest l := by
  induction l with
  | nil => exact le_refl _
  | cons a l ih => exact le_trans ih (le_max_right _ _)

theorem le_largest {l : List ℚ} {x : ℚ} (h : x ∈ l) : x ≤ largest l := by
  induction l with
  | nil => simp at h
  | cons a l ih =>
    rcases List.mem_cons.mp h with rfl | h
    · exact le_max_left _ _
    · exact le_trans (ih h) (le_max_right _ _)

theorem largest_le {l : List ℚ} {v : ℚ} (h0 : 0 ≤ v) (h : ∀ x ∈ l, x ≤ v) : largest l ≤ v := by
  induction l with
  | nil => exact h0
  | cons a l ih => exact max_le (h a (by simp)) (ih fun x hx => h x (by simp [hx]))

/-- The largest number is one that is not exceeded and reached. -/
theorem largest_eq {l : List ℚ} {v : ℚ} (h0 : 0 ≤ v) (h : ∀ x ∈ l, x ≤ v) (hr : v = 0 ∨ v ∈ l) : largest l = v := by
  refine le_antisymm (largest_le h0 h) ?_
  rcases hr with rfl | hr
  · exact largest_nonneg l
  · exact le_largest hr

/-! ### Widths -/

variable {H0 : List TCell} {orig : List (List Nat)} {t : Tab}

theorem Inv.found (hi : Inv H0 orig t) {r x : Nat} (hx : x ∈ rowAt t r) :
    (x < H0.length ∧ foundAt t x = .cell x) ∨ (H0.length ≤ x ∧ (t.cell x).styles = zeroStyles ∧ ((∃ a, a < H0.length ∧ (t.cell x).spannedBy = some a ∧ foundAt t x = .covered a) ∨ foundAt t x = .free)) := by
  rcases Nat.lt_or_ge x H0.length with h | h
  · left
    obtain ⟨_, _, _, _, h1, h2⟩ := hi.authored x h
    refine ⟨h, ?_⟩
    unfold foundAt
    rw [h1, h2]
    rfl
  · right
    obtain ⟨_, _, h3, _, h5⟩ := hi.made x h (hi.bound _ _ hx)
    refine ⟨h, h3, ?_⟩
    rcases h5 with ⟨a, h6, h7, h8⟩ | ⟨h6, h7⟩
    · left
      refine ⟨a, h6, h7, ?_⟩
      unfold foundAt
      rw [h7, h8]
      rfl
    · right
      unfold foundAt
      rw [h7]
      rfl

theorem askedAt_found (hi : Inv H0 orig t) {r x : Nat} (hx : x ∈ rowAt t r) : askedAt (fun a => (t.cell a).styles) (some (foundAt t x)) = (t.cell x).styles.columnWidth := by
  rcases hi.found hx with ⟨_, h⟩ | ⟨_, h1, ⟨a, _, _, h⟩ | h⟩
  · rw [h]; rfl
  · rw [h, h1]; rfl
  · rw [h, h1]; rfl

/-- The places of the rows, by index. -/
theorem rowPlaces_get (t : Tab) {row : List TPlace} (h : row ∈ rowPlaces t t.rows) : ∃ r, row = (rowAt t r).map (foundAt t) ∧ r < t.rows.length := by
  obtain ⟨w, hw, rfl⟩ := List.mem_map.mp h
  obtain ⟨r, hr⟩ := List.getElem?_of_mem hw
  exact ⟨r, by rw [rowAt_of_getElem? hr]; rfl, (List.getElem?_eq_some_iff.mp hr).1⟩

theorem rowPlaces_mem (t : Tab) {r : Nat} (h : r < t.rows.length) : (rowAt t r).map (foundAt t) ∈ rowPlaces t t.rows := by
  have hg := List.getElem?_eq_getElem h
  rw [rowAt_of_getElem? hg]
  exact List.mem_map.mpr ⟨_, List.getElem_mem h, rfl⟩

theorem getD_get {l : List ℚ} {k : Nat} (h : k < l.length) : l.getD k 0 = l[k] := by
  rw [List.getD_eq_getElem?_getD, List.getElem?_eq_getElem h]; rfl

theorem asked_eq {σ : Type} {m : Measure σ} {width : ℚ} {cws : List ℚ} (hl : Laid m width H0 orig cws t) (hlong : t.columnCount = longest (rowPlaces t t.rows)) :
    cws = askedWidths (fun a => (t.cell a).styles) (rowPlaces t t.rows) := by
  unfold askedWidths
  apply List.ext_getElem
  · rw [hl.cwsLen, hlong]; simp
  · intro k h1 h2
    rw [List.getElem_map, List.getElem_range]
    symm
    have hk : cws.getD k 0 = cws[k] := getD_get h1
    refine largest_eq (hk ▸ hl.cwsNonneg k) ?_ ?_
    · intro x hx
      obtain ⟨row, hrow, rfl⟩ := List.mem_map.mp hx
      obtain ⟨r, rfl, _⟩ := rowPlaces_get t hrow
      rw [List.getElem?_map]
      cases e : (rowAt t r)[k]? with
      | none => rw [← hk]; exact hl.cwsNonneg k
      | some x =>
        rw [Option.map_some, askedAt_found hl.span.inv (List.mem_of_getElem? e), ← hk]
        exact hl.cwsUpper r k x e
    · rcases hl.cwsReached k with h | ⟨r, x, e, h⟩
      · left; rw [← hk]; exact h
      · right
        obtain ⟨row, _, _, h4⟩ := rowAt_mem_rows e
        refine List.mem_map.mpr ⟨(rowAt t r).map (foundAt t), rowPlaces_mem t (List.getElem?_eq_some_iff.mp h4).1, ?_⟩
        rw [List.getElem?_map, e, Option.map_some, askedAt_found hl.span.inv (List.mem_of_getElem? e), h, hk]

theorem usedSpace_eq : ∀ cws : List ℚ, (∀ w ∈ cws, 0 ≤ w) → usedSpace cws = (cws.sum, cws.count 0) := by
  intro cws
  induction cws with
  | nil => intro _; rfl
  | cons w cws ih =>
    intro h
    rw [usedSpace, ih fun x hx => h x (by simp [hx])]
    have hw := h w (by simp)
    dsimp only
    split
    · rename_i h0
      rw [List.sum_cons, List.count_cons_of_ne (by linarith [h0] : w ≠ 0)]
    · rename_i h0
      have : w = 0 := le_antisymm (not_lt.mp h0) hw
      subst this
      rw [List.sum_cons, zero_add, List.count_cons_self]

theorem fillWidths_eq {cws : List ℚ} (h : ∀ w ∈ cws, 0 ≤ w) (width : ℚ) :
    fillWidths width cws = cws.map fun w => if w = 0 then (width - cws.sum) / cws.count 0 else w := by
  unfold fillWidths
  rw [usedSpace_eq cws h]
  dsimp only
  split
  · rfl
  · rename_i h0
    have : (0 : ℚ) ∉ cws := by
      intro hc
      exact h0 (List.count_pos_iff.mpr hc)
    conv_lhs => rw [← List.map_id cws]
    apply List.map_congr_left
    intro w hw
    have hne : w ≠ 0 := fun e => this (by rw [← e]; exact hw)
    rw [if_neg hne]
    rfl

theorem widths_eq {σ : Type} {m : Measure σ} {width : ℚ} {cws : List ℚ} (hl : Laid m width H0 orig cws t) (hlong : t.columnCount = longest (rowPlaces t t.rows)) {r : Nat} (hr : r < t.rows.length) :
    (rowAt t r).map (fun x => (t.cell x).width) = columnWidths (fun a => (t.cell a).styles) width (rowPlaces t t.rows) := by
  unfold columnWidths
  rw [← asked_eq hl hlong]
  have hnn : ∀ w ∈ cws, 0 ≤ w := by
    intro w hw
    obtain ⟨k, hk⟩ := List.getElem?_of_mem hw
    have := hl.cwsNonneg k
    rw [List.getD_eq_getElem?_getD, hk] at this
    exact this
  show _ = List.map _ cws
  rw [← fillWidths_eq hnn]
  have hlen : (fillWidths width cws).length = cws.length := by rw [fillWidths_eq hnn]; simp
  apply List.ext_getElem
  · rw [List.length_map, hl.span.width r hr, hlen, hl.cwsLen]
  · intro k h1 h2
    rw [List.getElem_map, ← getD_get h2]
    exact hl.widths r k _ (List.getElem?_eq_getElem (by simpa using h1))

/-! ### The width of a cell -/

/-- A cell is found in its row only. -/
theorem find_row (hi : Inv H0 orig t) {i a : Nat} (ha : a < H0.length) (hai : a ∈ rowAt t i) :
    (rowPlaces t t.rows).find? (fun row => decide (TPlace.cell a ∈ row)) = some ((rowAt t i).map (foundAt t)) := by
  have hil : i < t.rows.length := by
    by_contra hc
    rw [rowAt_ge (by omega)] at hai
    simp at hai
  have hself : TPlace.cell a ∈ (rowAt t i).map (foundAt t) := by
    refine List.mem_map.mpr ⟨a, hai, ?_⟩
    rcases hi.found hai with ⟨_, h⟩ | ⟨h, _⟩
    · exact h
    · omega
  cases e : (rowPlaces t t.rows).find? (fun row => decide (TPlace.cell a ∈ row)) with
  | none =>
    rw [List.find?_eq_none] at e
    exact absurd (by simpa using hself) (e _ (rowPlaces_mem t hil))
  | some row =>
    have h1 := List.find?_some e
    obtain ⟨r, rfl, _⟩ := rowPlaces_get t (List.mem_of_find?_eq_some e)
    obtain ⟨x, hx, hxa⟩ := List.mem_map.mp (of_decide_eq_true h1)
    obtain rfl := foundAt_cell hxa
    rw [hi.inj r i a hx hai]

theorem zip_own (f : Nat → TPlace) (g : Nat → ℚ) (P : TPlace → Bool) : ∀ (ids : List Nat),
    ((((ids.map f).zip (ids.map g)).filter fun q => P q.1).map (·.2)) = (ids.filter fun x => P (f x)).map g := by
  intro ids
  induction ids with
  | nil => rfl
  | cons x ids ih =>
    rw [List.map_cons, List.map_cons, List.zip_cons_cons, List.filter_cons, List.filter_cons]
    dsimp only
    split
    · rw [List.map_cons, List.map_cons, ih]
    · exact ih

theorem widthOf_eq {ws : List ℚ} (hi : Inv H0 orig t) {i a : Nat} (ha : a < H0.length) (hai : a ∈ rowAt t i) (hw : (rowAt t i).map (fun x => (t.cell x).width) = ws) :
    widthOf ws (rowPlaces t t.rows) a = (t.cell a).width + ((t.cell a).spansCols.map fun s => (t.cell s).width).sum := by
  unfold widthOf
  rw [find_row hi ha hai]
  dsimp only
  rw [← hw, zip_own (foundAt t) (fun x => (t.cell x).width) (fun q => decide (q = .cell a ∨ q = .covered a))]
  have hp : ((rowAt t i).filter fun x => decide (foundAt t x = .cell a ∨ foundAt t x = .covered a)).Perm (a :: (t.cell a).spansCols) := by
    rw [List.perm_ext_iff_of_nodup]
    · intro x
      rw [List.mem_filter, decide_eq_true_iff, List.mem_cons]
      constructor
      · rintro ⟨hx, h | h⟩
        · exact .inl (foundAt_cell h).symm
        · right
          rcases hi.found hx with ⟨_, h'⟩ | ⟨_, _, ⟨b, hb, h', h''⟩ | h'⟩
          · rw [h'] at h; cases h
          · rw [h''] at h
            cases h
            rcases hi.own i x a hx h' with h | h
            · exact h
            · obtain ⟨n, hn⟩ := List.getElem?_of_mem h
              have := hi.inj _ _ x hx (hi.rows a i ha hai n x hn).1
              omega
          · rw [h'] at h; cases h
      · rintro (rfl | hx)
        · refine ⟨hai, .inl ?_⟩
          rcases hi.found hai with ⟨_, h⟩ | ⟨h, _⟩
          · exact h
          · omega
        · obtain ⟨h1, h2, h3⟩ := hi.cols a i ha hai x hx
          refine ⟨h1, .inr ?_⟩
          rcases hi.found h1 with ⟨h, _⟩ | ⟨_, _, ⟨b, hb, h', h''⟩ | h'⟩
          · omega
          · rw [h3] at h'
            cases h'
            exact h''
          · unfold foundAt at h'
            obtain ⟨_, _, _, _, h5⟩ := hi.made x h2 (hi.bound _ _ h1)
            rcases h5 with ⟨b, _, _, hz⟩ | ⟨hz, _⟩
            · rw [h3, hz] at h'; cases h'
            · rw [h3] at hz; cases hz
    · exact (hi.nod i).filter _
    · refine List.nodup_cons.mpr ⟨fun h => ?_, hi.colsNodup a⟩
      have := (hi.cols a i ha hai a h).2.1
      omega
  rw [(hp.map fun x => (t.cell x).width).sum_eq, List.map_cons, List.sum_cons]

/-! ### Heights -/

section
variable {σ : Type} (m : Measure σ)

/-- What a cell asks for, in a table. -/
def ownShare (t : Tab) (a : Nat) (s : σ) : ℚ × σ :=
  shareOf m (t.cell a).styles (t.cell a).iss (1 + (t.cell a).spansRows.length) ((t.cell a).width + ((t.cell a).spansCols.map fun s => (t.cell s).width).sum) s

/-- The cells whose minimal height is that of `a`. -/
def Shares (t : Tab) (a x : Nat) : Prop := x = a ∨ (¬ 0 < (t.cell a).styles.dim.height ∧ x ∈ (t.cell a).spansRows)

theorem ownShare_minOnly {t t' : Tab} (h : MinOnly t t') : ownShare m t' = ownShare m t := by
  have hw : ∀ x, (t'.cell x).width = (t.cell x).width ∧ (t'.cell x).spansCols = (t.cell x).spansCols ∧ (t'.cell x).styles = (t.cell x).styles ∧
      (t'.cell x).iss = (t.cell x).iss ∧ (t'.cell x).spansRows = (t.cell x).spansRows := by
    intro x
    obtain ⟨v, hv⟩ := h.2.2.2 x
    rw [hv]; exact ⟨rfl, rfl, rfl, rfl, rfl⟩
  funext a s
  unfold ownShare
  simp only [(hw _).1, (hw _).2.1, (hw _).2.2.1, (hw _).2.2.2.1, (hw _).2.2.2.2]

theorem Shares_minOnly {t t' : Tab} (h : MinOnly t t') : Shares t' = Shares t := by
  have hw : ∀ x, (t'.cell x).styles = (t.cell x).styles ∧ (t'.cell x).spansRows = (t.cell x).spansRows := by
    intro x
    obtain ⟨v, hv⟩ := h.2.2.2 x
    rw [hv]; exact ⟨rfl, rfl⟩
  funext a x
  unfold Shares
  rw [(hw a).1, (hw a).2]

theorem shares_apart (hi : Inv H0 orig t) {a b i j x : Nat} (ha : a < H0.length) (hb : b < H0.length) (hai : a ∈ rowAt t i) (hbj : b ∈ rowAt t j)
    (h : Shares t a x) (h' : Shares t b x) : a = b := by
  rcases h with rfl | ⟨_, h⟩ <;> rcases h' with e | ⟨_, h'⟩
  · exact e
  · obtain ⟨n, hn⟩ := List.getElem?_of_mem h'
    have := (hi.rows b j hb hbj n x hn).2.1
    omega
  · obtain ⟨n, hn⟩ := List.getElem?_of_mem h
    have := (hi.rows a i ha hai n x hn).2.1
    omega
  · obtain ⟨n, hn⟩ := List.getElem?_of_mem h
    obtain ⟨n', hn'⟩ := List.getElem?_of_mem h'
    have e1 := (hi.rows a i ha hai n x hn).2.2
    have e2 := (hi.rows b j hb hbj n' x hn').2.2
    rw [e1] at e2
    cases e2
    rfl

/-- One cell. -/
theorem assignCellMinHeight_exact (hi : Inv H0 orig t) {b i : Nat} (hb : b < H0.length) (hbi : b ∈ rowAt t i) (s : σ) :
    MinOnly t (assignCellMinHeight m b t s).1 ∧ (assignCellMinHeight m b t s).2 = (ownShare m t b s).2 ∧
    (∀ x, Shares t b x → ((assignCellMinHeight m b t s).1.cell x).minHeight = (ownShare m t b s).1) ∧
    (∀ x, ¬ Shares t b x → (assignCellMinHeight m b t s).1.cell x = t.cell x) := by
  have hbl := hi.bound _ _ hbi
  refine ⟨(assignCellMinHeight_spec m hi hbi s).1, ?_⟩
  have hau := hi.authored b hb
  have hcond : ¬ ((t.cell b).spannedBy.isSome ∨ (t.cell b).zero = true) := by
    rw [hau.2.2.2.2.1, hau.2.2.2.2.2]; simp
  unfold assignCellMinHeight ownShare shareOf Shares
  simp only
  rw [if_neg hcond]
  by_cases hh : 0 < (t.cell b).styles.dim.height
  · rw [if_pos hh, if_pos hh]
    refine ⟨rfl, ?_, ?_⟩
    · rintro x (rfl | ⟨h, _⟩)
      · rw [cell_modCell _ _ _ _ hbl, if_pos rfl]
      · exact absurd hh h
    · intro x hx
      rw [cell_modCell _ _ _ _ hbl, if_neg fun e => hx (.inl e)]
  · rw [if_neg hh, if_neg hh]
    simp only
    rw [foldl_add_sum]
    generalize m (t.cell b).styles (t.cell b).iss _ s = q
    push_cast
    set v := (q.1 + (t.cell b).styles.box.padding.top + (t.cell b).styles.box.padding.bottom) / (1 + ((t.cell b).spansRows.length : ℚ)) with hv
    set t1 := t.modCell b fun c => { c with minHeight := v } with ht1
    have hl1 : t1.heap.length = t.heap.length := heap_modCell _ _ _
    have hbound : ∀ x ∈ (t.cell b).spansRows, x < t.heap.length ∧ x ≠ b := by
      intro x hx
      obtain ⟨n, hn⟩ := List.getElem?_of_mem hx
      have := hi.rows b i hb hbi n x hn
      exact ⟨hi.bound _ _ this.1, by omega⟩
    obtain ⟨_, q2, q3⟩ := foldMin_spec v (t.cell b).spansRows t1 (fun x hx => by rw [hl1]; exact (hbound x hx).1)
    refine ⟨rfl, ?_, ?_⟩
    · rintro x (rfl | ⟨_, h⟩)
      · rw [q2 x (fun hc => (hbound x hc).2 rfl), ht1, cell_modCell _ _ _ _ hbl, if_pos rfl]
      · exact q3 x h
    · intro x hx
      rw [q2 x fun h => hx (.inr ⟨hh, h⟩), ht1, cell_modCell _ _ _ _ hbl, if_neg fun e => hx (.inl e)]

theorem assignCellMinHeight_skip (hi : Inv H0 orig t) {b i : Nat} (hb : ¬ b < H0.length) (hbi : b ∈ rowAt t i) (s : σ) : assignCellMinHeight m b t s = (t, s) := by
  have hmade := hi.made b (by omega) (hi.bound _ _ hbi)
  have hcond : (t.cell b).spannedBy.isSome ∨ (t.cell b).zero = true := by
    rcases hmade.2.2.2.2 with ⟨a, _, h, _⟩ | ⟨_, h⟩
    · left; rw [h]; rfl
    · right; exact h
  unfold assignCellMinHeight
  simp only
  rw [if_pos hcond]

theorem minHeightsRow_exact : ∀ (ids : List Nat) (t : Tab) (s : σ), Inv H0 orig t → (∀ x ∈ ids, ∃ i, x ∈ rowAt t i) → (ids.filter fun x => decide (x < H0.length)).Nodup →
    MinOnly t (minHeightsRow m ids t s).1 ∧ (minHeightsRow m ids t s).2 = (inTurn (ownShare m t) (ids.filter fun x => decide (x < H0.length)) s).2 ∧
    (∀ (k a : Nat), (ids.filter fun x => decide (x < H0.length))[k]? = some a → ∀ x, Shares t a x →
      ((minHeightsRow m ids t s).1.cell x).minHeight = (inTurn (ownShare m t) (ids.filter fun x => decide (x < H0.length)) s).1.getD k 0) ∧
    (∀ x, (∀ a ∈ ids, a < H0.length → ¬ Shares t a x) → (minHeightsRow m ids t s).1.cell x = t.cell x) := by
  intro ids
  induction ids with
  | nil => intro t s _ _ _; exact ⟨MinOnly.refl t, rfl, by simp, fun _ _ => rfl⟩
  | cons b ids ih =>
    intro t s hi hmem hn
    obtain ⟨i, hbi⟩ := hmem b (by simp)
    have e0 : minHeightsRow m (b :: ids) t s = minHeightsRow m ids (assignCellMinHeight m b t s).1 (assignCellMinHeight m b t s).2 := rfl
    rw [e0]
    by_cases hb : b < H0.length
    · obtain ⟨p1, p2, p3, p4⟩ := assignCellMinHeight_exact m hi hb hbi s
      rw [List.filter_cons, if_pos (by simpa using hb)] at hn ⊢
      set t1 := (assignCellMinHeight m b t s).1 with ht1
      have hi1 : Inv H0 orig t1 := hi.core p1.shape.1 (fun x => (p1.shape.2.2.2.2 x).1) p1.shape.2.2.2.1
      have hrow : ∀ r, rowAt t1 r = rowAt t r := p1.shape.2.2.2.1
      have hmem1 : ∀ x ∈ ids, ∃ i, x ∈ rowAt t1 i := fun x hx => by
        obtain ⟨j, hj⟩ := hmem x (by simp [hx])
        exact ⟨j, by rw [hrow]; exact hj⟩
      obtain ⟨q1, q2, q3, q4⟩ := ih t1 (assignCellMinHeight m b t s).2 hi1 hmem1 (List.nodup_cons.mp hn).2
      rw [ownShare_minOnly m p1, p2] at q2 q3
      rw [Shares_minOnly p1] at q3 q4
      rw [p2]
      rw [p2] at q1 q4
      have hstep : inTurn (ownShare m t) (b :: ids.filter fun x => decide (x < H0.length)) s =
          ((ownShare m t b s).1 :: (inTurn (ownShare m t) (ids.filter fun x => decide (x < H0.length)) (ownShare m t b s).2).1,
           (inTurn (ownShare m t) (ids.filter fun x => decide (x < H0.length)) (ownShare m t b s).2).2) := rfl
      rw [hstep]
      refine ⟨p1.trans q1, q2, ?_, ?_⟩
      · intro k a hk x hx
        cases k with
        | zero =>
          simp at hk
          subst hk
          rw [q4 x ?_, p3 x hx]
          · rfl
          · intro a ha haH hc
            obtain ⟨j, hj⟩ := hmem a (by simp [ha])
            obtain rfl := shares_apart hi hb haH hbi hj hx hc
            exact (List.nodup_cons.mp hn).1 (List.mem_filter.mpr ⟨ha, by simpa using haH⟩)
        | succ k =>
          rw [List.getElem?_cons_succ] at hk
          rw [q3 k a hk x hx]
          rfl
      · intro x hx
        rw [q4 x (fun a ha haH => hx a (by simp [ha]) haH), p4 x (hx b (by simp) hb)]
    · rw [List.filter_cons, if_neg (by simpa using hb)] at hn ⊢
      rw [assignCellMinHeight_skip m hi hb hbi s]
      obtain ⟨q1, q2, q3, q4⟩ := ih t s hi (fun x hx => hmem x (by simp [hx])) hn
      exact ⟨q1, q2, q3, fun x hx => q4 x fun a ha => hx a (by simp [ha])⟩

theorem minHeightsRow_append : ∀ (a b : List Nat) (t : Tab) (s : σ), minHeightsRow m (a ++ b) t s = minHeightsRow m b (minHeightsRow m a t s).1 (minHeightsRow m a t s).2 := by
  intro a
  induction a with
  | nil => intro b t s; rfl
  | cons x a ih => intro b t s; exact ih b _ _

theorem minHeights_flat : ∀ (rows : List TRow) (t : Tab) (s : σ), minHeights m rows t s = minHeightsRow m (rows.flatMap (·.cells)) t s := by
  intro rows
  induction rows with
  | nil => intro t s; rfl
  | cons r rows ih =>
    intro t s
    rw [List.flatMap_cons, minHeightsRow_append, ← ih]
    rfl

theorem flatten_filter (P : Nat → Bool) : ∀ (rows : List TRow) (orig : List (List Nat)), orig.length ≤ rows.length →
    (∀ r, ((rows[r]?.getD ⟨[], 0⟩).cells).filter P = orig.getD r []) → (rows.flatMap (·.cells)).filter P = orig.flatten := by
  intro rows
  induction rows with
  | nil =>
    intro orig h _
    have : orig = [] := List.eq_nil_of_length_eq_zero (by simpa using h)
    rw [this]; rfl
  | cons row rows ih =>
    intro orig h hr
    rw [List.flatMap_cons, List.filter_append]
    have h0 := hr 0
    simp only [List.getElem?_cons_zero, Option.getD_some] at h0
    cases orig with
    | nil =>
      rw [h0, ih [] (by simp) (fun r => by have := hr (r + 1); simpa using this)]
      rfl
    | cons o orig =>
      rw [h0, ih orig (by simpa using h) (fun r => by have := hr (r + 1); simpa using this)]
      rfl

/-- The minimal heights after the loop; the cells are measured in the order of the file. -/
theorem minHeights_exact (hs : Spanned H0 orig t) (ho : orig.flatten = List.range H0.length) (s : σ) :
    MinOnly t (minHeights m t.rows t s).1 ∧ (minHeights m t.rows t s).2 = (inTurn (ownShare m t) (List.range H0.length) s).2 ∧
    (∀ a, a < H0.length → ∀ x, Shares t a x → ((minHeights m t.rows t s).1.cell x).minHeight = (inTurn (ownShare m t) (List.range H0.length) s).1.getD a 0) ∧
    (∀ x, (∀ a, a < H0.length → ¬ Shares t a x) → (minHeights m t.rows t s).1.cell x = t.cell x) := by
  have hf : (t.rows.flatMap (·.cells)).filter (fun x => decide (x < H0.length)) = List.range H0.length := by
    rw [flatten_filter _ t.rows orig hs.height hs.inv.auth, ho]
  obtain ⟨h1, h2, h3, h4⟩ := minHeightsRow_exact m (H0 := H0) (orig := orig) (t.rows.flatMap (·.cells)) t s hs.inv (by
    intro x hx
    obtain ⟨row, hrow, hx⟩ := List.mem_flatMap.mp hx
    obtain ⟨i, _, hi⟩ := hs.inv.cell_mem hrow
    exact ⟨i, by rw [hi]; exact hx⟩) (by rw [hf]; exact List.nodup_range)
  rw [hf] at h2 h3
  rw [minHeights_flat]
  refine ⟨h1, h2, fun a ha x hx => h3 a a ?_ x hx, fun x hx => h4 x fun a _ ha => hx a ha⟩
  rw [List.getElem?_range ha]

end

/-- Changes that keep the minimal heights. -/
theorem min_modCell (t : Tab) (a : Nat) {f : TCell → TCell} (hf : ∀ c, (f c).minHeight = c.minHeight) (x : Nat) : ((t.modCell a f).cell x).minHeight = (t.cell x).minHeight := by
  simp only [Tab.modCell, Tab.cell, List.getD_eq_getElem?_getD, List.getElem?_modify]
  split
  · cases t.heap[x]? with
    | none => rfl
    | some c => exact hf c
  · cases t.heap[x]? <;> rfl

theorem min_setCellHeights (t : Tab) (x : Nat) : ((setCellHeights t).cell x).minHeight = (t.cell x).minHeight := by
  unfold setCellHeights
  have h1 : ∀ (h : ℚ) (ids : List Nat) (u : Tab), ((ids.foldl (fun t id => t.modCell id fun c => { c with height := h }) u).cell x).minHeight = (u.cell x).minHeight := by
    intro h ids
    induction ids with
    | nil => intro u; rfl
    | cons id ids ih => intro u; rw [List.foldl_cons, ih, min_modCell]; intro c; rfl
  have h2 : ∀ (rows : List TRow) (u : Tab),
      ((rows.foldl (fun t r => r.cells.foldl (fun t id => t.modCell id fun c => { c with height := r.height }) t) u).cell x).minHeight = (u.cell x).minHeight := by
    intro rows
    induction rows with
    | nil => intro u; rfl
    | cons r rows ih => intro u; rw [List.foldl_cons, ih, h1]
  exact h2 t.rows t

theorem min_setWidths (cws : List ℚ) (x : Nat) : ∀ (ids : List Nat) (ic : Nat) (t t' : Tab), setWidths cws ic ids t = some t' → (t'.cell x).minHeight = (t.cell x).minHeight := by
  intro ids
  induction ids with
  | nil => intro ic t t' h; cases h; rfl
  | cons id ids ih =>
    intro ic t t' h
    rw [setWidths] at h
    split at h
    · cases h
    · rw [ih _ _ _ h, min_modCell]; intro c; rfl

theorem min_setAllWidths (cws : List ℚ) (x : Nat) : ∀ (rows : List TRow) (t t' : Tab), setAllWidths cws rows t = some t' → (t'.cell x).minHeight = (t.cell x).minHeight := by
  intro rows
  induction rows with
  | nil => intro t t' h; cases h; rfl
  | cons r rows ih =>
    intro t t' h
    rw [setAllWidths] at h
    split at h
    · cases h
    · rename_i e
      rw [ih _ _ h, min_setWidths cws x _ _ _ _ e]

theorem min_assignColumnWidths {width : ℚ} {t t' : Tab} (h : assignColumnWidths width t = some t') (x : Nat) : (t'.cell x).minHeight = (t.cell x).minHeight := by
  unfold assignColumnWidths at h
  split at h
  · cases h
  · exact min_setAllWidths _ x _ _ _ h

/-! ### All together -/

theorem inTurn_congr {α β σ : Type} {f : α → σ → ℚ × σ} {g : β → σ → ℚ × σ} : ∀ (as : List α) (bs : List β) (s : σ), as.length = bs.length →
    (∀ (k : Nat) (a : α) (b : β), as[k]? = some a → bs[k]? = some b → f a = g b) → inTurn f as s = inTurn g bs s := by
  intro as
  induction as with
  | nil =>
    intro bs s h _
    cases bs with
    | nil => rfl
    | cons b bs => simp at h
  | cons a as ih =>
    intro bs s h hfg
    cases bs with
    | nil => simp at h
    | cons b bs =>
      have h0 := hfg 0 a b rfl rfl
      unfold inTurn
      rw [h0]
      dsimp only
      rw [ih bs _ (by simpa using h) fun k a b ha hb => hfg (k + 1) a b (by simpa using ha) (by simpa using hb)]

theorem extent_rows (k : Int) : 1 + (k - 1).toNat = extent k := by
  unfold extent
  split <;> omega

/-- The sizes of a table, from what is at its places. -/
theorem transformTable_sizes {σ : Type} {m : Measure σ} {cs : Classes} {page : Page} {curr : Styles} {st : Styled} {xrows : List TableRow} {s s' : σ} {t : Tab}
    (h : transformTable m cs page curr st xrows s = some (t, s')) :
    let sty := fun a => (t.cell a).styles
    let ws := columnWidths sty (page.effectiveWidth (st.mutatedStyles cs curr).dim.width) (tablePlaces xrows)
    let q := inTurn (fun c s => shareOf m (sty c.2) c.1.iss (extent c.1.rowSpan) (widthOf ws (tablePlaces xrows) c.2) s) (xrows.flatMap (·.cells)).zipIdx s
    (∀ row ∈ t.rows, row.cells.map (fun x => (t.cell x).width) = ws) ∧ t.rows.map (·.height) = rowHeights sty q.1 (tablePlaces xrows) ∧ s' = q.2 := by
  intro sty ws q
  obtain ⟨hplaces, hcc⟩ := transformTable_places h
  have hcc' : t.columnCount = longest (rowPlaces t t.rows) := by
    rw [hcc, hplaces]; exact (longest_filled _).symm
  -- the steps
  obtain ⟨t1, p1, _, _, _, p5⟩ := processSpans_seen cs (st.mutatedStyles cs curr) xrows
  obtain ⟨hf, _⟩ := makeTable_fresh cs (st.mutatedStyles cs curr) xrows
  have hcells := makeTable_cells cs (st.mutatedStyles cs curr) xrows
  set T0 := makeTable cs (st.mutatedStyles cs curr) xrows with hT0
  set H0 := T0.heap with hH0
  set orig := T0.rows.map TRow.cells with horig
  have hn : H0.length = (xrows.flatMap (·.cells)).length := by simpa using congrArg List.length hcells
  obtain ⟨t1', q1, hs1⟩ := processSpans_spec hf
  obtain rfl : t1 = t1' := Option.some.inj (p1.symm.trans q1)
  obtain ⟨t2, cws, w1, sh12, _⟩ := assignColumnWidths_spec hs1 (page.effectiveWidth (st.mutatedStyles cs curr).dim.width)
  have hs2 := hs1.shape sh12
  obtain ⟨sh23, hwid, _⟩ := assignHeights_spec m hs2.inv s
  have hs3 := hs2.shape sh23
  obtain ⟨u1, u2, u3, u4⟩ := minHeights_exact m hs2 hf.ids s
  have hz2 : ∀ x, (t2.cell x).minHeight = 0 := fun x => by rw [min_assignColumnWidths w1 x]; exact p5 x
  have hmin : ∀ x, ((assignHeights m t2 s).1.cell x).minHeight = ((minHeights m t2.rows t2 s).1.cell x).minHeight := by
    intro x
    show ((setCellHeights (setRowHeights (minHeights m t2.rows t2 s).1)).cell x).minHeight = _
    rw [min_setCellHeights]
    rfl
  -- laid out
  obtain ⟨t1', t2', cws', v1, v2, hl⟩ := layout_laid m (page.effectiveWidth (st.mutatedStyles cs curr).dim.width) hf s
  obtain rfl : t1 = t1' := Option.some.inj (p1.symm.trans v1)
  obtain rfl : t2 = t2' := Option.some.inj (w1.symm.trans v2)
  have ht : t = (assignHeights m t2 s).1 ∧ s' = (assignHeights m t2 s).2 := by
    unfold transformTable at h
    simp only [← hT0, p1, w1, Option.some.injEq] at h
    rw [h]
    exact ⟨rfl, rfl⟩
  rw [← ht.1] at sh23 hwid hs3 hl hmin
  have hst : (assignHeights m t2 s).2 = (minHeights m t2.rows t2 s).2 := rfl
  have hi := hs3.inv
  have hrow : ∀ r, rowAt t r = rowAt t2 r := sh23.2.2.2.1
  have core : ∀ x, Core (t.cell x) (t2.cell x) := fun x => (sh23.2.2.2.2 x).1
  -- widths
  have hwidths : ∀ r, r < t.rows.length → (rowAt t r).map (fun x => (t.cell x).width) = ws := by
    intro r hr
    rw [widths_eq hl hcc' hr, hplaces]
  -- every cell is in a row
  have hin : ∀ a, a < H0.length → ∃ i, a ∈ rowAt t i := by
    intro a ha
    have hm : a ∈ orig.flatten := by rw [hf.ids]; exact List.mem_range.mpr ha
    obtain ⟨l, hl1, hl2⟩ := List.mem_flatten.mp hm
    obtain ⟨i, hi'⟩ := List.getElem?_of_mem hl1
    refine ⟨i, ?_⟩
    have e : orig.getD i [] = l := by rw [List.getD_eq_getElem?_getD, hi']; rfl
    have hfil := hi.auth i
    rw [e] at hfil
    rw [← hfil] at hl2
    exact (List.mem_filter.mp hl2).1
  have hlt : ∀ {a i : Nat}, a ∈ rowAt t i → i < t.rows.length := by
    intro a i hai
    by_contra hc
    rw [rowAt_ge (by omega)] at hai
    simp at hai
  -- the shares
  have hq : inTurn (ownShare m t2) (List.range H0.length) s = q := by
    refine inTurn_congr _ _ s (by rw [List.length_range, List.length_zipIdx, hn]) ?_
    intro k a c ha hc
    rw [List.getElem?_zipIdx] at hc
    have hk : k < H0.length := by
      by_contra hcon
      rw [List.getElem?_eq_none (by simpa using hcon)] at ha
      cases ha
    rw [List.getElem?_range hk] at ha
    cases ha
    obtain ⟨x, hx, rfl⟩ := Option.map_eq_some_iff.mp hc
    have e := congrArg (fun l => l[k]?) hcells
    simp only [List.getElem?_map, hx, Option.map_some, Option.map_eq_some_iff, Prod.mk.injEq] at e
    obtain ⟨d, e1, _, _, _, e5, e6, _⟩ := e
    have hd : H0.getD k TCell.new = d := by rw [List.getD_eq_getElem?_getD, e1]; rfl
    obtain ⟨_, g2, _, g4, _, _⟩ := hi.authored k hk
    rw [hd] at g2 g4
    obtain ⟨i, hki⟩ := hin k hk
    funext s0
    unfold ownShare
    simp only [Nat.zero_add]
    obtain ⟨c1, c2, c3, c4, c5, c6, c7, c8⟩ := core k
    have hwo := widthOf_eq hi hk hki (hwidths i (hlt hki))
    rw [hplaces] at hwo
    have hnr := hs3.nRows k hk
    rw [hd, e5] at hnr
    have hw2 : ∀ y, (t2.cell y).width = (t.cell y).width := fun y => (hwid y).symm
    simp only [hw2]
    rw [← c1, ← c2, ← c6, ← c7, hnr, extent_rows, ← hwo, g2, e6]
  have hshare : ∀ a, Shares t2 a = Shares t a := by
    intro a
    funext x
    obtain ⟨c1, c2, c3, c4, c5, c6, c7, c8⟩ := core a
    unfold Shares
    rw [c1, c7]
  rw [hq] at u2 u3
  simp only [hshare] at u3 u4
  -- the minimal heights, by places
  have hplace : ∀ r x, x ∈ rowAt t r → heightAsked sty q.1 ((rowAt t r).map (foundAt t)) (foundAt t x) = (t.cell x).minHeight := by
    intro r x hx
    rw [hmin]
    have hzero : (∀ a, a < H0.length → ¬ Shares t a x) → 0 = ((minHeights m t2.rows t2 s).1.cell x).minHeight := by
      intro hno
      rw [u4 x hno, hz2]
    have hrows : ∀ {b}, b < H0.length → x ∈ (t.cell b).spansRows → (t.cell x).spannedBy = some b ∧ H0.length ≤ x := by
      intro b hb hxb
      obtain ⟨j, hj⟩ := hin b hb
      obtain ⟨n, hn'⟩ := List.getElem?_of_mem hxb
      exact ⟨(hi.rows b j hb hj n x hn').2.2, (hi.rows b j hb hj n x hn').2.1⟩
    rcases hi.found hx with ⟨hxl, hfx⟩ | ⟨hxl, _, ⟨a, ha, hsp, hfx⟩ | hfx⟩
    · rw [hfx]
      exact (u3 x hxl x (.inl rfl)).symm
    · rw [hfx]
      obtain ⟨i, hai⟩ := hin a ha
      have hfa : foundAt t a = .cell a := by
        rcases hi.found hai with ⟨_, h⟩ | ⟨h, _⟩
        · exact h
        · omega
      have hmem : TPlace.cell a ∈ (rowAt t r).map (foundAt t) ↔ r = i := by
        constructor
        · intro hm
          obtain ⟨y, hy, hya⟩ := List.mem_map.mp hm
          obtain rfl := foundAt_cell hya
          exact hi.inj r i a hy hai
        · rintro rfl
          exact List.mem_map.mpr ⟨a, hai, hfa⟩
      show (if _ ∨ _ then _ else _) = _
      rcases hi.own r x a hx hsp with hc | hc
      · have hri : r = i := hi.inj r i x hx (hi.cols a i ha hai x hc).1
        rw [if_pos (.inl (hmem.mpr hri))]
        refine hzero fun b hb hsh => ?_
        rcases hsh with rfl | ⟨_, hsh⟩
        · omega
        · obtain ⟨e1, _⟩ := hrows hb hsh
          rw [hsp] at e1
          cases e1
          obtain ⟨n, hn'⟩ := List.getElem?_of_mem hsh
          have := hi.inj _ _ x hx (hi.rows a i ha hai n x hn').1
          omega
      · obtain ⟨n, hn'⟩ := List.getElem?_of_mem hc
        have hri : ¬ r = i := by
          have := hi.inj _ _ x hx (hi.rows a i ha hai n x hn').1
          omega
        by_cases hh : 0 < (t.cell a).styles.dim.height
        · rw [if_pos (.inr hh)]
          refine hzero fun b hb hsh => ?_
          rcases hsh with rfl | ⟨hh', hsh⟩
          · omega
          · obtain ⟨e1, _⟩ := hrows hb hsh
            rw [hsp] at e1
            cases e1
            exact hh' hh
        · rw [if_neg (by rintro (h | h); exacts [hri (hmem.mp h), hh h])]
          exact (u3 a ha x (.inr ⟨hh, hc⟩)).symm
    · rw [hfx]
      refine hzero fun b hb hsh => ?_
      rcases hsh with rfl | ⟨_, hsh⟩
      · omega
      · obtain ⟨e1, _⟩ := hrows hb hsh
        unfold foundAt at hfx
        rw [e1] at hfx
        split at hfx
        · rename_i hzz
          obtain ⟨_, _, _, _, h5⟩ := hi.made x hxl (hi.bound _ _ hx)
          rcases h5 with ⟨_, _, _, hz⟩ | ⟨hz, _⟩
          · rw [hz] at hzz; cases hzz
          · rw [e1] at hz; cases hz
        · cases hfx
  refine ⟨?_, ?_, ?_⟩
  · intro row hmem
    obtain ⟨i, hri, hre⟩ := hi.cell_mem hmem
    rw [← hre]
    exact hwidths i (List.getElem?_eq_some_iff.mp hri).1
  · unfold rowHeights
    rw [← hplaces]
    unfold rowPlaces idPlaces
    rw [List.map_map]
    apply List.map_congr_left
    intro row hmem
    obtain ⟨i, hri, hre⟩ := hi.cell_mem hmem
    obtain ⟨g1, g2, g3⟩ := hl.rowHeights i row hri
    have e : (row.cells.map (foundAt t)).map (heightAsked sty q.1 (row.cells.map (foundAt t))) = row.cells.map fun x => (t.cell x).minHeight := by
      rw [List.map_map]
      apply List.map_congr_left
      intro x hx
      have := hplace i x (by rw [hre]; exact hx)
      rw [hre] at this
      exact this
    show row.height = largest ((row.cells.map (foundAt t)).map (heightAsked sty q.1 (row.cells.map (foundAt t))))
    rw [e]
    symm
    refine largest_eq g1 ?_ ?_
    · intro v hv
      obtain ⟨x, hx, rfl⟩ := List.mem_map.mp hv
      exact (g2 x hx).2
    · rcases g3 with g3 | ⟨x, hx, g3⟩
      · exact .inl g3
      · exact .inr (List.mem_map.mpr ⟨x, hx, g3⟩)
  · rw [ht.2, hst, u2]

end Verif.Proofs
