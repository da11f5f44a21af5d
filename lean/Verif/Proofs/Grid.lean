import Verif.Proofs.StyleText
import Verif.Model.Grid
import Mathlib.Data.List.Induction
/-
Helper lemmas for the grid properties (C32).
-/
namespace Verif.Proofs
open Verif.Go Verif.Model

/-- Rows starting at `t`, each from column `l` on, with the given numbers of columns. -/
def rowsOf (t l : Nat) : List Nat → List AreaRow
  | [] => []
  | k :: ks => { idx := t, cols := List.range' l k } :: rowsOf (t + 1) l ks

def boxOf (t l : Nat) (ws : List Nat) : GridBox :=
  { rows := rowsOf t l ws, left := l, top := t, right := l + ws.foldl max 0 - 1, bottom := t + ws.length - 1 }

def posOf (t l : Nat) (ws : List Nat) : List (Nat × Nat) :=
  (rowsOf t l ws).flatMap fun r => r.cols.map fun c => (r.idx, c)

theorem rowsOf_append (l : Nat) : ∀ (ws ks : List Nat) (t : Nat),
    rowsOf t l (ws ++ ks) = rowsOf t l ws ++ rowsOf (t + ws.length) l ks := by
  intro ws
  induction ws with
  | nil => intro ks t; simp [rowsOf]
  | cons w ws ih => intro ks t; simp [rowsOf, ih]; congr 1; omega

theorem rowsOf_idx (l : Nat) : ∀ (ws : List Nat) (t : Nat), ∀ r ∈ rowsOf t l ws, t ≤ r.idx ∧ r.idx < t + ws.length := by
  intro ws
  induction ws with
  | nil => simp [rowsOf]
  | cons w ws ih =>
    intro t r hr
    simp only [rowsOf, List.mem_cons] at hr
    rcases hr with rfl | hr
    · simp
    · have := ih (t + 1) r hr; simp; omega

theorem addExisting_skip (b : GridBox) (row col : Nat) : ∀ (pre done todo : List AreaRow), (∀ r ∈ pre, r.idx ≠ row) →
    b.addExisting row col done (pre ++ todo) = b.addExisting row col (done ++ pre) todo := by
  intro pre
  induction pre with
  | nil => simp
  | cons r pre ih =>
    intro done todo h
    simp only [List.cons_append, GridBox.addExisting]
    rw [if_neg (h r (by simp)), ih _ _ (fun r hr => h r (by simp [hr]))]
    simp

theorem add_same (t l : Nat) (ws : List Nat) (k col : Nat) (hk : 1 ≤ k) :
    (boxOf t l (ws ++ [k])).add (t + ws.length) col =
      if col = l + k then .ok (boxOf t l (ws ++ [k + 1])) else .err := by
  unfold GridBox.add
  have h1 : (boxOf t l (ws ++ [k])).rows = rowsOf t l ws ++ [{ idx := t + ws.length, cols := List.range' l k }] := by
    simp [boxOf, rowsOf_append, rowsOf]
  rw [h1, addExisting_skip _ _ _ _ _ _ (fun r hr => by have := rowsOf_idx l ws t r hr; omega)]
  simp only [GridBox.addExisting, if_true]
  have h2 : (List.range' l k).getLast? = some (l + k - 1) := by
    obtain ⟨k, rfl⟩ : ∃ k', k = k' + 1 := ⟨k - 1, by omega⟩
    rw [List.range'_1_concat]; simp
  rw [h2]
  have h3 : l + k - 1 + 1 = l + k := by omega
  simp only [h3]
  by_cases hc : col = l + k
  · simp only [hc, ne_eq, not_true, if_false, if_true]
    congr 1
    simp only [boxOf, rowsOf_append, rowsOf, List.nil_append, List.foldl_append, List.foldl_cons, List.foldl_nil,
      List.range'_1_concat, List.length_append, List.length_cons, List.length_nil, GridBox.mk.injEq, and_true, true_and]
    split <;> omega
  · simp [hc]

theorem add_new (t l : Nat) (ws : List Nat) (k row col : Nat) (hk : 1 ≤ k) (hr : t + ws.length < row) :
    (boxOf t l (ws ++ [k])).add row col =
      if row = t + ws.length + 1 ∧ col = l then .ok (boxOf t l (ws ++ [k] ++ [1])) else .err := by
  unfold GridBox.add
  have h1 : (boxOf t l (ws ++ [k])).rows = rowsOf t l (ws ++ [k]) ++ [] := by simp [boxOf]
  have h0 : (boxOf t l (ws ++ [k])).rows.getLast? = some { idx := t + ws.length, cols := List.range' l k } := by
    simp [boxOf, rowsOf_append, rowsOf]
  rw [h0]
  rw [h1, addExisting_skip _ _ _ _ _ _ (fun r hr => by have := rowsOf_idx l _ t r hr; simp at this; omega)]
  simp only [GridBox.addExisting]
  by_cases h2 : row = t + ws.length + 1
  · subst h2
    by_cases h3 : col = l
    · simp only [h3, ne_eq, not_true, if_false, if_true, and_self]
      have : (boxOf t l (ws ++ [k])).left = l := rfl
      simp only [this, not_true, if_false]
      congr 1
      simp only [boxOf, rowsOf_append, rowsOf, List.append_nil, List.foldl_append, List.foldl_cons, List.foldl_nil,
        List.length_append, List.length_cons, List.length_nil, GridBox.mk.injEq, true_and]
      refine ⟨by simp [Nat.add_assoc], by omega, by omega⟩
    · have : (boxOf t l (ws ++ [k])).left = l := rfl
      simp [h3, this]
  · simp [h2]

theorem zero_add_box (r c : Nat) : GridBox.zero.add r c = .ok (boxOf r c [1]) := by
  simp [GridBox.add, GridBox.addExisting, GridBox.zero, boxOf, rowsOf]

/-- Adding several cells one after the other. -/
def runBox : GridBox → List (Nat × Nat) → Res GridBox
  | b, [] => .ok b
  | b, p :: ps => (b.add p.1 p.2).bind fun b' => runBox b' ps

theorem runBox_append (ps qs : List (Nat × Nat)) : ∀ b, runBox b (ps ++ qs) = (runBox b ps).bind fun b' => runBox b' qs := by
  induction ps with
  | nil => intro b; rfl
  | cons p ps ih =>
    intro b
    simp only [List.cons_append, runBox]
    cases b.add p.1 p.2 <;> simp [Res.bind, ih]

/-- Row by row, and left to right in a row. -/
def Before (p q : Nat × Nat) : Prop := p.1 < q.1 ∨ p.1 = q.1 ∧ p.2 < q.2

theorem posOf_snoc (t l : Nat) (ws : List Nat) (k : Nat) :
    posOf t l (ws ++ [k]) = posOf t l ws ++ (List.range' l k).map fun c => (t + ws.length, c) := by
  simp [posOf, rowsOf_append, rowsOf]

theorem run_sound (t l : Nat) : ∀ (ps : List (Nat × Nat)) (ws : List Nat) (k : Nat), 1 ≤ k →
    (posOf t l (ws ++ [k]) ++ ps).Pairwise Before →
    runBox (boxOf t l (ws ++ [k])) ps ≠ .panic ∧
    ∀ b, runBox (boxOf t l (ws ++ [k])) ps = .ok b →
      ∃ ws' k', 1 ≤ k' ∧ b = boxOf t l (ws' ++ [k']) ∧ posOf t l (ws' ++ [k']) = posOf t l (ws ++ [k]) ++ ps := by
  intro ps
  induction ps with
  | nil => intro ws k hk _; refine ⟨by simp [runBox], ?_⟩; intro b h; simp [runBox] at h; subst h; exact ⟨ws, k, hk, rfl, by simp⟩
  | cons p ps ih =>
    obtain ⟨i, j⟩ := p
    intro ws k hk hs
    have hrow : t + ws.length ≤ i := by
      have := (List.pairwise_append.mp hs).2.2 (t + ws.length, l) (by
        rw [posOf_snoc]; simp; right; omega) (i, j) (by simp)
      rcases this with h | h
      · exact le_of_lt h
      · exact le_of_eq h.1
    simp only [runBox]
    rcases Nat.lt_or_eq_of_le hrow with hlt | heq
    · rw [add_new _ _ _ _ _ _ hk hlt]
      split
      · rename_i h
        obtain ⟨rfl, rfl⟩ := h
        have hp : posOf t j (ws ++ [k] ++ [1]) = posOf t j (ws ++ [k]) ++ [(t + ws.length + 1, j)] := by
          rw [posOf_snoc]; simp [Nat.add_assoc]
        obtain ⟨h1, h2⟩ := ih (ws ++ [k]) 1 le_rfl (by rw [hp]; simpa using hs)
        refine ⟨h1, ?_⟩
        intro b hb
        obtain ⟨ws', k', e1, e2, e3⟩ := h2 b hb
        exact ⟨ws', k', e1, e2, by rw [e3, hp]; simp⟩
      · exact ⟨by simp [Res.bind], by intro b h; simp [Res.bind] at h⟩
    · subst heq
      rw [add_same _ _ _ _ _ hk]
      split
      · rename_i h
        subst h
        have hp : posOf t l (ws ++ [k + 1]) = posOf t l (ws ++ [k]) ++ [(t + ws.length, l + k)] := by
          rw [posOf_snoc, posOf_snoc, List.range'_1_concat]; simp
        obtain ⟨h1, h2⟩ := ih ws (k + 1) (by omega) (by rw [hp]; simpa using hs)
        refine ⟨h1, ?_⟩
        intro b hb
        obtain ⟨ws', k', e1, e2, e3⟩ := h2 b hb
        exact ⟨ws', k', e1, e2, by rw [e3, hp]; simp⟩
      · exact ⟨by simp [Res.bind], by intro b h; simp [Res.bind] at h⟩

theorem run_row_more (t l : Nat) (ws : List Nat) : ∀ (n k : Nat), 1 ≤ k →
    runBox (boxOf t l (ws ++ [k])) ((List.range' (l + k) n).map fun c => (t + ws.length, c)) = .ok (boxOf t l (ws ++ [k + n])) := by
  intro n
  induction n with
  | zero => intro k _; simp [runBox]
  | succ n ih =>
    intro k hk
    simp only [List.range'_succ, List.map_cons, runBox, add_same _ _ _ _ _ hk, if_true, Res.bind]
    have := ih (k + 1) (by omega)
    rw [← Nat.add_assoc] at this
    rw [this]
    congr 3; simp; omega

theorem run_rows (t l : Nat) (ws : List Nat) (hne : ws ≠ []) (hw : ∀ w ∈ ws, 1 ≤ w) :
    runBox GridBox.zero (posOf t l ws) = .ok (boxOf t l ws) := by
  induction ws using List.reverseRecOn with
  | nil => simp at hne
  | append_singleton ws k ih =>
    have hk := hw k (by simp)
    rw [posOf_snoc, runBox_append]
    obtain ⟨k, rfl⟩ : ∃ k', k = 1 + k' := ⟨k - 1, by omega⟩
    rw [Nat.add_comm 1 k, List.range'_succ, Nat.add_comm k 1]
    rcases List.eq_nil_or_concat ws with rfl | ⟨ws', w, rfl⟩
    · simp only [posOf, rowsOf, List.flatMap_nil, runBox, Res.bind, List.map_cons, List.length_nil, Nat.add_zero, zero_add_box]
      simpa using run_row_more t l [] k 1 le_rfl
    · rw [List.concat_eq_append] at *
      rw [ih (by simp) (fun w hw' => hw w (by simp at hw' ⊢; tauto))]
      simp only [Res.bind, List.map_cons, runBox]
      rw [add_new _ _ _ _ _ _ (hw w (by simp)) (by simp), if_pos (by simp [Nat.add_assoc])]
      simpa using run_row_more t l (ws' ++ [w]) k 1 le_rfl

theorem mem_posOf_replicate (l w : Nat) : ∀ (h t : Nat) (p : Nat × Nat), p ∈ posOf t l (List.replicate h w) ↔
    (t ≤ p.1 ∧ p.1 < t + h) ∧ (l ≤ p.2 ∧ p.2 < l + w) := by
  intro h
  induction h with
  | zero => intro t p; simp [posOf, rowsOf]; omega
  | succ h ih =>
    intro t p
    have : posOf t l (List.replicate (h + 1) w) = (List.range' l w).map (fun c => (t, c)) ++ posOf (t + 1) l (List.replicate h w) := by
      simp [posOf, rowsOf, List.replicate_succ]
    rw [this, List.mem_append, ih]
    obtain ⟨i, j⟩ := p
    simp only [List.mem_map, List.mem_range'_1, Prod.mk.injEq]
    constructor
    · rintro (⟨c, h1, rfl, rfl⟩ | h1) <;> omega
    · intro h1
      by_cases h2 : i = t
      · subst h2; left; exact ⟨j, by omega, rfl, rfl⟩
      · right; omega

theorem posOf_sorted (l : Nat) : ∀ (ws : List Nat) (t : Nat), (posOf t l ws).Pairwise Before := by
  intro ws
  induction ws with
  | nil => intro t; simp [posOf, rowsOf]
  | cons w ws ih =>
    intro t
    have : posOf t l (w :: ws) = (List.range' l w).map (fun c => (t, c)) ++ posOf (t + 1) l ws := by simp [posOf, rowsOf]
    rw [this, List.pairwise_append]
    refine ⟨?_, ih _, ?_⟩
    · rw [List.pairwise_map]
      exact (List.pairwise_lt_range' (s := l) (n := w) 1).imp fun h => Or.inr ⟨rfl, h⟩
    · intro p hp q hq
      simp only [List.mem_map] at hp
      obtain ⟨c, _, rfl⟩ := hp
      simp only [posOf, List.mem_flatMap, List.mem_map] at hq
      obtain ⟨r, hr, c', _, rfl⟩ := hq
      exact Or.inl (by have := rowsOf_idx l ws _ r hr; simp; omega)

theorem before_irrefl (p : Nat × Nat) : ¬ Before p p := by unfold Before; omega

theorem sorted_ext {ps qs : List (Nat × Nat)} (hp : ps.Pairwise Before) (hq : qs.Pairwise Before)
    (h : ∀ p, p ∈ ps ↔ p ∈ qs) : ps = qs := by
  have np : ps.Nodup := hp.imp fun h => by rintro rfl; exact before_irrefl _ h
  have nq : qs.Nodup := hq.imp fun h => by rintro rfl; exact before_irrefl _ h
  have hperm : ps.Perm qs := (List.perm_ext_iff_of_nodup np nq).mpr h
  refine List.Perm.eq_of_pairwise (le := Before) ?_ hp hq hperm
  intro a b _ _ h1 h2
  unfold Before at h1 h2; omega

theorem ite_ne_panic {c : Prop} [Decidable c] : (if c then Res.ok () else .err) ≠ .panic := by split <;> simp

/-- All rows have one width. -/
theorem validate_iff (t l : Nat) (ws : List Nat) (hne : ws ≠ []) :
    (boxOf t l ws).validate ≠ .panic ∧
    ((boxOf t l ws).validate = .ok () ↔ ∃ w, ws = List.replicate ws.length w) := by
  have hr : ∀ (ws : List Nat) (t n : Nat), (rowsOf t l ws).all (fun r' => r'.cols.length = n) = true ↔ ∀ w ∈ ws, w = n := by
    intro ws
    induction ws with
    | nil => simp [rowsOf]
    | cons w ws ih => intro t n; simp [rowsOf, ← ih (t + 1) n]
  cases ws with
  | nil => simp at hne
  | cons w ws =>
    simp only [GridBox.validate, boxOf, rowsOf]
    have key := hr (w :: ws) t w
    simp only [rowsOf] at key
    refine ⟨ite_ne_panic, ?_⟩
    constructor
    · intro h
      have h' : ∀ x ∈ w :: ws, x = w := by
        apply key.mp
        by_contra hc
        simp only [List.length_range'] at h hc
        rw [if_neg hc] at h
        simp at h
      exact ⟨w, List.eq_replicate_of_mem h'⟩
    · rintro ⟨v, hv⟩
      have h' : ∀ x ∈ w :: ws, x = w := by
        intro x hx
        have h1 : x = v := by rw [hv] at hx; exact List.eq_of_mem_replicate hx
        have h2 : w = v := by have : w ∈ w :: ws := by simp
                              rw [hv] at this; exact List.eq_of_mem_replicate this
        omega
      have := key.mpr h'
      simp only [List.length_range'] at this ⊢
      rw [if_pos this]

/-- All the cells of a grid: row, column, name; row by row. -/
def cellsOfRow (i : Nat) : Nat → List Str → List (Nat × Nat × Str)
  | _, [] => []
  | j, a :: as => (i, j, a) :: cellsOfRow i (j + 1) as

def cellsOf : Nat → List (List Str) → List (Nat × Nat × Str)
  | _, [] => []
  | i, r :: rs => cellsOfRow i 0 r ++ cellsOf (i + 1) rs

def goBoxes : List (Nat × Nat × Str) → Boxes → Res Boxes
  | [], m => .ok m
  | (i, j, a) :: cs, m => (addArea i j a m).bind (goBoxes cs)

theorem goBoxes_append (cs ds : List (Nat × Nat × Str)) : ∀ m, goBoxes (cs ++ ds) m = (goBoxes cs m).bind (goBoxes ds) := by
  induction cs with
  | nil => intro m; rfl
  | cons c cs ih =>
    obtain ⟨i, j, a⟩ := c
    intro m
    simp only [List.cons_append, goBoxes]
    cases addArea i j a m <;> simp [Res.bind, ih]

theorem addRow_eq (i : Nat) : ∀ (as : List Str) (j : Nat) (m : Boxes), addRow i j as m = goBoxes (cellsOfRow i j as) m := by
  intro as
  induction as with
  | nil => intro j m; rfl
  | cons a as ih =>
    intro j m
    simp only [addRow, cellsOfRow, goBoxes]
    congr 1; funext m; exact ih _ m

theorem addRows_eq : ∀ (rs : List (List Str)) (i : Nat) (m : Boxes), addRows i rs m = goBoxes (cellsOf i rs) m := by
  intro rs
  induction rs with
  | nil => intro i m; rfl
  | cons r rs ih =>
    intro i m
    simp only [addRows, cellsOf, goBoxes_append, addRow_eq]
    congr 1; funext m; exact ih _ m

/-- The cells carrying a name. -/
def sel (a : Str) (cs : List (Nat × Nat × Str)) : List (Nat × Nat) := (cs.filter fun c => c.2.2 = a).map fun c => (c.1, c.2.1)

theorem sel_cons (a : Str) (i j : Nat) (b : Str) (cs : List (Nat × Nat × Str)) :
    sel a ((i, j, b) :: cs) = if b = a then (i, j) :: sel a cs else sel a cs := by
  unfold sel
  rw [List.filter_cons]
  by_cases h : b = a <;> simp [h]

def boxAt (a : Str) (m : Boxes) : GridBox := (mapGet a m).getD GridBox.zero

theorem addArea_eq (i j : Nat) (a : Str) (m : Boxes) : addArea i j a m = ((boxAt a m).add i j).bind fun b => .ok (mapSet a b m) := by
  unfold addArea boxAt
  cases mapGet a m <;> rfl

theorem goBoxes_ok : ∀ (cs : List (Nat × Nat × Str)) (m m' : Boxes), goBoxes cs m = .ok m' →
    (∀ a, runBox (boxAt a m) (sel a cs) = .ok (boxAt a m')) ∧
    (∀ a, (mapGet a m').isSome = true ↔ (mapGet a m).isSome = true ∨ sel a cs ≠ []) ∧
    ((m.map Prod.fst).Nodup → (m'.map Prod.fst).Nodup) := by
  intro cs
  induction cs with
  | nil => intro m m' h; simp [goBoxes] at h; subst h; simp [sel, runBox]
  | cons c cs ih =>
    obtain ⟨i, j, b⟩ := c
    intro m m' h
    simp only [goBoxes, addArea_eq] at h
    cases hb : (boxAt b m).add i j with
    | err => simp [hb, Res.bind] at h
    | panic => simp [hb, Res.bind] at h
    | ok x =>
      simp only [hb, Res.bind] at h
      obtain ⟨h1, h2, h3⟩ := ih _ _ h
      refine ⟨?_, ?_, ?_⟩
      · intro a
        rw [sel_cons]
        by_cases hab : b = a
        · subst hab
          simp only [if_true, runBox, hb, Res.bind]
          have := h1 b
          rwa [boxAt, mapGet_mapSet, if_pos rfl] at this
        · simp only [if_neg hab]
          have := h1 a
          rwa [boxAt, mapGet_mapSet, if_neg hab] at this
      · intro a
        rw [h2, mapGet_mapSet, sel_cons]
        by_cases hab : b = a <;> simp [hab]
      · intro hn; exact h3 (mapSet_nodup _ _ hn)

theorem goBoxes_exists : ∀ (cs : List (Nat × Nat × Str)) (m : Boxes),
    ((∀ a, ∃ b, runBox (boxAt a m) (sel a cs) = .ok b) → ∃ m', goBoxes cs m = .ok m') ∧
    ((∀ a, runBox (boxAt a m) (sel a cs) ≠ .panic) → goBoxes cs m ≠ .panic) := by
  intro cs
  induction cs with
  | nil => intro m; simp [goBoxes]
  | cons c cs ih =>
    obtain ⟨i, j, b⟩ := c
    intro m
    simp only [goBoxes, addArea_eq]
    have step : ∀ x a, (boxAt b m).add i j = .ok x →
        runBox (boxAt a m) (sel a ((i, j, b) :: cs)) = runBox (boxAt a (mapSet b x m)) (sel a cs) := by
      intro x a hx
      rw [sel_cons]
      by_cases hab : b = a
      · subst hab
        simp only [if_true, runBox, hx, Res.bind]
        simp [boxAt, mapGet_mapSet]
      · simp [if_neg hab, boxAt, mapGet_mapSet]
    constructor
    · intro h
      cases hb : (boxAt b m).add i j with
      | ok x =>
        simp only [Res.bind]
        apply (ih _).1
        intro a
        rw [← step x a hb]; exact h a
      | err => obtain ⟨y, hy⟩ := h b; rw [sel_cons] at hy; simp [runBox, hb, Res.bind] at hy
      | panic => obtain ⟨y, hy⟩ := h b; rw [sel_cons] at hy; simp [runBox, hb, Res.bind] at hy
    · intro h
      cases hb : (boxAt b m).add i j with
      | ok x =>
        simp only [Res.bind]
        apply (ih _).2
        intro a
        rw [← step x a hb]; exact h a
      | err => simp [Res.bind]
      | panic => have := h b; rw [sel_cons] at this; simp [runBox, hb, Res.bind] at this

theorem mem_cellsOfRow (i : Nat) (a : Str) : ∀ (as : List Str) (j i' j' : Nat), (i', j', a) ∈ cellsOfRow i j as ↔
    i' = i ∧ j ≤ j' ∧ as[j' - j]? = some a := by
  intro as
  induction as with
  | nil => intro j i' j'; simp [cellsOfRow]
  | cons b as ih =>
    intro j i' j'
    simp only [cellsOfRow, List.mem_cons, Prod.mk.injEq, ih]
    constructor
    · rintro (⟨rfl, rfl, rfl⟩ | ⟨rfl, h1, h2⟩)
      · simp
      · refine ⟨rfl, by omega, ?_⟩
        rw [show j' - j = (j' - (j + 1)) + 1 by omega]; simpa using h2
    · rintro ⟨rfl, h1, h2⟩
      rcases Nat.lt_or_eq_of_le h1 with h3 | h3
      · right
        refine ⟨rfl, by omega, ?_⟩
        rw [show j' - j = (j' - (j + 1)) + 1 by omega] at h2; simpa using h2
      · left; subst h3; simpa [eq_comm] using h2

theorem mem_cellsOf (a : Str) : ∀ (rs : List (List Str)) (i i' j' : Nat), (i', j', a) ∈ cellsOf i rs ↔
    i ≤ i' ∧ ∃ r, rs[i' - i]? = some r ∧ r[j']? = some a := by
  intro rs
  induction rs with
  | nil => intro i i' j'; simp [cellsOf]
  | cons r rs ih =>
    intro i i' j'
    simp only [cellsOf, List.mem_append, mem_cellsOfRow, ih]
    constructor
    · rintro (⟨rfl, h1, h2⟩ | ⟨h1, r', h2, h3⟩)
      · exact ⟨le_rfl, r, by simp, by simpa using h2⟩
      · exact ⟨by omega, r', by rw [show i' - i = (i' - (i + 1)) + 1 by omega]; simpa using h2, h3⟩
    · rintro ⟨h1, r', h2, h3⟩
      rcases Nat.lt_or_eq_of_le h1 with h4 | h4
      · right
        exact ⟨by omega, r', by rw [show i' - i = (i' - (i + 1)) + 1 by omega] at h2; simpa using h2, h3⟩
      · left; subst h4
        simp at h2; subst h2
        exact ⟨rfl, by omega, by simpa using h3⟩

theorem mem_sel (a : Str) (cs : List (Nat × Nat × Str)) (i j : Nat) : (i, j) ∈ sel a cs ↔ (i, j, a) ∈ cs := by
  simp only [sel, List.mem_map, List.mem_filter, decide_eq_true_eq]
  constructor
  · rintro ⟨⟨i', j', b⟩, ⟨h1, h2⟩, h3⟩
    simp only [Prod.mk.injEq] at h2 h3
    obtain ⟨rfl, rfl⟩ := h3; subst h2; exact h1
  · intro h; exact ⟨_, ⟨h, rfl⟩, rfl⟩

theorem cellsOfRow_sorted (i : Nat) : ∀ (as : List Str) (j : Nat),
    (cellsOfRow i j as).Pairwise (fun c d => Before (c.1, c.2.1) (d.1, d.2.1)) := by
  intro as
  induction as with
  | nil => intro j; simp [cellsOfRow]
  | cons a as ih =>
    intro j
    simp only [cellsOfRow, List.pairwise_cons]
    refine ⟨?_, ih _⟩
    rintro ⟨i', j', b⟩ h
    rw [mem_cellsOfRow] at h
    exact Or.inr ⟨h.1.symm, by simp; omega⟩

theorem cellsOf_sorted : ∀ (rs : List (List Str)) (i : Nat),
    (cellsOf i rs).Pairwise (fun c d => Before (c.1, c.2.1) (d.1, d.2.1)) := by
  intro rs
  induction rs with
  | nil => intro i; simp [cellsOf]
  | cons r rs ih =>
    intro i
    simp only [cellsOf, List.pairwise_append]
    refine ⟨cellsOfRow_sorted _ _ _, ih _, ?_⟩
    rintro ⟨i1, j1, b1⟩ h1 ⟨i2, j2, b2⟩ h2
    rw [mem_cellsOfRow] at h1
    rw [mem_cellsOf] at h2
    exact Or.inl (by simp; omega)

theorem sel_sorted (a : Str) (rs : List (List Str)) (i : Nat) : (sel a (cellsOf i rs)).Pairwise Before := by
  unfold sel
  rw [List.pairwise_map]
  exact (cellsOf_sorted rs i).filter _

end Verif.Proofs
