import Verif.Spec.Tiles
import Verif.Props.Neat
import Verif.Props.TableOverlap
/-
Property C99: the cells of a table on the pages (/repo/table.go, /repo/process.go, /repo/engine/fpdf.go).
-/
namespace Verif.Props
open Verif.Go Verif.Model Verif.Proofs Verif.Spec

variable {p : Paper} {ctx : Ctx} {n : Nat} {t : Tab} {rh : Int} {e : Fpdf} {H : Mark → Prop}

/-! ### Cells of a row -/

private theorem mem_cells {y : ℚ} : ∀ (ids : List Nat) (x : ℚ) (id : Nat) (a : Area), .cell id a ∈ cellEvents t y x ids →
    ∃ j, ids[j]? = some id ∧ isAuthored t id = true ∧ a.x0 = x + ((ids.take j).map fun i => (t.cell i).width).sum ∧ a.x1 = a.x0 + (t.dim id).1 ∧
      a.y0 = y ∧ a.y1 = y + (t.dim id).2
  | [], _, _, _, h => by simp [cellEvents] at h
  | b :: ids, x, id, a, h => by
    unfold cellEvents at h
    rcases List.mem_append.mp h with h | h
    · by_cases hb : isAuthored t b = true
      · rw [if_pos hb] at h
        simp only [List.mem_singleton, TEvent.cell.injEq] at h
        obtain ⟨rfl, rfl⟩ := h
        exact ⟨0, rfl, hb, by simp, rfl, rfl, rfl⟩
      · rw [if_neg hb] at h; simp at h
    · obtain ⟨j, h1, h2, h3, h4, h5, h6⟩ := mem_cells ids _ id a h
      exact ⟨j + 1, by simpa using h1, h2, by rw [h3, List.take_succ_cons, List.map_cons, List.sum_cons]; ring, h4, h5, h6⟩

private theorem cells_pairwise {R : TEvent → TEvent → Prop} {y : ℚ} : ∀ (ids : List Nat) (x0 x : ℚ) (row : List Nat) (j : Nat),
    row.drop j = ids → x = x0 + ((row.take j).map fun i => (t.cell i).width).sum →
    (∀ j j' id id' a a', j < j' → row[j]? = some id → row[j']? = some id' → isAuthored t id = true → isAuthored t id' = true →
      a.x0 = x0 + ((row.take j).map fun i => (t.cell i).width).sum → a'.x0 = x0 + ((row.take j').map fun i => (t.cell i).width).sum →
      a.x1 = a.x0 + (t.dim id).1 → a'.x1 = a'.x0 + (t.dim id').1 → a.y0 = y → a'.y0 = y → a.y1 = y + (t.dim id).2 → a'.y1 = y + (t.dim id').2 → R (.cell id a) (.cell id' a')) →
    (cellEvents t y x ids).Pairwise R := by
  intro ids
  induction ids with
  | nil => intro x0 x row j _ _ _; simp [cellEvents]
  | cons b ids ih =>
    intro x0 x row j hd hx hR
    have hb : row[j]? = some b := by
      have := congrArg List.head? hd
      simpa [List.head?_drop] using this
    have hlt : j < row.length := (List.getElem?_eq_some_iff.mp hb).1
    have hd' : row.drop (j + 1) = ids := by
      rw [← List.drop_drop, hd]; rfl
    have hx' : x + (t.cell b).width = x0 + ((row.take (j + 1)).map fun i => (t.cell i).width).sum := by
      rw [List.take_add_one, hb, List.map_append, List.sum_append, hx]; simp; ring
    unfold cellEvents
    refine List.pairwise_append.mpr ⟨?_, ih x0 _ row (j + 1) hd' hx' hR, ?_⟩
    · split <;> simp
    · intro e he e' he'
      split at he
      · rename_i hau
        simp only [List.mem_singleton] at he
        subst he
        cases e' with
        | page top =>
          exfalso
          clear hR hb hlt hd hd' hx hx'
          have : ∀ (ids : List Nat) (x : ℚ), TEvent.page top ∉ cellEvents t y x ids := by
            intro ids
            induction ids with
            | nil => intro x; simp [cellEvents]
            | cons c ids ih2 =>
              intro x h
              unfold cellEvents at h
              rcases List.mem_append.mp h with h | h
              · split at h <;> simp at h
              · exact ih2 _ h
          exact this _ _ he'
        | cell id' a' =>
          obtain ⟨k, g1, g2, g3, g4, g5, g6⟩ := mem_cells ids _ id' a' he'
          have e1 : row[j + 1 + k]? = some id' := by rw [← hd', List.getElem?_drop] at g1; exact g1
          refine hR j (j + 1 + k) b id' _ a' (by omega) hb e1 hau g2 hx ?_ rfl g4 rfl g5 rfl g6
          have e2 : row.take (j + 1 + k) = row.take (j + 1) ++ ids.take k := by rw [List.take_add, hd']
          rw [g3, hx', e2, List.map_append, List.sum_append]
          ring
      · simp at he

/-! ### Steps on a page -/

private theorem no_page_cells {y : ℚ} {top : ℚ} : ∀ (ids : List Nat) (x : ℚ), TEvent.page top ∉ cellEvents t y x ids
  | [], x => by simp [cellEvents]
  | c :: ids, x => fun h => by
    unfold cellEvents at h
    rcases List.mem_append.mp h with h | h
    · split at h <;> simp at h
    · exact no_page_cells ids _ h

/-- Where the row of a step begins. -/
private def itemAt : Item → Option (Nat × ℚ)
  | .page _ => none
  | .header i z => some (i, z)
  | .row i z => some (i, z)

private theorem tiles_append : ∀ (es es' : List TEvent) (k : Nat), (∀ top, .page top ∉ es) → tiles k (es ++ es') = tiles k es ++ tiles k es'
  | [], _, _, _ => rfl
  | .page top :: es, _, _, h => absurd (by simp) (h top)
  | .cell id a :: es, es', k, h => by
    rw [List.cons_append, tiles, tiles, tiles_append es es' k fun top hm => h top (List.mem_cons_of_mem _ hm)]; rfl

private theorem mem_tiles_still : ∀ (es : List TEvent) (k : Nat) (u : Tile), (∀ top, .page top ∉ es) → u ∈ tiles k es → u.page = k ∧ .cell u.id u.area ∈ es
  | [], _, _, _, h => by simp [tiles] at h
  | .page top :: es, _, _, h, _ => absurd (by simp) (h top)
  | .cell id a :: es, k, u, h, hu => by
    rw [tiles] at hu
    rcases List.mem_cons.mp hu with rfl | hu
    · exact ⟨rfl, by simp⟩
    · obtain ⟨h1, h2⟩ := mem_tiles_still es k u (fun top hm => h top (List.mem_cons_of_mem _ hm)) hu
      exact ⟨h1, List.mem_cons_of_mem _ h2⟩

private theorem events_no_page {x : ℚ} {it : Item} {i : Nat} {z : ℚ} (h : itemAt it = some (i, z)) : it.events t x = cellEvents t z x (idsOf t i) := by
  cases it <;> simp [itemAt] at h <;> obtain ⟨rfl, rfl⟩ := h <;> rfl

/-- A cell is of one of the steps, on the page the breaks before lead to. -/
private theorem mem_tiles {x : ℚ} : ∀ (items : List Item) (k : Nat) (u : Tile), u ∈ tiles k (items.flatMap (Item.events t x)) →
    ∃ pre it post i z, items = pre ++ it :: post ∧ itemAt it = some (i, z) ∧ u.page = k + breaks pre ∧ .cell u.id u.area ∈ cellEvents t z x (idsOf t i)
  | [], _, _, h => by simp [tiles] at h
  | it :: items, k, u, h => by
    rw [List.flatMap_cons] at h
    cases hit : itemAt it with
    | none =>
      cases it with
      | page top =>
        obtain ⟨pre, it', post, i, z, rfl, h2, h3, h4⟩ := mem_tiles items (k + 1) u h
        exact ⟨.page top :: pre, it', post, i, z, rfl, h2, by rw [h3, breaks]; omega, h4⟩
      | _ => simp [itemAt] at hit
    | some q =>
      obtain ⟨i, z⟩ := q
      have hev := events_no_page (t := t) (x := x) hit
      rw [hev, tiles_append _ _ _ fun top => no_page_cells _ _] at h
      rcases List.mem_append.mp h with h | h
      · obtain ⟨h1, h2⟩ := mem_tiles_still _ _ _ (fun top => no_page_cells _ _) h
        exact ⟨[], it, items, i, z, rfl, hit, by simpa [breaks] using h1, h2⟩
      · obtain ⟨pre, it', post, i', z', rfl, h2, h3, h4⟩ := mem_tiles items k u h
        refine ⟨it :: pre, it', post, i', z', rfl, h2, ?_, h4⟩
        rw [h3]
        cases it <;> simp [itemAt] at hit <;> rfl

private theorem tiles_pairwise {x : ℚ} {R : Tile → Tile → Prop} : ∀ (items : List Item) (k : Nat),
    (∀ it ∈ items, ∀ i z, itemAt it = some (i, z) → ∀ k, (tiles k (cellEvents t z x (idsOf t i))).Pairwise R) →
    (∀ A it B it' C i z i' z', items = A ++ it :: (B ++ it' :: C) → itemAt it = some (i, z) → itemAt it' = some (i', z') → ∀ u v : Tile,
      .cell u.id u.area ∈ cellEvents t z x (idsOf t i) → .cell v.id v.area ∈ cellEvents t z' x (idsOf t i') → v.page = u.page + breaks B → R u v) →
    (tiles k (items.flatMap (Item.events t x))).Pairwise R
  | [], _, _, _ => by simp [tiles]
  | it :: items, k, h1, h2 => by
    have ih := fun k => tiles_pairwise items k (fun it' hi => h1 it' (List.mem_cons_of_mem _ hi))
      (fun A it1 B it' C i z i' z' e => h2 (it :: A) it1 B it' C i z i' z' (by rw [e]; rfl))
    rw [List.flatMap_cons]
    cases hit : itemAt it with
    | none =>
      cases it with
      | page top => exact ih (k + 1)
      | _ => simp [itemAt] at hit
    | some q =>
      obtain ⟨i, z⟩ := q
      rw [events_no_page hit, tiles_append _ _ _ fun top => no_page_cells _ _]
      refine List.pairwise_append.mpr ⟨h1 it (by simp) i z hit k, ih k, fun u hu v hv => ?_⟩
      obtain ⟨g1, g2⟩ := mem_tiles_still _ _ _ (fun top => no_page_cells _ _) hu
      obtain ⟨B, it', C, i', z', rfl, g3, g4, g5⟩ := mem_tiles items k v hv
      exact h2 [] it B it' C i z i' z' rfl hit g3 u v g2 g5 (by rw [g4, g1])

private theorem tiles_still_pairwise {R : Tile → Tile → Prop} : ∀ (es : List TEvent) (k : Nat), (∀ top, .page top ∉ es) →
    (es.Pairwise fun e e' => ∀ id a id' a', e = .cell id a → e' = .cell id' a' → R ⟨k, id, a⟩ ⟨k, id', a'⟩) → (tiles k es).Pairwise R
  | [], _, _, _ => by simp [tiles]
  | .page top :: es, _, h, _ => absurd (by simp) (h top)
  | .cell id a :: es, k, h, hp => by
    rw [tiles]
    obtain ⟨h1, h2⟩ := List.pairwise_cons.mp hp
    refine List.pairwise_cons.mpr ⟨fun v hv => ?_, tiles_still_pairwise es k (fun top hm => h top (List.mem_cons_of_mem _ hm)) h2⟩
    obtain ⟨g1, g2⟩ := mem_tiles_still es k v (fun top hm => h top (List.mem_cons_of_mem _ hm)) hv
    have := h1 _ g2 id a v.id v.area rfl rfl
    rw [← g1] at this ⊢
    exact this

/-! ### Heights of rows -/

/-- The rows from `i` on, `m` of them. -/
private def run (t : Tab) (i m : Nat) : ℚ := ((List.range m).map fun k => heightOf t (i + k)).sum

private theorem run_succ (i m : Nat) : run t i (m + 1) = heightOf t i + run t (i + 1) m := by
  unfold run
  rw [List.range_succ_eq_map, List.map_cons, List.sum_cons, List.map_map]
  congr 2
  apply List.map_congr_left
  intro k _
  show heightOf t (i + (k + 1)) = _
  congr 1; omega

private theorem run_mono (hh : ∀ r, 0 ≤ heightOf t r) {i m m' : Nat} (h : m ≤ m') : run t i m ≤ run t i m' := by
  induction h with
  | refl => exact le_refl _
  | @step m' _ ih =>
    have : run t i (m' + 1) = run t i m' + heightOf t (i + m') := by
      unfold run; rw [List.range_succ, List.map_append, List.sum_append]; simp
    show run t i m ≤ run t i (m' + 1)
    rw [this]; linarith [hh (i + m')]

/-- Rows one after the other. -/
private theorem chained_run : ∀ (R : List Item) (i : Nat) (y : ℚ) (L : List Item),
    (∀ m q, R[m]? = some q → ∃ z, itemAt q = some (i + m, z)) → Chained t y (R ++ L) → Chained t (y + run t i R.length) L
  | [], i, y, L, _, hc => by simpa [run] using hc
  | q :: R, i, y, L, hR, hc => by
    obtain ⟨z, hz⟩ := hR 0 q rfl
    have hc' : Chained t (y + heightOf t i) (R ++ L) := by
      cases q <;> simp [itemAt] at hz <;> obtain ⟨rfl, rfl⟩ := hz <;> exact hc.2
    have := chained_run R (i + 1) _ L (fun m q hq => by
      obtain ⟨w, hw⟩ := hR (m + 1) q (by simpa using hq)
      exact ⟨w, by rw [hw]; congr 2; omega⟩) hc'
    rw [List.length_cons, run_succ, ← add_assoc]
    exact this

private theorem chained_head {y : ℚ} {it : Item} {C : List Item} {i : Nat} {z : ℚ} (hit : itemAt it = some (i, z)) (hc : Chained t y (it :: C)) : z = y := by
  cases it <;> simp [itemAt] at hit <;> obtain ⟨rfl, rfl⟩ := hit <;> exact hc.1

private theorem chained_suffix : ∀ (A L : List Item) (y : ℚ), Chained t y (A ++ L) → ∃ y', Chained t y' L
  | [], _, y, h => ⟨y, h⟩
  | .page _ :: A, L, _, h => chained_suffix A L _ h
  | .header _ _ :: A, L, _, h => chained_suffix A L _ h.2
  | .row _ _ :: A, L, _, h => chained_suffix A L _ h.2

/-- Without a new page it goes down only. -/
private theorem chained_down (hh : ∀ r, 0 ≤ heightOf t r) : ∀ (R : List Item) (y : ℚ) (it : Item) (C : List Item) (i' : Nat) (z' : ℚ),
    breaks R = 0 → itemAt it = some (i', z') → Chained t y (R ++ it :: C) → y ≤ z'
  | [], y, it, C, i', z', _, hit, hc => by
    cases it <;> simp [itemAt] at hit <;> obtain ⟨rfl, rfl⟩ := hit <;> simp [Chained] at hc <;> rw [hc.1]
  | q :: R, y, it, C, i', z', hR, hit, hc => by
    cases q with
    | page top => simp [breaks] at hR
    | header i w => exact le_trans (by linarith [hh i]) (chained_down hh R _ it C i' z' (by simpa [breaks] using hR) hit hc.2)
    | row i w => exact le_trans (by linarith [hh i]) (chained_down hh R _ it C i' z' (by simpa [breaks] using hR) hit hc.2)

/-! ### Steps on the same page -/

private theorem no_page : ∀ {B : List Item}, breaks B = 0 → ∀ top, .page top ∉ B
  | [], _, _ => by simp
  | .page _ :: _, h, _ => by simp [breaks] at h
  | .header _ _ :: B, h, top => by
    rw [List.mem_cons, not_or]; exact ⟨by simp, no_page (by simpa [breaks] using h) top⟩
  | .row _ _ :: B, h, top => by
    rw [List.mem_cons, not_or]; exact ⟨by simp, no_page (by simpa [breaks] using h) top⟩

private theorem after_page {A A' B H : List Item} {it : Item} {top : ℚ} {q : Nat × ℚ} (h : A ++ it :: B = A' ++ .page top :: H) (hit : itemAt it = some q)
    (hB : breaks B = 0) : ∃ K, H = K ++ it :: B ∧ A = A' ++ .page top :: K := by
  have hn : it ≠ .page top := by rintro rfl; simp [itemAt] at hit
  rcases List.append_eq_append_iff.mp h with ⟨a, h1, h2⟩ | ⟨c, h1, h2⟩
  · exfalso
    have : Item.page top ∈ it :: B := by rw [h2]; simp
    rcases List.mem_cons.mp this with h | h
    · exact hn h.symm
    · exact no_page hB top h
  · cases c with
    | nil =>
      simp only [List.nil_append, List.cons.injEq] at h2
      exact absurd h2.1.symm hn
    | cons a K =>
      simp only [List.cons_append, List.cons.injEq] at h2
      obtain ⟨rfl, h2⟩ := h2
      exact ⟨K, h2, h1⟩

private theorem rows_index : ∀ (R : List Item), (∀ q ∈ R, ∃ j w, q = Item.row j w) →
    (R.filterMap Item.rowIdx).length = R.length ∧ ∀ (m : Nat) (q : Item), R[m]? = some q → ∃ j w, q = Item.row j w ∧ (R.filterMap Item.rowIdx)[m]? = some j
  | [], _ => ⟨rfl, by simp⟩
  | q :: R, h => by
    obtain ⟨h1, h2⟩ := rows_index R fun q hq => h q (List.mem_cons_of_mem _ hq)
    obtain ⟨j, w, rfl⟩ := h q (by simp)
    refine ⟨by simp [Item.rowIdx, h1], fun m q hq => ?_⟩
    cases m with
    | zero => simp only [List.getElem?_cons_zero, Option.some.injEq] at hq; subst hq; exact ⟨j, w, rfl, by simp [Item.rowIdx]⟩
    | succ m =>
      obtain ⟨j', w', e1, e2⟩ := h2 m q (by simpa using hq)
      exact ⟨j', w', e1, by simpa [Item.rowIdx] using e2⟩

private theorem headersAt_get {h : Nat} {top : ℚ} {m : Nat} {q : Item} (e : (headersAt t h top)[m]? = some q) :
    q = .header m (top + heightsBefore t m) ∧ m < min h t.rows.length := by
  unfold headersAt at e
  rw [List.getElem?_map, Option.map_eq_some_iff] at e
  obtain ⟨k, hk, rfl⟩ := e
  obtain ⟨h1, h2⟩ := List.getElem?_eq_some_iff.mp hk
  simp only [List.getElem_range] at h2
  subst h2
  exact ⟨rfl, by simpa using h1⟩

private theorem headersAt_length (h : Nat) (top : ℚ) : (headersAt t h top).length = min h t.rows.length := by simp [headersAt]

/-- The place of a repeated header row among them. -/
private theorem header_index {h : Nat} {top : ℚ} {j : Nat} {z : ℚ} {C post : List Item} {r : Item} (hr : ∀ j z, r ≠ .header j z)
    (e : (headersAt t h top).take j ++ .header j z :: C = headersAt t h top ++ r :: post) : j < min h t.rows.length := by
  by_contra hn
  rw [List.take_of_length_le (by rw [headersAt_length]; omega), List.append_cancel_left_eq] at e
  exact hr j z (List.cons.inj e).1.symm

/-- Two steps on the same page: the second one is below the first one, by the rows from the one to the other, or, if the first one is a header row and the second
one is not, by the header rows at least. -/
private theorem same_page {top bottom y : ℚ} {items : List Item} (hh : ∀ r, 0 ≤ heightOf t r) (hst : TableSteps t rh top bottom y items)
    {A B C : List Item} {it it' : Item} {i i' : Nat} {z z' : ℚ} (he : items = A ++ it :: (B ++ it' :: C)) (hit : itemAt it = some (i, z))
    (hit' : itemAt it' = some (i', z')) (hB : breaks B = 0) :
    (i < i' ∧ z' = z + run t i (i' - i)) ∨ ((i : Int) < rh ∧ z + run t i (min rh.toNat t.rows.length - i) ≤ z') := by
  have hchain : ∀ (R L : List Item), it :: B = R ++ L → (∀ m q, R[m]? = some q → ∃ w, itemAt q = some (i + m, w)) → R ≠ [] →
      Chained t (z + run t i R.length) (L ++ it' :: C) := by
    intro R L e hR hne
    obtain ⟨y', hy'⟩ := chained_suffix A _ y (he ▸ hst.chained)
    rw [chained_head hit hy']
    refine chained_run R i y' _ hR ?_
    rw [← List.append_assoc, ← e]
    exact hy'
  cases it' with
  | page => simp [itemAt] at hit'
  | header j w =>
    simp only [itemAt, Option.some.injEq, Prod.mk.injEq] at hit'
    obtain ⟨rfl, rfl⟩ := hit'
    obtain ⟨i0, y0, pre', post', -, -, h3, h4⟩ := hst.headers (A ++ it :: B) C j w (by rw [he]; simp)
    have hj : j < min rh.toNat t.rows.length := by
      refine header_index (r := .row i0 y0) (top := top) (z := w) (C := C) (post := post') (fun _ _ => by simp) ?_
      have e : A ++ it :: B ++ Item.header j w :: C = pre' ++ .page top :: headersAt t rh.toNat top ++ .row i0 y0 :: post' := by rw [← h3, he]; simp
      rw [h4] at e
      simpa using e
    obtain ⟨K, h5, h6⟩ := after_page h4 hit hB
    have hget : ∀ (m : Nat) (q : Item), (it :: B)[m]? = some q → q = Item.header (K.length + m) (top + heightsBefore t (K.length + m)) := by
      intro m q hq
      have e : ((headersAt t rh.toNat top).take j)[K.length + m]? = some q := by
        rw [h5, List.getElem?_append_right (by omega)]
        simpa using hq
      rw [List.getElem?_take] at e
      split at e
      · exact (headersAt_get e).1
      · simp at e
    have hi : i = K.length := by
      have := hget 0 it rfl
      rw [this] at hit
      simp only [itemAt, Option.some.injEq, Prod.mk.injEq] at hit
      exact hit.1.symm
    have hlen : j = K.length + (B.length + 1) := by
      have := congrArg List.length h5
      rw [List.length_take, headersAt_length, List.length_append, List.length_cons] at this
      omega
    left
    refine ⟨by omega, ?_⟩
    have := chained_head (i := j) (z := w) rfl (hchain (it :: B) [] (by simp) (fun m q hq => ⟨top + heightsBefore t (K.length + m), by rw [hget m q hq, hi]; rfl⟩) (by simp))
    rw [this, show (it :: B).length = j - i by rw [List.length_cons]; omega]
  | row j w =>
    simp only [itemAt, Option.some.injEq, Prod.mk.injEq] at hit'
    obtain ⟨rfl, rfl⟩ := hit'
    cases it with
    | page => simp [itemAt] at hit
    | row i1 z1 =>
      simp only [itemAt, Option.some.injEq, Prod.mk.injEq] at hit
      obtain ⟨rfl, rfl⟩ := hit
      have hrow : ∀ q ∈ (Item.row i1 z1 :: B), ∃ j w, q = .row j w := by
        intro q hq
        rcases List.mem_cons.mp hq with rfl | hq
        · exact ⟨_, _, rfl⟩
        · cases q with
          | page u => exact absurd hq (no_page hB u)
          | row j w => exact ⟨j, w, rfl⟩
          | header j0 w0 =>
            exfalso
            obtain ⟨B1, B2, rfl⟩ := List.append_of_mem hq
            obtain ⟨_, _, pre', _, -, -, -, h4⟩ := hst.headers (A ++ .row i1 z1 :: B1) (B2 ++ .row j w :: C) j0 w0 (by rw [he]; simp)
            obtain ⟨K, h5, -⟩ := after_page h4 (q := (i1, z1)) rfl (by
              have : ∀ (B1 B2 : List Item), breaks (B1 ++ B2) = 0 → breaks B1 = 0 := by
                intro B1 B2
                induction B1 with
                | nil => intro _; rfl
                | cons b B1 ih => cases b <;> simpa [breaks] using ih
              exact this _ _ hB)
            have e : ((headersAt t rh.toNat top).take j0)[K.length]? = some (.row i1 z1) := by rw [h5]; simp
            rw [List.getElem?_take] at e
            split at e
            · exact absurd (headersAt_get e).1 (by simp)
            · simp at e
      obtain ⟨hl, hidx⟩ := rows_index _ hrow
      have hr := hst.rows
      rw [he, show A ++ Item.row i1 z1 :: (B ++ .row j w :: C) = A ++ ((.row i1 z1 :: B) ++ .row j w :: C) by simp, List.filterMap_append, List.filterMap_append] at hr
      set a := A.filterMap Item.rowIdx
      set b := (Item.row i1 z1 :: B).filterMap Item.rowIdx
      have hget : ∀ m v, (b ++ List.filterMap Item.rowIdx (.row j w :: C))[m]? = some v → v = a.length + m := by
        intro m v hv
        have : (List.range t.rows.length)[a.length + m]? = some v := by
          rw [← hr, List.getElem?_append_right (by omega)]; simpa using hv
        obtain ⟨h1, h2⟩ := List.getElem?_eq_some_iff.mp this
        simpa using h2.symm
      have hb0 : i1 = a.length := hget 0 i1 (by simp [b, Item.rowIdx])
      have hbj : j = a.length + (B.length + 1) := by
        have := hget b.length j (by rw [List.getElem?_append_right (le_refl _)]; simp [Item.rowIdx])
        rw [hl] at this
        exact this
      left
      refine ⟨by omega, ?_⟩
      have := chained_head (i := j) (z := w) rfl (hchain (.row i1 z1 :: B) [] (by simp) (fun m q hq => by
        obtain ⟨j', w', rfl, e2⟩ := hidx m q hq
        have := hget m j' (by rw [List.getElem?_append_left (List.getElem?_eq_some_iff.mp e2).1]; exact e2)
        exact ⟨w', by rw [this, hb0]; rfl⟩) (by simp))
      rw [this, show (Item.row i1 z1 :: B).length = j - i1 by rw [List.length_cons]; omega]
    | header i1 z1 =>
      simp only [itemAt, Option.some.injEq, Prod.mk.injEq] at hit
      obtain ⟨rfl, rfl⟩ := hit
      obtain ⟨i0, y0, pre', post', -, hrh, h3, h4⟩ := hst.headers A _ i1 z1 he
      have e0 : (headersAt t rh.toNat top).take i1 ++ .header i1 z1 :: (B ++ .row j w :: C) = headersAt t rh.toNat top ++ .row i0 y0 :: post' := by
        have e : A ++ Item.header i1 z1 :: (B ++ .row j w :: C) = pre' ++ .page top :: headersAt t rh.toNat top ++ .row i0 y0 :: post' := by rw [← h3, he]
        rw [h4] at e
        simpa using e
      have hj := header_index (fun _ _ => by simp) e0
      right
      refine ⟨by omega, ?_⟩
      have e1 : (Item.header i1 z1 :: B) ++ .row j w :: C = (headersAt t rh.toNat top).drop i1 ++ .row i0 y0 :: post' := by
        conv at e0 => rhs; rw [← List.take_append_drop i1 (headersAt t rh.toNat top), List.append_assoc]
        exact List.append_cancel_left e0
      have hH : ∀ (m : Nat) (q : Item), ((headersAt t rh.toNat top).drop i1)[m]? = some q → q = Item.header (i1 + m) (top + heightsBefore t (i1 + m)) := fun m q hq => by
        rw [List.getElem?_drop] at hq
        exact (headersAt_get hq).1
      obtain ⟨c, hc⟩ : ∃ c, (Item.header i1 z1 :: B) = (headersAt t rh.toNat top).drop i1 ++ c := by
        rcases List.append_eq_append_iff.mp e1 with ⟨a, g1, g2⟩ | ⟨c, g1, -⟩
        · cases a with
          | nil => exact ⟨[], by rw [g1]; simp⟩
          | cons q a =>
            exfalso
            simp only [List.cons_append, List.cons.injEq] at g2
            have : ((headersAt t rh.toNat top).drop i1)[(Item.header i1 z1 :: B).length]? = some q := by
              rw [g1, List.getElem?_append_right (le_refl _)]; simp
            have := hH _ _ this
            rw [← g2.1] at this
            exact absurd this (by simp)
        · exact ⟨c, g1⟩
      have hlen : ((headersAt t rh.toNat top).drop i1).length = min rh.toNat t.rows.length - i1 := by rw [List.length_drop, headersAt_length]
      have := hchain _ c hc (fun m q hq => ⟨top + heightsBefore t (i1 + m), by rw [hH m q hq]; rfl⟩) (fun h => by rw [h] at hlen; simp at hlen; omega)
      rw [hlen] at this
      refine chained_down hh c _ (.row j w) C j w ?_ rfl this
      have hb : ∀ (X Y : List Item), breaks (X ++ Y) = 0 → breaks Y = 0 := by
        intro X Y
        induction X with
        | nil => exact id
        | cons b X ih => cases b <;> simpa [breaks] using ih
      refine hb ((headersAt t rh.toNat top).drop i1) c ?_
      rw [← hc]
      exact hB

/-! ### Columns -/

/-- The columns before column `j` together. -/
private def cols (ws : List ℚ) (j : Nat) : ℚ := ((List.range j).map fun k => ws.getD k 0).sum

private theorem cols_succ (ws : List ℚ) (j : Nat) : cols ws (j + 1) = cols ws j + ws.getD j 0 := by
  unfold cols; rw [List.range_succ, List.map_append, List.sum_append]; simp

private theorem cols_mono {ws : List ℚ} (h : ∀ k, 0 ≤ ws.getD k 0) {j j' : Nat} (hj : j ≤ j') : cols ws j ≤ cols ws j' := by
  induction hj with
  | refl => exact le_refl _
  | @step j' _ ih =>
    show cols ws j ≤ cols ws (j' + 1)
    rw [cols_succ]; linarith [h j']

private theorem sum_take (ws : List ℚ) : ∀ (j : Nat), (ws.take j).sum = cols ws j
  | 0 => by simp [cols]
  | j + 1 => by
    rw [cols_succ, ← sum_take ws j, List.take_add_one, List.sum_append, List.getD_eq_getElem?_getD]
    cases ws[j]? <;> simp

private theorem sum_drop (ws : List ℚ) (j c : Nat) : ((ws.drop j).take c).sum = cols ws (j + c) - cols ws j := by
  rw [← sum_take, ← sum_take, List.take_add, List.sum_append]; ring

variable {σ : Type} {m : Measure σ} {cs : Classes} {page : Page} {curr : Styles} {st : Styled} {xrows : List TableRow} {s0 s1 : σ}

/-- Where the columns are: each cell begins with its column, and ends with the last column it extends over. -/
private theorem columns (h : transformTable m cs page curr st xrows s0 = some (t, s1)) (h2 : RowsClear t) (h3 : Descending t)
    (hw : ∀ i, ∀ id ∈ idsOf t i, 0 ≤ (t.cell id).width) : ∃ ws : List ℚ, (∀ k, 0 ≤ ws.getD k 0 ∨ ∀ i, idsOf t i = []) ∧
      (∀ i, idsOf t i ≠ [] → (idsOf t i).length = t.columnCount) ∧
      (∀ i j, ((idsOf t i).take j).length = j → (((idsOf t i).take j).map fun id => (t.cell id).width).sum = cols ws j) ∧
      (∀ i j a, (idsOf t i)[j]? = some a → isAuthored t a = true → j + extent (t.cell a).colSpan ≤ t.columnCount ∧
        (t.dim a).1 = cols ws (j + extent (t.cell a).colSpan) - cols ws j) ∧
      ((∃ k, k < t.columnCount ∧ ¬ Explicit t k) → cols ws t.columnCount = page.effectiveWidth (st.mutatedStyles cs curr).dim.width) := by
  obtain ⟨ws, hlen, hws, -, -, hsum⟩ := C26_widths h
  have hrow : ∀ i, idsOf t i ≠ [] → (idsOf t i).length = t.columnCount := by
    intro i hi
    unfold idsOf at hi ⊢
    cases hr : t.rows[i]? with
    | none => rw [hr] at hi; simp at hi
    | some row => exact (C21_shape h).1 row (List.mem_of_getElem? hr)
  have hcell : ∀ i k, idsOf t i ≠ [] → k < t.columnCount → ∃ x, (idsOf t i)[k]? = some x := fun i k hi hk =>
    ⟨_, List.getElem?_eq_getElem (by rw [hrow i hi]; exact hk)⟩
  refine ⟨ws, ?_, hrow, ?_, ?_, ?_⟩
  · intro k
    by_cases he : ∃ i, idsOf t i ≠ []
    · obtain ⟨i, hi⟩ := he
      left
      by_cases hk : k < t.columnCount
      · obtain ⟨x, hx⟩ := hcell i k hi hk
        rw [← hws i k x hx]
        exact hw i x (List.mem_of_getElem? hx)
      · rw [List.getD_eq_getElem?_getD, List.getElem?_eq_none (by omega)]; simp
    · right
      intro i
      by_contra hc
      exact he ⟨i, hc⟩
  · intro i j
    induction j with
    | zero => intro _; simp [cols]
    | succ j ih =>
      intro hl
      rw [List.length_take] at hl
      have hj : j < (idsOf t i).length := by omega
      have hx := List.getElem?_eq_getElem hj
      rw [List.take_add_one, hx, List.map_append, List.sum_append, ih (by rw [List.length_take]; omega), cols_succ, ← hws i j _ hx]
      simp
  · intro i j a ha hau
    obtain ⟨ws', hws', hfit, hdim⟩ := C26_wide h h2 h3 ha hau
    refine ⟨hfit, ?_⟩
    rw [hdim, sum_drop]
    have hne : idsOf t i ≠ [] := by rintro e; rw [e] at ha; simp at ha
    have heq : ∀ k, k ≤ t.columnCount → cols ws' k = cols ws k := by
      intro k
      induction k with
      | zero => intro _; rfl
      | succ k ih =>
        intro hk
        obtain ⟨x, hx⟩ := hcell i k hne (by omega)
        rw [cols_succ, cols_succ, ih (by omega), ← hws i k x hx, ← hws' i k x hx]
    rw [heq _ hfit, heq _ (by omega)]
  · intro hex
    rw [← hsum hex, ← sum_take, List.take_of_length_le (by omega)]

/-! ### C99 -/

private theorem run_cut {i k k' : Nat} (hk : k' ≤ k) (h : t.rows.length ≤ i + k') : run t i k = run t i k' := by
  induction hk with
  | refl => rfl
  | @step k hle ih =>
    have : run t i (k + 1) = run t i k + heightOf t (i + k) := by
      unfold run; rw [List.range_succ, List.map_append, List.sum_append]; simp
    have hle : k' ≤ k := hle
    show run t i (k + 1) = _
    rw [this, ih]
    unfold heightOf
    rw [List.getElem?_eq_none (by omega)]
    simp

private theorem side_by_side {ws : List ℚ} (hpos : ∀ k, 0 ≤ ws.getD k 0) {j j' c c' : Nat} {x : ℚ} {a b : Area} (ha0 : a.x0 = x + cols ws j)
    (ha1 : a.x1 = x + cols ws (j + c)) (hb0 : b.x0 = x + cols ws j') (hb1 : b.x1 = x + cols ws (j' + c')) (h : j + c ≤ j' ∨ j' + c' ≤ j) : Clear a b := by
  rcases h with h | h
  · left; rw [ha1, hb0]; linarith [cols_mono hpos h]
  · right; left; rw [hb1, ha0]; linarith [cols_mono hpos h]

private theorem disjoint_columns (hn : NoOverlap t) {i i' j j' r a b : Nat} (ha : (idsOf t i)[j]? = some a) (hau : isAuthored t a = true)
    (hb : (idsOf t i')[j']? = some b) (hbu : isAuthored t b = true) (hr : i ≤ r ∧ r < i + extent (t.cell a).rowSpan)
    (hr' : i' ≤ r ∧ r < i' + extent (t.cell b).rowSpan) (hne : a ≠ b) : j + extent (t.cell a).colSpan ≤ j' ∨ j' + extent (t.cell b).colSpan ≤ j := by
  by_contra hc
  rw [not_or, not_le, not_le] at hc
  have e1 : 1 ≤ extent (t.cell a).colSpan := by unfold extent; split <;> omega
  have e2 : 1 ≤ extent (t.cell b).colSpan := by unfold extent; split <;> omega
  exact hne (hn a b r (max j j') ⟨i, j, ha, hau, hr, by omega, by omega⟩ ⟨i', j', hb, hbu, hr', by omega, by omega⟩)

/-- C99: on every page the cells of a table lie side by side or one below the other, if they do not share positions in the table (C25), columns are not of negative
width, and the cells of the header rows do not extend over rows below. -/
theorem C99_apart (h : transformTable m cs page curr st xrows s0 = some (t, s1)) (h1 : NoBlocks t) (h2 : RowsClear t) (h3 : Descending t)
    (hw : ∀ i, ∀ id ∈ idsOf t i, 0 ≤ (t.cell id).width) (hhd : HeadersEnd t rh) {top bottom y : ℚ} {items : List Item}
    (hst : TableSteps t rh top bottom y items) (x : ℚ) (k : Nat) :
    (tiles k (items.flatMap (Item.events t x))).Pairwise fun u v => u.page = v.page → Clear u.area v.area := by
  have hno := C25_partial h h1 h2 h3
  have hh := heights_nonneg h
  obtain ⟨ws, hpos, hrow, hpre, hwide, -⟩ := columns h h2 h3 hw
  obtain ⟨H0, orig, cws, hl, _, _⟩ := table_laid_of h
  have hi := hl.span.inv
  have hpos' : ∀ {i j a : Nat}, (idsOf t i)[j]? = some a → ∀ k, 0 ≤ ws.getD k 0 := by
    intro i j a ha k
    refine (hpos k).resolve_right fun h => ?_
    rw [h i] at ha; simp at ha
  have htake : ∀ {i j a : Nat}, (idsOf t i)[j]? = some a → (((idsOf t i).take j).map fun id => (t.cell id).width).sum = cols ws j := by
    intro i j a ha
    refine hpre i j ?_
    have := (List.getElem?_eq_some_iff.mp ha).1
    rw [List.length_take]; omega
  refine tiles_pairwise items k ?_ ?_
  · intro it _ i z _ k
    refine tiles_still_pairwise _ k (fun top => no_page_cells _ _) ?_
    refine cells_pairwise (idsOf t i) x x (idsOf t i) 0 rfl (by simp) ?_
    intro j j' id id' a a' hj g1 g2 g3 g4 g5 g6 g7 g8 g9 g10 g11 g12 _ _ _ _ e1 e2 _
    simp only [TEvent.cell.injEq] at e1 e2
    obtain ⟨rfl, rfl⟩ := e1
    obtain ⟨rfl, rfl⟩ := e2
    have hne : id ≠ id' := by
      rintro rfl
      have := hi.nod i
      rw [← idsOf_eq] at this
      obtain ⟨p1, p2⟩ := List.getElem?_eq_some_iff.mp g1
      obtain ⟨q1, q2⟩ := List.getElem?_eq_some_iff.mp g2
      have := (List.Nodup.getElem_inj_iff this).mp (p2.trans q2.symm)
      omega
    have ex : ∀ c, 1 ≤ extent c := fun c => by unfold extent; split <;> omega
    have hd := disjoint_columns hno (r := i) g1 g3 g2 g4 ⟨le_refl _, by have := ex (t.cell id).rowSpan; omega⟩ ⟨le_refl _, by have := ex (t.cell id').rowSpan; omega⟩ hne
    refine side_by_side (hpos' g1) (x := x) ?_ ?_ ?_ ?_ hd
    · rw [g5, htake g1]
    · rw [g7, g5, htake g1, (hwide i j id g1 g3).2]; ring
    · rw [g6, htake g2]
    · rw [g8, g6, htake g2, (hwide i j' id' g2 g4).2]; ring
  · intro A it B it' C i z i' z' he hit hit' u v hu hv hpg hsame
    have hB : breaks B = 0 := by omega
    obtain ⟨j, a1, a2, a3, a4, a5, a6⟩ := mem_cells _ _ _ _ hu
    obtain ⟨j', b1, b2, b3, b4, b5, b6⟩ := mem_cells _ _ _ _ hv
    have hheight := C24_height h (List.mem_of_getElem? a1) a2
    rcases same_page hh hst he hit hit' hB with ⟨hlt, hz⟩ | ⟨hlt, hz⟩
    · by_cases hr : i' < i + extent (t.cell u.id).rowSpan
      · have hne : u.id ≠ v.id := by
          intro e
          have m1 := List.mem_of_getElem? a1
          have m2 := List.mem_of_getElem? b1
          rw [← e] at m2
          rw [idsOf_eq] at m1 m2
          have := hi.inj _ _ _ m1 m2
          omega
        have ex : ∀ c, 1 ≤ extent c := fun c => by unfold extent; split <;> omega
        have hd := disjoint_columns hno (r := i') a1 a2 b1 b2 ⟨hlt.le, hr⟩ ⟨le_refl _, by have := ex (t.cell v.id).rowSpan; omega⟩ hne
        refine side_by_side (hpos' a1) (x := x) ?_ ?_ ?_ ?_ hd
        · rw [a3, htake a1]
        · rw [a4, a3, htake a1, (hwide _ _ _ a1 a2).2]; ring
        · rw [b3, htake b1]
        · rw [b4, b3, htake b1, (hwide _ _ _ b1 b2).2]; ring
      · right; right; left
        rw [a6, b5, hz, hheight]
        have := run_mono hh (t := t) (i := i) (show extent (t.cell u.id).rowSpan ≤ i' - i by omega)
        unfold run at this ⊢
        linarith
    · right; right; left
      rw [a6, b5, hheight]
      have hend := hhd i hlt u.id (List.mem_of_getElem? a1) a2
      have : run t i (extent (t.cell u.id).rowSpan) ≤ run t i (min rh.toNat t.rows.length - i) := by
        by_cases hc : extent (t.cell u.id).rowSpan ≤ min rh.toNat t.rows.length - i
        · exact run_mono hh hc
        · exact le_of_eq (run_cut (by omega) (by omega))
      unfold run at this hz
      linarith

private theorem breaks_append : ∀ (a b : List Item), breaks (a ++ b) = breaks a + breaks b
  | [], b => by simp [breaks]
  | .page _ :: a, b => by rw [List.cons_append, breaks, breaks, breaks_append a b]; omega
  | .header _ _ :: a, b => breaks_append a b
  | .row _ _ :: a, b => breaks_append a b

/-- If the last step is not a new page, it is the last row. -/
private theorem last_row {top bottom y : ℚ} {A : List Item} {it : Item} {i : Nat} {z : ℚ} (hst : TableSteps t rh top bottom y (A ++ [it]))
    (hit : itemAt it = some (i, z)) : it = .row i z ∧ i + 1 = t.rows.length := by
  cases it with
  | page => simp [itemAt] at hit
  | header j w =>
    exfalso
    obtain ⟨i0, y0, pre', post', -, -, h3, h4⟩ := hst.headers A [] j w rfl
    have e : (headersAt t rh.toNat top).take j ++ [Item.header j w] = headersAt t rh.toNat top ++ .row i0 y0 :: post' := by
      rw [h4] at h3
      simpa using h3
    have := congrArg List.getLast? e
    have hl := congrArg List.length e
    rw [List.length_append, List.length_append, List.length_take, List.length_singleton, List.length_cons] at hl
    have hp : post' = [] := List.eq_nil_of_length_eq_zero (by omega)
    subst hp
    simp at this
  | row j w =>
    simp only [itemAt, Option.some.injEq, Prod.mk.injEq] at hit
    obtain ⟨rfl, rfl⟩ := hit
    refine ⟨rfl, ?_⟩
    have hr := hst.rows
    rw [List.filterMap_append] at hr
    simp only [List.filterMap_cons, List.filterMap_nil, Item.rowIdx] at hr
    have hl := congrArg List.length hr
    rw [List.length_append, List.length_singleton, List.length_range] at hl
    have := congrArg (·[(A.filterMap Item.rowIdx).length]?) hr
    simp only [List.getElem?_append_right (le_refl _), Nat.sub_self, List.getElem?_cons_zero] at this
    obtain ⟨_, h2⟩ := List.getElem?_eq_some_iff.mp this.symm
    simp only [List.getElem_range] at h2
    omega

/-- C99: where a table is on its pages: on the first one below the position where it starts, on the last one above the position where it leaves off, whatever the
number of rows its cells extend over. -/
theorem C99_between (h : transformTable m cs page curr st xrows s0 = some (t, s1)) (hhd : HeadersEnd t rh) {top bottom y : ℚ} {items : List Item}
    (hst : TableSteps t rh top bottom y items) {x : ℚ} {k : Nat} {u : Tile} (hu : u ∈ tiles k (items.flatMap (Item.events t x))) :
    k ≤ u.page ∧ u.page ≤ k + breaks items ∧ (u.page = k → y ≤ u.area.y0) ∧ (u.page = k + breaks items → u.area.y1 ≤ endY t y items) := by
  have hh := heights_nonneg h
  obtain ⟨pre, it, post, i, z, he, hit, hp, hm⟩ := mem_tiles items k u hu
  obtain ⟨j, a1, a2, -, -, a5, a6⟩ := mem_cells _ _ _ _ hm
  have hone : breaks (it :: post) = breaks post := by cases it <;> simp [itemAt, breaks] at hit ⊢
  have hb : breaks items = breaks pre + breaks post := by rw [he, breaks_append, hone]
  refine ⟨by omega, by omega, fun hk => ?_, fun hk => ?_⟩
  · rw [a5]
    exact chained_down hh pre y it post i z (by omega) hit (he ▸ hst.chained)
  · have hpost : breaks post = 0 := by omega
    have ex : 1 ≤ extent (t.cell u.id).rowSpan := by unfold extent; split <;> omega
    have hheight := C24_height h (List.mem_of_getElem? a1) a2
    have hlong : ∀ k, t.rows.length ≤ i + k → run t i (extent (t.cell u.id).rowSpan) ≤ run t i k := by
      intro k hk
      by_cases hc : extent (t.cell u.id).rowSpan ≤ k
      · exact run_mono hh hc
      · exact le_of_eq (run_cut (by omega) hk)
    have hend : ∀ (A : List Item) (i' : Nat) (z' : ℚ), items = A ++ [.row i' z'] → endY t y items = z' + heightOf t i' := by
      rintro A i' z' rfl
      simp [endY, Item.endY]
    rw [a6, hheight]
    rcases List.eq_nil_or_concat post with rfl | ⟨B, it', rfl⟩
    · obtain ⟨rfl, hi⟩ := last_row (he ▸ hst) hit
      rw [hend pre i z he]
      have := hlong 1 (by omega)
      have e1 : run t i 1 = heightOf t i := by simp [run]
      rw [e1] at this
      unfold run at this
      linarith
    · rw [List.concat_eq_append] at he hpost
      have hbB : breaks B = 0 ∧ breaks [it'] = 0 := by rw [breaks_append] at hpost; omega
      obtain ⟨i', z', hit'⟩ : ∃ i' z', itemAt it' = some (i', z') := by
        cases it' with
        | page => simp [breaks] at hbB
        | header i z => exact ⟨i, z, rfl⟩
        | row i z => exact ⟨i, z, rfl⟩
      obtain ⟨rfl, hi⟩ := last_row (A := pre ++ it :: B) (by rw [he] at hst; simpa using hst) hit'
      rw [hend (pre ++ it :: B) i' z' (by rw [he]; simp)]
      rcases same_page hh hst he hit hit' hbB.1 with ⟨hlt, hz⟩ | ⟨hlt, hz⟩
      · have e1 : run t i (i' - i + 1) = run t i (i' - i) + heightOf t i' := by
          unfold run
          rw [List.range_succ, List.map_append, List.sum_append]
          simp [Nat.add_sub_cancel' hlt.le]
        have := hlong (i' - i + 1) (by omega)
        rw [e1] at this
        unfold run at this hz
        linarith
      · have hend := hhd i hlt u.id (List.mem_of_getElem? a1) a2
        have : run t i (extent (t.cell u.id).rowSpan) ≤ run t i (min rh.toNat t.rows.length - i) := by
          by_cases hc : extent (t.cell u.id).rowSpan ≤ min rh.toNat t.rows.length - i
          · exact run_mono hh hc
          · exact le_of_eq (run_cut (by omega) (by omega))
        unfold run at this hz
        linarith [hh i']

/-- C99: the cells of a table lie in the printable area of the pages, if the table starts there and is not too wide, columns are not of negative width, and each row fits on
a page below the header rows. -/
theorem C99_inside (h : transformTable m cs page curr st xrows s0 = some (t, s1)) (h2 : RowsClear t) (h3 : Descending t)
    (hw : ∀ i, ∀ id ∈ idsOf t i, 0 ≤ (t.cell id).width)
    (hfit : ∀ i, ∀ id ∈ idsOf t i, p.margins.top + heightsBefore t (min rh.toNat t.rows.length) + (t.dim id).2 ≤ p.height - p.margins.bottom)
    {x y : ℚ} {items : List Item} (hst : TableSteps t rh p.margins.top (p.height - p.margins.bottom) y items) (hx : p.margins.left ≤ x)
    (hy : p.margins.top ≤ y) (hwidth : ∀ i, x + rowWidth t i ≤ p.width - p.margins.right - 2) (k : Nat) :
    ∀ u ∈ tiles k (items.flatMap (Item.events t x)), Area.In u.area (printable p) := by
  intro u hu
  obtain ⟨ws, hpos, hrow, hpre, hwide, -⟩ := columns h h2 h3 hw
  obtain ⟨pre, it, post, i, z, he, hit, -, hm⟩ := mem_tiles items k u hu
  obtain ⟨j, a1, a2, a3, a4, a5, a6⟩ := mem_cells _ _ _ _ hm
  have hne : idsOf t i ≠ [] := by intro e; rw [e] at a1; simp at a1
  have hpos' : ∀ k, 0 ≤ ws.getD k 0 := fun k => (hpos k).resolve_right fun h => hne (h i)
  have hj := (List.getElem?_eq_some_iff.mp a1).1
  rw [hpre i j (by rw [List.length_take]; omega)] at a3
  obtain ⟨w1, w2⟩ := hwide i j u.id a1 a2
  have hall : rowWidth t i = cols ws t.columnCount := by
    have := hpre i t.columnCount (by rw [List.length_take, hrow i hne]; omega)
    rw [← this, List.take_of_length_le (by rw [hrow i hne])]
    rfl
  have hrows : p.margins.top ≤ z ∧ ∀ id ∈ idsOf t i, z + (t.dim id).2 ≤ p.height - p.margins.bottom := by
    refine rows_on (pre := pre) (post := post) (heights_nonneg h) (le_refl _) hfit hy hst ?_
    cases it <;> simp [itemAt] at hit <;> obtain ⟨rfl, rfl⟩ := hit <;> simp [he]
  have h0 : 0 ≤ cols ws j := by
    have := cols_mono hpos' (Nat.zero_le j)
    simpa [cols] using this
  refine ⟨?_, ?_, ?_, ?_⟩
  · show p.margins.left ≤ _
    rw [a3]; linarith
  · show _ ≤ p.width - p.margins.right - 2
    have := hwidth i
    rw [hall] at this
    rw [a4, a3, w2]
    linarith [cols_mono hpos' w1]
  · show p.margins.top ≤ _
    rw [a5]; exact hrows.1
  · show _ ≤ p.height - p.margins.bottom
    rw [a6]; exact hrows.2 _ (List.mem_of_getElem? a1)

/-- C99: a table that starts at the left margin is not too wide, if one of its columns has no width set. -/
theorem C99_width (h : transformTable m cs (Page.mk ((Fpdf.engine p).printableArea e)) curr st xrows s0 = some (t, s1)) (hk : ∃ k, k < t.columnCount ∧ ¬ Explicit t k)
    (i : Nat) (hp : p.margins.left ≤ p.width - p.margins.right - 2) : p.margins.left + rowWidth t i ≤ p.width - p.margins.right - 2 := by
  obtain ⟨ws, hlen, hws, -, -, hsum⟩ := C26_widths h
  have hs := hsum hk
  have he : ws.sum ≤ p.width - p.margins.right - 2 - p.margins.left := by
    rw [hs]
    show (if _ then _ else _) ≤ _
    split
    · exact le_refl _
    · rename_i hc
      rw [not_or, not_lt, not_lt] at hc
      exact hc.2
  by_cases hne : idsOf t i = []
  · unfold rowWidth
    rw [hne]
    simp only [List.map_nil, List.sum_nil]
    linarith
  · have hl : (idsOf t i).length = t.columnCount := by
      unfold idsOf at hne ⊢
      cases hr : t.rows[i]? with
      | none => rw [hr] at hne; simp at hne
      | some row => exact (C21_shape h).1 row (List.mem_of_getElem? hr)
    have : (idsOf t i).map (fun id => (t.cell id).width) = ws := by
      apply List.ext_getElem?
      intro k
      rw [List.getElem?_map]
      by_cases hk : k < t.columnCount
      · have hx := List.getElem?_eq_getElem (l := idsOf t i) (i := k) (by omega)
        have e := hws i k _ hx
        rw [hx, Option.map_some, e, List.getD_eq_getElem?_getD, List.getElem?_eq_getElem (by omega)]
        rfl
      · rw [List.getElem?_eq_none (by omega), List.getElem?_eq_none (by omega)]; rfl
    unfold rowWidth
    rw [this]
    linarith

/-! ### Texts -/

private theorem neat_parts : ∀ {k : Nat} {es : List TEvent} {ms : List Mark}, Neat p H t k es ms → ∃ parts : List (Option Tile × List Mark),
    ms = (parts.map Prod.snd).flatten ∧ parts.filterMap Prod.fst = tiles k es ∧ (∀ b, (none, b) ∈ parts → turns b = 1 ∧ ∀ m ∈ b, m = .page ∨ H m) ∧
    ∀ u b, (some u, b) ∈ parts → CellPut p t u.page u.id u.area b := by
  intro k es ms h
  induction h with
  | done => exact ⟨[], rfl, rfl, by simp, by simp⟩
  | @page k top es ms ms' hm hH _ ih =>
    obtain ⟨parts, rfl, h2, h3, h4⟩ := ih
    refine ⟨(none, ms) :: parts, rfl, h2, ?_, ?_⟩
    · intro b hb
      rcases List.mem_cons.mp hb with e | hb
      · rw [(Prod.mk.inj e).2]; exact ⟨hm, hH⟩
      · exact h3 b hb
    · intro u b hb
      rcases List.mem_cons.mp hb with e | hb
      · simp at e
      · exact h4 u b hb
  | @cell k id a es ms ms' hc _ ih =>
    obtain ⟨parts, rfl, h2, h3, h4⟩ := ih
    refine ⟨(some ⟨k, id, a⟩, ms) :: parts, rfl, by simp [tiles, h2], ?_, ?_⟩
    · intro b hb
      rcases List.mem_cons.mp hb with e | hb
      · simp at e
      · exact h3 b hb
    · intro u b hb
      rcases List.mem_cons.mp hb with e | hb
      · simp only [Prod.mk.injEq, Option.some.injEq] at e
        obtain ⟨rfl, rfl⟩ := e
        exact hc
      · exact h4 u b hb

/-- The texts of a cell, without the padding. -/
private theorem put_texts {k id : Nat} {a : Area} {ms : List Mark} (h : CellPut p t k id a ms) (hpad : 0 ≤ (t.cell id).styles.box.padding.left ∧
    0 ≤ (t.cell id).styles.box.padding.top ∧ 0 ≤ (t.cell id).styles.box.padding.right ∧ 0 ≤ (t.cell id).styles.box.padding.bottom) :
    ∀ pg x y f c w, .text pg x y f c w ∈ ms → pg = k ∧ Area.In ⟨x, y, x + p.metric f w, y + lineHeight f⟩ a := by
  obtain ⟨pre, post, rfl, h2, h3, h4, -⟩ := h
  intro pg x y f c w hm
  have hpg := h2 _ hm
  simp only [Mark.on, Option.some.injEq] at hpg
  refine ⟨hpg, ?_⟩
  rcases List.mem_append.mp hm with hm | hm
  · exact absurd hm (h3 _ _ _ _ _ _)
  · rcases List.mem_cons.mp hm with e | hm
    · exact absurd e (by simp [cellMark])
    · obtain ⟨g1, g2, g3, g4⟩ := h4 _ _ _ _ _ _ hm
      obtain ⟨q1, q2, q3, q4⟩ := hpad
      refine ⟨?_, ?_, ?_, ?_⟩
      · show a.x0 ≤ x; simp only at g1; linarith
      · show x + p.metric f w ≤ a.x1; simp only at g2; linarith
      · show a.y0 ≤ y; simp only at g3; linarith
      · show y + lineHeight f ≤ a.y1; simp only at g4; linarith

private theorem clear_texts {a b : Area} {k k' : Nat} {ms ms' : List Mark} (hk : k = k' → Clear a b)
    (h1 : ∀ pg x y f c w, .text pg x y f c w ∈ ms → pg = k ∧ Area.In ⟨x, y, x + p.metric f w, y + lineHeight f⟩ a)
    (h2 : ∀ pg x y f c w, .text pg x y f c w ∈ ms' → pg = k' ∧ Area.In ⟨x, y, x + p.metric f w, y + lineHeight f⟩ b) :
    ∀ m ∈ ms, ∀ m' ∈ ms', Apart p m m' := by
  intro m hm m' hm'
  cases m with
  | text pg x y f c w =>
    cases m' with
    | text pg' x' y' f' c' w' =>
      obtain ⟨rfl, a1, a2, a3, a4⟩ := h1 _ _ _ _ _ _ hm
      obtain ⟨rfl, b1, b2, b3, b4⟩ := h2 _ _ _ _ _ _ hm'
      simp only at a1 a2 a3 a4 b1 b2 b3 b4
      by_cases he : pg = pg'
      · rcases hk he with h | h | h | h
        · exact Or.inr (Or.inr (Or.inr (Or.inl (by linarith))))
        · exact Or.inr (Or.inr (Or.inr (Or.inr (by linarith))))
        · exact Or.inr (Or.inl (by linarith))
        · exact Or.inr (Or.inr (Or.inl (by linarith)))
      · exact Or.inl he
    | _ => trivial
  | _ => trivial

/-- The marks of a table in parts; no need to know where the table is. -/
theorem parts_apart (h : transformTable m cs page curr st xrows s0 = some (t, s1)) (h1 : NoBlocks t) (h2 : RowsClear t) (h3 : Descending t) (hhd : HeadersEnd t rh)
    (ht : TextTable p cs t rh) (hpad : ∀ i, ∀ id ∈ idsOf t i, isAuthored t id = true → 0 ≤ (t.cell id).styles.box.padding.right) {x y : ℚ} {k : Nat}
    {items : List Item} (hst : TableSteps t rh p.margins.top (p.height - p.margins.bottom) y items) {new : List Mark}
    (hn : Neat p H t k (items.flatMap (Item.events t x)) new) : ∃ parts : List (Option Tile × List Mark), new = (parts.map Prod.snd).flatten ∧
      parts.filterMap Prod.fst = tiles k (items.flatMap (Item.events t x)) ∧ (∀ ms, (none, ms) ∈ parts → turns ms = 1 ∧ ∀ m ∈ ms, m = .page ∨ H m) ∧
      (∀ u ms, (some u, ms) ∈ parts → CellPut p t u.page u.id u.area ms ∧ (∃ i, u.id ∈ idsOf t i ∧ isAuthored t u.id = true) ∧
        ∀ pg x y f c w, .text pg x y f c w ∈ ms → pg = u.page ∧ Area.In ⟨x, y, x + p.metric f w, y + lineHeight f⟩ u.area) ∧
      parts.Pairwise fun q q' => q.1.isSome → q'.1.isSome → ∀ m ∈ q.2, ∀ m' ∈ q'.2, Apart p m m' := by
  obtain ⟨parts, g1, g2, g3, g4⟩ := neat_parts hn
  have hclear := C99_apart h h1 h2 h3 ht.widths hhd hst x k
  have hmem : ∀ u ms, (some u, ms) ∈ parts → u ∈ tiles k (items.flatMap (Item.events t x)) := by
    intro u ms hu
    rw [← g2]
    exact List.mem_filterMap.mpr ⟨_, hu, rfl⟩
  have hat : ∀ u ms, (some u, ms) ∈ parts → ∃ i, u.id ∈ idsOf t i ∧ isAuthored t u.id = true := by
    intro u ms hu
    obtain ⟨_, _, _, i, _, _, _, _, hm⟩ := mem_tiles items k u (hmem u ms hu)
    obtain ⟨j, a1, a2, -⟩ := mem_cells _ _ _ _ hm
    exact ⟨i, List.mem_of_getElem? a1, a2⟩
  have htext : ∀ u ms, (some u, ms) ∈ parts → ∀ pg x y f c w, .text pg x y f c w ∈ ms → pg = u.page ∧
      Area.In ⟨x, y, x + p.metric f w, y + lineHeight f⟩ u.area := by
    intro u ms hu
    obtain ⟨i, hid, a2⟩ := hat u ms hu
    have hc := (ht.cells i u.id hid a2).padding
    exact put_texts (g4 u ms hu) ⟨hc.1, hc.2.1, hpad i u.id hid a2, hc.2.2⟩
  refine ⟨parts, g1, g2, g3, fun u ms hu => ⟨g4 u ms hu, hat u ms hu, htext u ms hu⟩, ?_⟩
  rw [← g2] at hclear
  refine (List.pairwise_filterMap.mp hclear).imp_of_mem ?_
  rintro ⟨u, ms⟩ ⟨v, ms'⟩ hq hq' hR hu hv
  obtain ⟨u, rfl⟩ := Option.isSome_iff_exists.mp hu
  obtain ⟨v, rfl⟩ := Option.isSome_iff_exists.mp hv
  exact clear_texts (hR u rfl v rfl) (htext u ms hq) (htext v ms' hq')

private theorem parts_of (h : transformTable m cs page curr st xrows s0 = some (t, s1)) (h1 : NoBlocks t) (h2 : RowsClear t) (h3 : Descending t) (hhd : HeadersEnd t rh)
    (ht : TextTable p cs t rh) (hpad : ∀ i, ∀ id ∈ idsOf t i, isAuthored t id = true → 0 ≤ (t.cell id).styles.box.padding.right) {x y : ℚ} {k : Nat}
    {items : List Item} (hst : TableSteps t rh p.margins.top (p.height - p.margins.bottom) y items) (hx : p.margins.left ≤ x)
    (hy : p.margins.top ≤ y) (hwidth : ∀ i, x + rowWidth t i ≤ p.width - p.margins.right - 2) {new : List Mark}
    (hn : Neat p H t k (items.flatMap (Item.events t x)) new) : ∃ parts, Parts p H t (tiles k (items.flatMap (Item.events t x))) new parts := by
  obtain ⟨parts, g1, g2, g3, g4, g5⟩ := parts_apart h h1 h2 h3 hhd ht hpad hst hn
  have hin := C99_inside h h2 h3 ht.widths ht.rows hst hx hy hwidth k
  refine ⟨parts, g1, g2, g3, fun u ms hu => ⟨(g4 u ms hu).1, hin u ?_, (g4 u ms hu).2.2⟩, C99_apart h h1 h2 h3 ht.widths hhd hst x k, g5⟩
  rw [← g2]
  exact List.mem_filterMap.mpr ⟨_, hu, rfl⟩

/-- C99: the tables of the body of a processed document, with text in their cells only, as in C93.  If the table starts in the printable area and is not too wide, and its
cells do not share positions (C25), then everything it puts on the pages is its cells, in the printable area, side by side or one below the other, and the page breaks.
The texts lie inside of their cells, and those of different cells do not overlap. -/
theorem C99_document (hm : Metrics (Fpdf.engine p) ctx.hyphenate p.metric lineHeight) (hl : 0 ≤ p.margins.left) (htop : 0 ≤ p.margins.top) {r : PdfResult} {s' : PState Fpdf}
    (h : process (Fpdf.engine p) ctx n (newProcessor (Fpdf.new p)) = some (r, s')) {pre post : List Instr} {st : Styled} {rh : Int} {rows : List TableRow}
    (hb : ctx.body = pre ++ .table st rh rows :: post) :
    ∃ s s2 t s1 new, Reached p ctx n pre s ∧ Reached p ctx n (pre ++ [.table st rh rows]) s2 ∧
      transformTable (textHeightFnc (Fpdf.engine p) ctx) ctx.classes (Page.mk ((Fpdf.engine p).printableArea s.eng)) s.curr st rows s = some (t, s1) ∧
      s2.eng.out = s.eng.out ++ new ∧ s2.eng.out <+: s'.eng.out ∧
      (t.columnCount ≠ 0 → TextTable p ctx.classes t rh → (∀ i, ∀ id ∈ idsOf t i, isAuthored t id = true → 0 ≤ (t.cell id).styles.box.padding.right) →
        NoBlocks t → RowsClear t → Descending t → HeadersEnd t rh → p.margins.left ≤ s.eng.x → p.margins.top ≤ s.eng.y →
        (∀ i, s.eng.x + rowWidth t i ≤ p.width - p.margins.right - 2) →
        ∃ items parts, LaidOut p t rh s.eng s2.eng new items ∧ Parts p (InHeaderFooter p ctx s2.eng.out) t (tiles s.eng.page (items.flatMap (Item.events t s.eng.x))) new parts) := by
  obtain ⟨s, s2, t, s1, new, r1, r2, h3, h4, h5, h6⟩ := C93_document hm hl htop h hb
  refine ⟨s, s2, t, s1, new, r1, r2, h3, h4, h5, fun hc ht hpad n1 n2 n3 hhd hx hy hw => ?_⟩
  obtain ⟨items, g1, -, g3⟩ := h6 hc (hl.trans hx) (htop.trans hy) ht
  obtain ⟨parts, hp⟩ := parts_of h3 n1 n2 n3 hhd ht hpad g1.steps hx hy hw g3
  exact ⟨items, parts, g1, hp⟩

/-! ### Examples: a page of 100 by 100 with margins of 10, letters 2 wide -/

private def padded : Styled := ⟨[[([6, 0], .flt 0), ([1, 1], .quad ⟨2, 2, 2, 2⟩)]], []⟩
private def word (c r : Int) (w : Str) : TableCell := .mk padded c r [.textBlock w]

/-- A header row with a cell over two columns, a cell over two rows below, and a last row that does not fit. -/
private def tiledRows : List TableRow := [.mk padded [word 2 1 b!"head", word 1 1 b!"three"],
  .mk padded [word 1 2 b!"both rows", word 1 1 b!"a", word 1 1 b!"b"], .mk padded [word 1 1 b!"c", word 1 1 b!"d"],
  .mk padded [word 1 1 b!"e", word 1 1 b!"f", word 1 1 b!"g"]]

private def exCtx (rows : List TableRow) : Ctx :=
  { classes := [], header := [], footer := [], body := [.setY 60, .table padded 1 rows], hyphenate := exHyph, resolve := id, describe := fun _ => none }

private structure Seen where
  page : Nat
  x : ℚ
  y : ℚ
  text : Str
deriving DecidableEq

private def seen (ms : List Mark) : List Seen := ms.filterMap fun
  | .text pg x y _ _ w => some ⟨pg, x, y, w⟩
  | _ => none

private def okTiles (t : Tab) (rh : Int) (x : ℚ) : Bool :=
  let ids := (List.range t.rows.length)
  (ids.all fun i => (idsOf t i).all fun a => !isAuthored t a || (decide (0 ≤ (t.cell a).styles.box.padding.right) &&
    decide ((i : Int) < rh → (i : Int) + extent (t.cell a).rowSpan ≤ rh))) &&
  decide (0 + x ≤ exPaper.width - exPaper.margins.right - 2) && ids.all fun i => decide (x + rowWidth t i ≤ exPaper.width - exPaper.margins.right - 2)

private theorem row_lt {i a : Nat} (h : a ∈ idsOf t i) : i < t.rows.length := by
  by_contra hc
  unfold idsOf at h
  rw [List.getElem?_eq_none (by omega)] at h
  simp at h

private theorem okTiles_of {x : ℚ} (h : okTiles t rh x = true) : (∀ i, ∀ id ∈ idsOf t i, isAuthored t id = true → 0 ≤ (t.cell id).styles.box.padding.right) ∧
    HeadersEnd t rh ∧ ∀ i, x + rowWidth t i ≤ exPaper.width - exPaper.margins.right - 2 := by
  simp only [okTiles, Bool.and_eq_true, List.all_eq_true, List.mem_range, Bool.or_eq_true, Bool.not_eq_true', decide_eq_true_eq] at h
  obtain ⟨⟨h1, h2⟩, h3⟩ := h
  refine ⟨fun i id hid ha => ((h1 i (row_lt hid) id hid).resolve_left (by simp [ha])).1,
    fun i hi id hid ha => ((h1 i (row_lt hid) id hid).resolve_left (by simp [ha])).2 hi, fun i => ?_⟩
  by_cases hi : i < t.rows.length
  · exact h3 i hi
  · have : rowWidth t i = 0 := by unfold rowWidth idsOf; rw [List.getElem?_eq_none (by omega)]; simp
    rw [this]; linarith

private def okSpans (t : Tab) (n : Nat) : Bool := decide (t.rows.length ≤ n) &&
  decide (∀ i < n, ∀ a ∈ idsOf t i, isAuthored t a = true → (t.cell a).colSpan ≤ 1 ∨ (t.cell a).rowSpan ≤ 1) &&
  decide (∀ i < n, ∀ r < n, ∀ a ∈ idsOf t i, ∀ b ∈ idsOf t r, (isAuthored t a && isAuthored t b) = true ∧
      i < r ∧ r < i + extent (t.cell a).rowSpan → (t.cell b).colSpan ≤ 1) &&
  decide (∀ i < n, ∀ i' < n, ∀ p ∈ (idsOf t i).zipIdx, ∀ q ∈ (idsOf t i').zipIdx,
      (isAuthored t p.1 && isAuthored t q.1) = true ∧ i < i' ∧ i' + 1 < i + extent (t.cell p.1).rowSpan ∧ 1 < (t.cell q.1).rowSpan → p.2 < q.2)

private theorem okSpans_of {n : Nat} (h : okSpans t n = true) : NoBlocks t ∧ RowsClear t ∧ Descending t := by
  unfold okSpans at h
  rw [Bool.and_eq_true, Bool.and_eq_true, Bool.and_eq_true] at h
  exact conditions_of n (of_decide_eq_true h.1.1.1) (of_decide_eq_true h.1.1.2) (of_decide_eq_true h.1.2) (of_decide_eq_true h.2)

private theorem tiled_run : ((callsAt (Fpdf.engine exPaper) (exCtx tiledRows) 2).addPage { eng := Fpdf.changeFont exPaper defaultStyle.font { Fpdf.new exPaper with pageCountAlias := b!"{np}" }, curr := defaultStyle, prevent := false }).bind
      (fun q => (processInstrs (Fpdf.engine exPaper) (exCtx tiledRows) (callsAt (Fpdf.engine exPaper) (exCtx tiledRows) 2) [.setY 60] q.2).bind fun r =>
        (transformTable (textHeightFnc (Fpdf.engine exPaper) (exCtx tiledRows)) [] (Page.mk ((Fpdf.engine exPaper).printableArea r.2.eng)) r.2.curr padded tiledRows r.2).map fun u =>
          decide (okTable u.1 1 = true ∧ okTiles u.1 1 r.2.eng.x = true ∧ okSpans u.1 4 = true ∧ u.1.columnCount ≠ 0 ∧ exPaper.margins.left ≤ r.2.eng.x ∧
            exPaper.margins.top ≤ r.2.eng.y)) = some true := by decide +kernel

/-- The table meets the conditions of `C99_document`; its last row is on the second page, below the repeated header. -/
example : ((process (Fpdf.engine exPaper) (exCtx tiledRows) 2 (newProcessor (Fpdf.new exPaper))).map fun r => seen r.2.eng.out) =
      some [⟨1, 12, 62, b!"head"⟩, ⟨1, 64, 62, b!"three"⟩, ⟨1, 12, 2107/30, b!"both"⟩, ⟨1, 20, 2107/30, b!" rows"⟩, ⟨1, 38, 2107/30, b!"a"⟩, ⟨1, 64, 2107/30, b!"b"⟩,
        ⟨1, 38, 1177/15, b!"c"⟩, ⟨1, 64, 1177/15, b!"d"⟩, ⟨2, 12, 12, b!"head"⟩, ⟨2, 64, 12, b!"three"⟩, ⟨2, 12, 607/30, b!"e"⟩, ⟨2, 38, 607/30, b!"f"⟩,
        ⟨2, 64, 607/30, b!"g"⟩] ∧
    ∃ s s2 t s1 new, Reached exPaper (exCtx tiledRows) 2 [.setY 60] s ∧ Reached exPaper (exCtx tiledRows) 2 (exCtx tiledRows).body s2 ∧
      transformTable (textHeightFnc (Fpdf.engine exPaper) (exCtx tiledRows)) [] (Page.mk ((Fpdf.engine exPaper).printableArea s.eng)) s.curr padded tiledRows s = some (t, s1) ∧
      s2.eng.out = s.eng.out ++ new ∧ ∃ items parts, LaidOut exPaper t 1 s.eng s2.eng new items ∧
        Parts exPaper (InHeaderFooter exPaper (exCtx tiledRows) s2.eng.out) t (tiles s.eng.page (items.flatMap (Item.events t s.eng.x))) new parts := by
  have hs : (process (Fpdf.engine exPaper) (exCtx tiledRows) 2 (newProcessor (Fpdf.new exPaper))).map (fun r => seen r.2.eng.out) =
      some [⟨1, 12, 62, b!"head"⟩, ⟨1, 64, 62, b!"three"⟩, ⟨1, 12, 2107/30, b!"both"⟩, ⟨1, 20, 2107/30, b!" rows"⟩, ⟨1, 38, 2107/30, b!"a"⟩, ⟨1, 64, 2107/30, b!"b"⟩,
        ⟨1, 38, 1177/15, b!"c"⟩, ⟨1, 64, 1177/15, b!"d"⟩, ⟨2, 12, 12, b!"head"⟩, ⟨2, 64, 12, b!"three"⟩, ⟨2, 12, 607/30, b!"e"⟩, ⟨2, 38, 607/30, b!"f"⟩,
        ⟨2, 64, 607/30, b!"g"⟩] := by decide +kernel
  refine ⟨hs, ?_⟩
  obtain ⟨⟨r, s'⟩, hr, -⟩ := Option.map_eq_some_iff.mp hs
  have hm : Metrics (Fpdf.engine exPaper) (exCtx tiledRows).hyphenate exPaper.metric lineHeight := metrics_example
  obtain ⟨s, s2, t, s1, new, r1, r2, h3, h4, -, h6⟩ := C99_document (pre := [.setY 60]) (post := []) hm (by decide +kernel) (by decide +kernel) hr rfl
  refine ⟨s, s2, t, s1, new, r1, r2, h3, h4, ?_⟩
  obtain ⟨⟨_, u0⟩, g1, g⟩ := Option.bind_eq_some_iff.mp tiled_run
  obtain ⟨⟨_, u1⟩, g2, g⟩ := Option.bind_eq_some_iff.mp g
  obtain ⟨⟨t', u2⟩, g3, g⟩ := Option.map_eq_some_iff.mp g
  obtain ⟨-, v, v1, v2⟩ := r1
  obtain ⟨_, rfl⟩ := Prod.mk.inj (Option.some.inj (g1.symm.trans v1))
  obtain ⟨_, rfl⟩ := Prod.mk.inj (Option.some.inj (g2.symm.trans v2))
  obtain ⟨rfl, _⟩ := Prod.mk.inj (Option.some.inj (g3.symm.trans h3))
  obtain ⟨e1, e2, e3, e4, e5, e6⟩ := of_decide_eq_true g
  obtain ⟨k1, k2, k3⟩ := okTiles_of e2
  obtain ⟨l1, l2, l3⟩ := okSpans_of e3
  exact h6 e4 (okTable_text e1) k1 l1 l2 l3 k2 e5 e6 k3

/-- C99: the condition on header rows is needed.  Only the first row is repeated, but its first cell extends over two rows: on the second page its second line runs
into the text of the row that comes there. -/
theorem C99_header : ((process (Fpdf.engine exPaper) (exCtx [.mk padded [.mk padded 1 2 [.textBlock b!"high", .lineBreak, .textBlock b!"low"], word 1 1 b!"two"],
      .mk padded [word 1 1 b!"a"], .mk padded [word 1 1 b!"b", word 1 1 b!"c"], .mk padded [word 1 1 b!"d", word 1 1 b!"e"]]) 2
      (newProcessor (Fpdf.new exPaper))).map fun r => seen r.2.eng.out) =
    some [⟨1, 12, 62, b!"high"⟩, ⟨1, 12, 1367/20, b!"low"⟩, ⟨1, 51, 62, b!"two"⟩, ⟨1, 51, 2107/30, b!"a"⟩, ⟨1, 12, 1177/15, b!"b"⟩, ⟨1, 51, 1177/15, b!"c"⟩,
      ⟨2, 12, 12, b!"high"⟩, ⟨2, 12, 367/20, b!"low"⟩, ⟨2, 51, 12, b!"two"⟩, ⟨2, 12, 607/30, b!"d"⟩, ⟨2, 51, 607/30, b!"e"⟩] := by decide +kernel

end Verif.Props
