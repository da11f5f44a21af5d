import Verif.Spec.Places
import Verif.Proofs.TableLaid
/-
The places of a table, exactly (C122).
-/
namespace Verif.Proofs
open Verif.Go Verif.Model Verif.Spec

/-- The places of cells, in a table. -/
def idPlaces (t : Tab) (ids : List Nat) : List TPlace := ids.map (foundAt t)

/-- The places of rows. -/
def rowPlaces (t : Tab) (rows : List TRow) : List (List TPlace) := rows.map fun r => idPlaces t r.cells

/-- The second table has the cells of the first one, and more. -/
structure More (t t' : Tab) : Prop where
  len : t.heap.length ≤ t'.heap.length
  same : ∀ x < t.heap.length, foundAt t' x = foundAt t x ∧ (t'.cell x).colSpan = (t.cell x).colSpan ∧ (t'.cell x).rowSpan = (t.cell x).rowSpan
  fresh : ∀ x, t.heap.length ≤ x → x < t'.heap.length → ∀ a, foundAt t' x ≠ .cell a
  flat : (∀ x, (t.cell x).minHeight = 0) → ∀ x, (t'.cell x).minHeight = 0

theorem More.refl (t : Tab) : More t t := ⟨le_refl _, fun _ _ => ⟨rfl, rfl, rfl⟩, fun _ h h' => absurd h' (by omega), id⟩

theorem More.trans {t t' t'' : Tab} (h : More t t') (h' : More t' t'') : More t t'' :=
  ⟨le_trans h.len h'.len, fun x hx => by
    obtain ⟨a, b, c⟩ := h.same x hx
    obtain ⟨a', b', c'⟩ := h'.same x (lt_of_lt_of_le hx h.len)
    exact ⟨a'.trans a, b'.trans b, c'.trans c⟩, fun x hx hx' a => by
    rcases Nat.lt_or_ge x t'.heap.length with hl | hl
    · rw [(h'.same x hl).1]
      exact h.fresh x hx hl a
    · exact h'.fresh x hl hx' a, fun hz => h'.flat (h.flat hz)⟩

/-- Rows and counts do not matter. -/
theorem More.heap {t t' u u' : Tab} (h : More t t') (e : t.heap = u.heap) (e' : t'.heap = u'.heap) : More u u' := by
  have hc : ∀ x, t.cell x = u.cell x := fun x => by unfold Tab.cell; rw [e]
  have hc' : ∀ x, t'.cell x = u'.cell x := fun x => by unfold Tab.cell; rw [e']
  refine ⟨by rw [← e, ← e']; exact h.len, fun x hx => ?_, fun x hx hx' a => ?_, fun hz x => by rw [← hc']; exact h.flat (fun x => by rw [hc]; exact hz x) x⟩
  · have := h.same x (by rw [e]; exact hx)
    unfold foundAt at *
    rw [hc, hc'] at this
    exact this
  · have := h.fresh x (by rw [e]; exact hx) (by rw [e']; exact hx') a
    unfold foundAt at *
    rw [hc'] at this
    exact this

theorem more_alloc (t : Tab) (c : TCell) (hc : c.zero = true ∨ c.spannedBy.isSome) (h0 : c.minHeight = 0) : More t (t.alloc c).1 := by
  refine ⟨by simp [Tab.alloc], fun x hx => ?_, fun x hx hx' a => ?_, fun hz x => by rw [cell_alloc]; split; exacts [h0, hz x]⟩
  · unfold foundAt
    rw [cell_alloc, if_neg (show ¬ x = t.heap.length by omega)]
    exact ⟨rfl, rfl, rfl⟩
  · have hl : (t.alloc c).1.heap.length = t.heap.length + 1 := by simp [Tab.alloc]
    obtain rfl : x = t.heap.length := by omega
    unfold foundAt
    rw [cell_alloc, if_pos rfl]
    split
    · simp
    · rcases hc with hc | hc
      · contradiction
      · obtain ⟨b, hb⟩ := Option.isSome_iff_exists.mp hc
        rw [hb]
        simp

theorem more_mod {t : Tab} {a : Nat} {f : TCell → TCell} (ha : a < t.heap.length)
    (hf : ∀ c : TCell, (f c).zero = c.zero ∧ (f c).spannedBy = c.spannedBy ∧ (f c).colSpan = c.colSpan ∧ (f c).rowSpan = c.rowSpan ∧ (f c).minHeight = c.minHeight) : More t (t.modCell a f) := by
  refine ⟨by rw [heap_modCell], fun x _ => ?_, fun x hx hx' => absurd hx' (by rw [heap_modCell]; omega), fun hz x => by
    rw [cell_modCell t a f x ha]
    split
    · rw [(hf _).2.2.2.2]; exact hz a
    · exact hz x⟩
  unfold foundAt
  rw [cell_modCell t a f x ha]
  split
  · rename_i e
    subst e
    obtain ⟨h1, h2, h3, h4, _⟩ := hf (t.cell x)
    rw [h1, h2, h3, h4]
    exact ⟨rfl, rfl, rfl⟩
  · exact ⟨rfl, rfl, rfl⟩

theorem seen_more {t t' : Tab} (h : More t t') {ids : List Nat} (hv : ∀ x ∈ ids, x < t.heap.length) : idPlaces t' ids = idPlaces t ids :=
  List.map_congr_left fun x hx => (h.same x (hv x hx)).1

/-- All cells of the rows are there. -/
def HasCells (t : Tab) (rows : List TRow) : Prop := ∀ r ∈ rows, ∀ x ∈ r.cells, x < t.heap.length

theorem seenRows_more {t t' : Tab} (h : More t t') {rows : List TRow} (hv : HasCells t rows) : rowPlaces t' rows = rowPlaces t rows :=
  List.map_congr_left fun r hr => seen_more h (hv r hr)

theorem HasCells.more {t t' : Tab} {rows : List TRow} (h : HasCells t rows) (hm : More t t') : HasCells t' rows :=
  fun r hr x hx => lt_of_lt_of_le (h r hr x hx) hm.len

/-! ### Columns -/

theorem colShadows_seen (id : Nat) : ∀ (n : Nat) (t : Tab) (acc : List Nat), id < t.heap.length →
    ∃ new, (colShadows id n t acc).2 = acc ++ new ∧ More t (colShadows id n t acc).1 ∧ (colShadows id n t acc).1.rows = t.rows ∧
      (∀ x ∈ new, x < (colShadows id n t acc).1.heap.length) ∧ idPlaces (colShadows id n t acc).1 new = List.replicate n (.covered id) := by
  intro n
  induction n with
  | zero => intro t acc _; exact ⟨[], by simp [colShadows], More.refl t, rfl, by simp, rfl⟩
  | succ n ih =>
    intro t acc hid
    let c : TCell := { TCell.new with spannedBy := some id, rowSpan := (t.cell id).rowSpan }
    let t2 := (t.alloc c).1.modCell id fun c => { c with spansCols := c.spansCols ++ [t.heap.length] }
    have hl1 : (t.alloc c).1.heap.length = t.heap.length + 1 := by simp [Tab.alloc]
    have m1 : More t (t.alloc c).1 := more_alloc t c (.inr rfl) rfl
    have m2 : More (t.alloc c).1 t2 := more_mod (by omega) fun _ => ⟨rfl, rfl, rfl, rfl, rfl⟩
    have hl2 : t2.heap.length = t.heap.length + 1 := by rw [← hl1]; exact heap_modCell _ _ _
    obtain ⟨new, h1, h2, h3, h4, h5⟩ := ih t2 (acc ++ [t.heap.length]) (by omega)
    have e : colShadows id (n + 1) t acc = colShadows id n t2 (acc ++ [t.heap.length]) := rfl
    rw [e]
    refine ⟨t.heap.length :: new, by rw [h1]; simp, (m1.trans m2).trans h2, h3, ?_, ?_⟩
    · intro x hx
      rcases List.mem_cons.mp hx with rfl | hx
      · have := h2.len; omega
      · exact h4 x hx
    · show foundAt _ _ :: idPlaces _ new = _
      rw [h5, List.replicate_succ, (h2.same _ (by omega)).1, (m2.same _ (by omega)).1]
      congr 1
      unfold foundAt
      rw [cell_alloc, if_pos rfl]
      rfl

/-- What the loop over the columns makes of a place. -/
def besides (colSpan : Nat → Int) : TPlace → List TPlace
  | .cell a => .cell a :: List.replicate (extent (colSpan a) - 1) (.covered a)
  | x => [x]

theorem extent_one {k : Int} (h : k ≤ 1) : extent k - 1 = 0 := by unfold extent; rw [if_pos h]
theorem extent_more {k : Int} (h : ¬ k ≤ 1) : extent k - 1 = (k - 1).toNat := by unfold extent; rw [if_neg h]; omega

/-- The cells that come from the file have these spans. -/
def Spans (cs rs : Nat → Int) (t : Tab) : Prop := ∀ x < t.heap.length, foundAt t x = .cell x → (t.cell x).colSpan = cs x ∧ (t.cell x).rowSpan = rs x

theorem colSpanCells_seen {cs : Nat → Int} : ∀ (ids : List Nat) (t : Tab) (acc : List Nat),
    (∀ x ∈ ids, x < t.heap.length ∧ foundAt t x = .cell x ∧ (t.cell x).colSpan = cs x) →
    ∃ new, (colSpanCells ids t acc).2 = acc ++ new ∧ More t (colSpanCells ids t acc).1 ∧ (colSpanCells ids t acc).1.rows = t.rows ∧
      (∀ x ∈ new, x < (colSpanCells ids t acc).1.heap.length) ∧ idPlaces (colSpanCells ids t acc).1 new = (idPlaces t ids).flatMap (besides cs) := by
  intro ids
  induction ids with
  | nil => intro t acc _; exact ⟨[], by simp [colSpanCells], More.refl t, rfl, by simp, rfl⟩
  | cons id ids ih =>
    intro t acc hv
    obtain ⟨v1, v2, v3⟩ := hv id (by simp)
    have hv' : ∀ t', More t t' → ∀ x ∈ ids, x < t'.heap.length ∧ foundAt t' x = .cell x ∧ (t'.cell x).colSpan = cs x := by
      intro t' m x hx
      obtain ⟨a, b, c⟩ := hv x (List.mem_cons_of_mem _ hx)
      obtain ⟨p, q, _⟩ := m.same x a
      exact ⟨lt_of_lt_of_le a m.len, p.trans b, q.trans c⟩
    have hs : idPlaces t (id :: ids) = .cell id :: idPlaces t ids := by unfold idPlaces; rw [List.map_cons, v2]
    rw [hs, List.flatMap_cons]
    simp only [besides]
    unfold colSpanCells
    simp only
    by_cases h : (t.cell id).colSpan ≤ 1
    · rw [if_pos h]
      obtain ⟨new, h1, h2, h3, h4, h5⟩ := ih t (acc ++ [id]) (hv' t (More.refl t))
      refine ⟨id :: new, by rw [h1]; simp, h2, h3, ?_, ?_⟩
      · intro x hx
        rcases List.mem_cons.mp hx with rfl | hx
        · exact lt_of_lt_of_le v1 h2.len
        · exact h4 x hx
      · rw [extent_one (v3 ▸ h)]
        show foundAt _ _ :: idPlaces _ new = _
        rw [h5, (h2.same _ v1).1, v2]
        rfl
    · rw [if_neg h]
      obtain ⟨new, h1, h2, h3, h4, h5⟩ := colShadows_seen id ((t.cell id).colSpan - 1).toNat t (acc ++ [id]) v1
      generalize colShadows id ((t.cell id).colSpan - 1).toNat t (acc ++ [id]) = q at *
      obtain ⟨new', k1, k2, k3, k4, k5⟩ := ih q.1 q.2 (hv' q.1 h2)
      refine ⟨id :: new ++ new', by rw [k1, h1]; simp, h2.trans k2, k3.trans h3, ?_, ?_⟩
      · intro x hx
        rcases List.mem_append.mp hx with hx | hx
        · rcases List.mem_cons.mp hx with rfl | hx
          · exact lt_of_lt_of_le v1 (h2.trans k2).len
          · exact lt_of_lt_of_le (h4 x hx) k2.len
        · exact k4 x hx
      · have e1 : idPlaces (colSpanCells ids q.1 q.2).1 (id :: new ++ new') =
            foundAt (colSpanCells ids q.1 q.2).1 id :: (idPlaces (colSpanCells ids q.1 q.2).1 new ++ idPlaces (colSpanCells ids q.1 q.2).1 new') := by
          unfold idPlaces; simp
        rw [e1, k5, seen_more k2 h4, h5, ((h2.trans k2).same _ v1).1, v2, ← v3, extent_more h,
          seen_more h2 fun x hx => (hv x (List.mem_cons_of_mem _ hx)).1]
        rfl

theorem colSpanRows_seen {cs : Nat → Int} : ∀ (post : List TRow) (pre : List TRow) (t : Tab), t.rows = pre ++ post → HasCells t pre →
    (∀ r ∈ post, ∀ x ∈ r.cells, x < t.heap.length ∧ foundAt t x = .cell x ∧ (t.cell x).colSpan = cs x) →
    ∃ post', (colSpanRows post.length pre.length t).rows = pre ++ post' ∧ More t (colSpanRows post.length pre.length t) ∧
      HasCells (colSpanRows post.length pre.length t) (pre ++ post') ∧
      rowPlaces (colSpanRows post.length pre.length t) post' = (rowPlaces t post).map (List.flatMap (besides cs)) := by
  intro post
  induction post with
  | nil => intro pre t h hk _; exact ⟨[], h, More.refl t, by rw [List.append_nil]; exact hk, rfl⟩
  | cons r post ih =>
    intro pre t h hk hv
    have hr : t.rows[pre.length]? = some r := by rw [h]; simp
    obtain ⟨new, h1, h2, h3, h4, h5⟩ := colSpanCells_seen r.cells t [] (hv r (by simp))
    rw [List.length_cons, colSpanRows, hr]
    simp only
    generalize colSpanCells r.cells t [] = q at *
    rw [List.nil_append] at h1
    have e : q.1.rows.set pre.length { r with cells := q.2 } = (pre ++ [{ r with cells := new }]) ++ post := by
      rw [h3, h, h1]; simp
    rw [e, show pre.length + 1 = (pre ++ [{ r with cells := new }]).length by simp]
    let t2 : Tab := { q.1 with rows := (pre ++ [{ r with cells := new }]) ++ post }
    have m2 : More t t2 := h2.heap rfl rfl
    have hk2 : HasCells t2 (pre ++ [{ r with cells := new }]) := by
      intro r' hr'
      rcases List.mem_append.mp hr' with hr' | hr'
      · exact hk.more m2 r' hr'
      · rw [List.mem_singleton.mp hr']; exact h4
    obtain ⟨post', k1, k2, k3, k4⟩ := ih (pre ++ [{ r with cells := new }]) t2 rfl hk2 (by
      intro r' hr' x hx
      obtain ⟨a, b, c⟩ := hv r' (List.mem_cons_of_mem _ hr') x hx
      obtain ⟨p, q', _⟩ := m2.same x a
      exact ⟨lt_of_lt_of_le a m2.len, p.trans b, q'.trans c⟩)
    refine ⟨{ r with cells := new } :: post', by rw [k1]; simp, m2.trans k2, by rw [List.append_assoc] at k3; exact k3, ?_⟩
    show idPlaces _ new :: rowPlaces _ post' = _ :: _
    rw [k4, seen_more k2 h4, seenRows_more m2 fun r' hr' x hx => (hv r' (List.mem_cons_of_mem _ hr') x hx).1]
    congr 1

/-! ### Rows -/

theorem padZero_seen : ∀ (k : Nat) (t : Tab) (cells : List Nat), ∃ new, (padZero k t cells).2 = cells ++ new ∧ More t (padZero k t cells).1 ∧
    (padZero k t cells).1.rows = t.rows ∧ (padZero k t cells).1.columnCount = t.columnCount ∧ (∀ x ∈ new, x < (padZero k t cells).1.heap.length) ∧ idPlaces (padZero k t cells).1 new = List.replicate k .free := by
  intro k
  induction k with
  | zero => intro t cells; exact ⟨[], by simp [padZero], More.refl t, rfl, rfl, by simp, rfl⟩
  | succ k ih =>
    intro t cells
    have m1 := more_alloc t TCell.zeroCell (.inl rfl) rfl
    have hl : (t.alloc TCell.zeroCell).1.heap.length = t.heap.length + 1 := by simp [Tab.alloc]
    obtain ⟨new, h1, h2, h3, h3', h4, h5⟩ := ih (t.alloc TCell.zeroCell).1 (cells ++ [t.heap.length])
    have e : padZero (k + 1) t cells = padZero k (t.alloc TCell.zeroCell).1 (cells ++ [t.heap.length]) := rfl
    rw [e]
    refine ⟨t.heap.length :: new, by rw [h1]; simp, m1.trans h2, h3, h3', ?_, ?_⟩
    · intro x hx
      rcases List.mem_cons.mp hx with rfl | hx
      · have := h2.len; omega
      · exact h4 x hx
    · show foundAt _ _ :: idPlaces _ new = _
      rw [h5, List.replicate_succ, (h2.same _ (by omega)).1]
      congr 1
      unfold foundAt
      rw [cell_alloc, if_pos rfl]
      rfl

theorem rowShadow_seen {id ic : Nat} {t : Tab} {pre post : List TRow} (h : t.rows = pre ++ post) (hk : HasCells t (pre ++ post)) (hid : id < t.heap.length) :
    ∃ t' r rest, rowShadow id ic pre.length t = some t' ∧ t'.rows = pre ++ r :: rest ∧ More t t' ∧ HasCells t' (pre ++ r :: rest) ∧
      putBelow ic (.covered id) 1 (rowPlaces t post) = idPlaces t' r.cells :: rowPlaces t' rest ∧ rest = post.tail := by
  -- the row, with a new one at the end if needed
  have key : ∀ (t1 : Tab) (row : TRow) (rest : List TRow), t1.heap = t.heap → t1.rows = pre ++ row :: rest → HasCells t (pre ++ row :: rest) →
      ∃ t', (match t1.rows[pre.length]? with
        | none => none
        | some row =>
          let (t2, cells) := padZero (ic - row.cells.length) t1 row.cells
          let (t3, s) := t2.alloc { TCell.new with spannedBy := some id }
          let t4 := t3.modCell id fun c => { c with spansRows := c.spansRows ++ [s] }
          if ic > cells.length then none
          else some { t4 with rows := t4.rows.set pre.length { row with cells := cells.take ic ++ [s] ++ cells.drop ic } }) = some t' ∧
        ∃ r, t'.rows = pre ++ r :: rest ∧ More t t' ∧ HasCells t' (pre ++ r :: rest) ∧ idPlaces t' r.cells = putPlace ic (.covered id) (idPlaces t row.cells) := by
    intro t1 row rest e1 e2 hk1
    have hr : t1.rows[pre.length]? = some row := by rw [e2]; simp
    rw [hr]
    simp only
    obtain ⟨new, h1, h2, h3, _, h4, h5⟩ := padZero_seen (ic - row.cells.length) t1 row.cells
    have hlen : new.length = ic - row.cells.length := by
      have := congrArg List.length h5
      simpa [idPlaces] using this
    generalize padZero (ic - row.cells.length) t1 row.cells = q at *
    let c : TCell := { TCell.new with spannedBy := some id }
    have mt : More t q.1 := h2.heap e1 rfl
    have m3 := more_alloc q.1 c (.inr rfl) rfl
    have hl3 : (q.1.alloc c).1.heap.length = q.1.heap.length + 1 := by simp [Tab.alloc]
    let t4 := (q.1.alloc c).1.modCell id fun c => { c with spansRows := c.spansRows ++ [q.1.heap.length] }
    have hid3 : id < (q.1.alloc c).1.heap.length := by have := mt.len; omega
    have m4 : More (q.1.alloc c).1 t4 := more_mod hid3 fun _ => ⟨rfl, rfl, rfl, rfl, rfl⟩
    have hl4 : t4.heap.length = q.1.heap.length + 1 := by rw [← hl3]; exact heap_modCell _ _ _
    have hic : ¬ ic > q.2.length := by rw [h1, List.length_append, hlen]; omega
    have hrows : t4.rows = pre ++ row :: rest := by
      show q.1.rows = _
      rw [h3, e2]
    let cells' := q.2.take ic ++ [q.1.heap.length] ++ q.2.drop ic
    let t' : Tab := { t4 with rows := t4.rows.set pre.length { row with cells := cells' } }
    have m5 : More t4 t' := (More.refl t4).heap rfl rfl
    have mq : More q.1 t' := (m3.trans m4).trans m5
    have mall : More t t' := mt.trans mq
    have hrow : ∀ x ∈ row.cells, x < t.heap.length := hk1 row (by simp)
    have hq2 : ∀ x ∈ q.2, x < q.1.heap.length := by
      intro x hx
      rw [h1] at hx
      rcases List.mem_append.mp hx with hx | hx
      · exact lt_of_lt_of_le (hrow x hx) mt.len
      · exact h4 x hx
    refine ⟨t', if_neg hic, { row with cells := cells' }, ?_, mall, ?_, ?_⟩
    · show t4.rows.set _ _ = _
      rw [hrows]; simp
    · intro r' hr' x hx
      rcases List.mem_append.mp hr' with hr' | hr'
      · exact lt_of_lt_of_le (hk1 r' (List.mem_append_left _ hr') x hx) mall.len
      · rcases List.mem_cons.mp hr' with rfl | hr'
        · have hx' : x ∈ q.2.take ic ++ [q.1.heap.length] ++ q.2.drop ic := hx
          simp only [List.mem_append, List.mem_singleton] at hx'
          show x < t4.heap.length
          rcases hx' with (hx' | hx') | hx'
          · have := hq2 x (List.mem_of_mem_take hx'); omega
          · omega
          · have := hq2 x (List.mem_of_mem_drop hx'); omega
        · exact lt_of_lt_of_le (hk1 r' (List.mem_append_right _ (List.mem_cons_of_mem _ hr')) x hx) mall.len
    · show idPlaces t' cells' = _
      have e6 : idPlaces t' q.2 = idPlaces t row.cells ++ List.replicate (ic - row.cells.length) .free := by
        rw [seen_more mq hq2, h1]
        unfold idPlaces at *
        rw [List.map_append, h5]
        congr 1
        exact seen_more mt hrow
      have e7 : foundAt t' q.1.heap.length = .covered id := by
        rw [((m4.trans m5).same _ (by omega)).1]
        unfold foundAt
        rw [cell_alloc, if_pos rfl]
        rfl
      have e8 : idPlaces t' cells' = (idPlaces t' q.2).take ic ++ [foundAt t' q.1.heap.length] ++ (idPlaces t' q.2).drop ic := by
        unfold idPlaces
        simp [cells', List.map_take, List.map_drop]
      rw [e8, e7, e6]
      unfold putPlace
      have hlen' : (idPlaces t row.cells).length = row.cells.length := by simp [idPlaces]
      rw [hlen']
      rcases Nat.le_total ic row.cells.length with hle | hle
      · rw [Nat.sub_eq_zero_of_le hle]
        simp
      · rw [List.take_of_length_le (l := idPlaces t row.cells ++ _) (by simp [hlen']; omega), List.drop_of_length_le (l := idPlaces t row.cells ++ _) (by simp [hlen']; omega),
          List.take_of_length_le (l := idPlaces t row.cells) (by omega), List.drop_of_length_le (l := idPlaces t row.cells) (by omega)]
  unfold rowShadow
  cases post with
  | nil =>
    rw [List.append_nil] at h hk
    have hge : pre.length ≥ t.rows.length := by rw [h]
    simp only [if_pos hge]
    have hpl : t.rows.length = pre.length := by rw [h]
    rw [hpl]
    obtain ⟨t', g1, r, g2, g3, g4, g5⟩ := key { t with rows := t.rows ++ [⟨[], 0⟩] } ⟨[], 0⟩ [] rfl (by rw [h]) (by
      intro r hr x hx
      rcases List.mem_append.mp hr with hr | hr
      · exact hk r hr x hx
      · rw [List.mem_singleton.mp hr] at hx; simp at hx)
    refine ⟨t', r, [], g1, g2, g3, g4, ?_, rfl⟩
    show [putPlace ic (.covered id) []] = _
    rw [g5]
    rfl
  | cons row rest =>
    have hge : ¬ pre.length ≥ t.rows.length := by rw [h]; simp
    simp only [if_neg hge]
    obtain ⟨t', g1, r, g2, g3, g4, g5⟩ := key t row rest rfl h hk
    refine ⟨t', r, rest, g1, g2, g3, g4, ?_, rfl⟩
    show putPlace ic (.covered id) (idPlaces t row.cells) :: rowPlaces t rest = _
    rw [g5, seenRows_more g3 fun r' hr' => hk r' (List.mem_append_right _ (List.mem_cons_of_mem _ hr'))]

theorem putBelow_succ (k : Nat) (x : TPlace) (n : Nat) {rows : List (List TPlace)} {r : List TPlace} {rest : List (List TPlace)}
    (h : putBelow k x 1 rows = r :: rest) : putBelow k x (n + 1) rows = r :: putBelow k x n rest := by
  cases rows with
  | nil => simp only [putBelow, List.cons.injEq] at h ⊢; exact ⟨h.1, by rw [← h.2]⟩
  | cons row rows => simp only [putBelow, List.cons.injEq] at h ⊢; exact ⟨h.1, by rw [← h.2]⟩

theorem rowShadows_seen {id ic : Nat} : ∀ (n : Nat) (pre post : List TRow) (t : Tab), t.rows = pre ++ post → HasCells t (pre ++ post) → id < t.heap.length →
    ∃ t' post', rowShadows id ic n pre.length t = some t' ∧ t'.rows = pre ++ post' ∧ More t t' ∧ HasCells t' (pre ++ post') ∧
      rowPlaces t' post' = putBelow ic (.covered id) n (rowPlaces t post) ∧ post.length ≤ post'.length := by
  intro n
  induction n with
  | zero => intro pre post t h hk _; exact ⟨t, post, rfl, h, More.refl t, hk, rfl, le_refl _⟩
  | succ n ih =>
    intro pre post t h hk hid
    obtain ⟨t1, r, rest, g1, g2, g3, g4, g5, g6⟩ := rowShadow_seen (ic := ic) h hk hid
    obtain ⟨t', post', k1, k2, k3, k4, k5, k6⟩ := ih (pre ++ [r]) rest t1 (by rw [g2]; simp) (by simpa using g4) (lt_of_lt_of_le hid g3.len)
    refine ⟨t', r :: post', ?_, by rw [k2]; simp, g3.trans k3, by simpa using k4, ?_, ?_⟩
    · rw [rowShadows, g1]
      simpa using k1
    · rw [putBelow_succ ic _ n g5]
      show idPlaces t' r.cells :: rowPlaces t' post' = _
      rw [k5, seen_more k3 (g4 r (by simp))]
    · rw [List.length_cons]
      rw [g6, List.length_tail] at k6
      omega

theorem rowSpanCells_seen {rs : Nat → Int} {ir : Nat} : ∀ (ids : List Nat) (ic : Nat) (pre post : List TRow) (t : Tab), pre.length = ir + 1 → t.rows = pre ++ post →
    HasCells t (pre ++ post) → (∀ x ∈ ids, x < t.heap.length ∧ (foundAt t x = .cell x → (t.cell x).rowSpan = rs x) ∧ ∀ a, foundAt t x = .cell a → a = x) →
    ∃ t' post', rowSpanCells ir ic ids t = some t' ∧ t'.rows = pre ++ post' ∧ More t t' ∧ HasCells t' (pre ++ post') ∧
      rowPlaces t' post' = coverBelow rs ic (idPlaces t ids) (rowPlaces t post) ∧ post.length ≤ post'.length := by
  intro ids
  induction ids with
  | nil => intro ic pre post t _ h hk _; exact ⟨t, post, rfl, h, More.refl t, hk, rfl, le_refl _⟩
  | cons id ids ih =>
    intro ic pre post t hp h hk hv
    obtain ⟨v1, v2, v3⟩ := hv id (by simp)
    have hv' : ∀ t', More t t' → ∀ x ∈ ids, x < t'.heap.length ∧ (foundAt t' x = .cell x → (t'.cell x).rowSpan = rs x) ∧ ∀ a, foundAt t' x = .cell a → a = x := by
      intro t' m x hx
      obtain ⟨a, b, c⟩ := hv x (List.mem_cons_of_mem _ hx)
      obtain ⟨p, _, q⟩ := m.same x a
      rw [p, q]
      exact ⟨lt_of_lt_of_le a m.len, b, c⟩
    have hs : idPlaces t (id :: ids) = foundAt t id :: idPlaces t ids := rfl
    rw [hs]
    unfold rowSpanCells
    simp only
    have skip : ((t.cell id).rowSpan ≤ 1 ∨ (t.cell id).spannedBy.isSome ∨ (t.cell id).zero) →
        coverBelow rs ic (foundAt t id :: idPlaces t ids) (rowPlaces t post) = coverBelow rs (ic + 1) (idPlaces t ids) (rowPlaces t post) := by
      intro hc
      cases hf : foundAt t id with
      | covered a => simp [coverBelow]
      | free => simp [coverBelow]
      | cell a =>
        obtain rfl := v3 a hf
        rw [coverBelow]
        rcases hc with hc | hc | hc
        · rw [← v2 hf, extent_one hc]; rfl
        · unfold foundAt at hf
          split at hf
          · cases hf
          · split at hf
            · cases hf
            · rename_i e; rw [e] at hc; simp at hc
        · unfold foundAt at hf
          rw [if_pos hc] at hf
          cases hf
    split
    · rename_i h1
      rw [skip (.inl h1)]
      exact ih (ic + 1) pre post t hp h hk (hv' t (More.refl t))
    · rename_i h1
      split
      · rename_i h2
        rw [skip (.inr h2)]
        exact ih (ic + 1) pre post t hp h hk (hv' t (More.refl t))
      · rename_i h2
        have hf : foundAt t id = .cell id := by
          unfold foundAt
          rw [if_neg (fun h => h2 (Or.inr h))]
          cases e : (t.cell id).spannedBy with
          | none => rfl
          | some a => rw [e] at h2; simp at h2
        obtain ⟨t1, post1, g1, g2, g3, g4, g5, g6⟩ := rowShadows_seen (ic := ic) ((t.cell id).rowSpan - 1).toNat pre post t h hk v1
        rw [hp] at g1
        obtain ⟨t', post', k1, k2, k3, k4, k5, k6⟩ := ih (ic + 1) pre post1 t1 hp g2 g4 (hv' t1 g3)
        refine ⟨t', post', ?_, k2, g3.trans k3, k4, ?_, le_trans g6 k6⟩
        · rw [g1]; exact k1
        · rw [k5, hf, coverBelow, g5, ← v2 hf, extent_more h1, seen_more g3 fun x hx => (hv x (List.mem_cons_of_mem _ hx)).1]

theorem foundAt_cell {t : Tab} {x a : Nat} (h : foundAt t x = .cell a) : a = x := by
  unfold foundAt at h
  split at h
  · cases h
  · split at h
    · cases h
    · cases h; rfl

theorem Spans.more {cs rs : Nat → Int} {t t' : Tab} (h : Spans cs rs t) (m : More t t') : Spans cs rs t' := by
  intro x hx hf
  rcases Nat.lt_or_ge x t.heap.length with hl | hl
  · obtain ⟨a, b, c⟩ := m.same x hl
    rw [b, c]
    exact h x hl (a ▸ hf)
  · exact absurd hf (m.fresh x hl hx x)

theorem coverRows_succ (rs : Nat → Int) (n : Nat) (r : List TPlace) (rows : List (List TPlace)) : coverRows rs (n + 1) (r :: rows) = r :: coverRows rs n (coverBelow rs 0 r rows) := rfl

theorem rowSpanRows_seen {cs rs : Nat → Int} : ∀ (n : Nat) (pre post : List TRow) (t : Tab), n ≤ post.length → t.rows = pre ++ post → HasCells t (pre ++ post) → Spans cs rs t →
    ∃ t' post', rowSpanRows n pre.length t = some t' ∧ t'.rows = pre ++ post' ∧ More t t' ∧ HasCells t' (pre ++ post') ∧ rowPlaces t' post' = coverRows rs n (rowPlaces t post) := by
  intro n
  induction n with
  | zero => intro pre post t _ h hk _; exact ⟨t, post, rfl, h, More.refl t, hk, by cases post <;> rfl⟩
  | succ n ih =>
    intro pre post t hn h hk hs
    cases post with
    | nil => simp at hn
    | cons r post =>
      have hr : t.rows[pre.length]? = some r := by rw [h]; simp
      rw [List.length_cons] at hn
      obtain ⟨t1, post1, g1, g2, g3, g4, g5, g6⟩ := rowSpanCells_seen (rs := rs) (ir := pre.length) r.cells 0 (pre ++ [r]) post t (by simp) (by rw [h]; simp)
        (by rw [List.append_assoc]; exact hk) (fun x hx => ⟨hk r (by simp) x hx, fun hf => (hs x (hk r (by simp) x hx) hf).2, fun a ha => foundAt_cell ha⟩)
      obtain ⟨t', post', k1, k2, k3, k4, k5⟩ := ih (pre ++ [r]) post1 t1 (by omega) g2 g4 (hs.more g3)
      refine ⟨t', r :: post', ?_, by rw [k2]; simp, g3.trans k3, by rw [List.append_assoc] at k4; exact k4, ?_⟩
      · rw [rowSpanRows, hr]
        simp only
        rw [g1]
        simpa using k1
      · show idPlaces t' r.cells :: rowPlaces t' post' = coverRows rs (n + 1) (idPlaces t r.cells :: rowPlaces t post)
        rw [coverRows_succ, k5, g5, seen_more (g3.trans k3) (hk r (by simp))]

/-! ### The rows have the same length in the end -/

theorem padRows_seen (cc : Nat) : ∀ (post pre : List TRow) (t : Tab), t.rows = pre ++ post → HasCells t (pre ++ post) →
    ∃ post', (padRows cc post.length pre.length t).rows = pre ++ post' ∧ More t (padRows cc post.length pre.length t) ∧
      HasCells (padRows cc post.length pre.length t) (pre ++ post') ∧ (padRows cc post.length pre.length t).columnCount = t.columnCount ∧
      rowPlaces (padRows cc post.length pre.length t) post' = (rowPlaces t post).map fun row => row ++ List.replicate (cc - row.length) .free := by
  intro post
  induction post with
  | nil => intro pre t h hk; exact ⟨[], h, More.refl t, hk, rfl, rfl⟩
  | cons r post ih =>
    intro pre t h hk
    have hr : t.rows[pre.length]? = some r := by rw [h]; simp
    obtain ⟨new, h1, h2, h3, h3', h4, h5⟩ := padZero_seen (cc - r.cells.length) t r.cells
    rw [List.length_cons, padRows, hr]
    simp only
    generalize padZero (cc - r.cells.length) t r.cells = q at *
    have e : q.1.rows.set pre.length { r with cells := q.2 } = (pre ++ [{ r with cells := r.cells ++ new }]) ++ post := by
      rw [h3, h, h1]; simp
    rw [e, show pre.length + 1 = (pre ++ [{ r with cells := r.cells ++ new }]).length by simp]
    let t2 : Tab := { q.1 with rows := (pre ++ [{ r with cells := r.cells ++ new }]) ++ post }
    have m2 : More t t2 := h2.heap rfl rfl
    have hkr : ∀ x ∈ r.cells, x < t.heap.length := hk r (by simp)
    have hkn : ∀ x ∈ r.cells ++ new, x < t2.heap.length := by
      intro x hx
      rcases List.mem_append.mp hx with hx | hx
      · exact lt_of_lt_of_le (hkr x hx) m2.len
      · exact h4 x hx
    have hk2 : HasCells t2 ((pre ++ [{ r with cells := r.cells ++ new }]) ++ post) := by
      intro r' hr'
      rcases List.mem_append.mp hr' with hr' | hr'
      · rcases List.mem_append.mp hr' with hr' | hr'
        · exact hk.more m2 r' (List.mem_append_left _ hr')
        · rw [List.mem_singleton.mp hr']; exact hkn
      · exact hk.more m2 r' (List.mem_append_right _ (List.mem_cons_of_mem _ hr'))
    obtain ⟨post', k1, k2, k3, k4, k5⟩ := ih (pre ++ [{ r with cells := r.cells ++ new }]) t2 rfl hk2
    refine ⟨{ r with cells := r.cells ++ new } :: post', by rw [k1]; simp, m2.trans k2, by rw [List.append_assoc] at k3; exact k3, k4.trans h3', ?_⟩
    show idPlaces _ (r.cells ++ new) :: rowPlaces _ post' = _ :: _
    rw [k5, seen_more k2 hkn, seenRows_more m2 fun r' hr' => hk r' (List.mem_append_right _ (List.mem_cons_of_mem _ hr'))]
    congr 1
    have e1 : idPlaces t2 (r.cells ++ new) = idPlaces t2 r.cells ++ idPlaces q.1 new := by unfold idPlaces; rw [List.map_append]; rfl
    rw [e1, h5, seen_more m2 hkr]
    simp [idPlaces]

theorem indexCells_more (ir : Nat) : ∀ (ids : List Nat) (ic : Nat) (t : Tab), (∀ x ∈ ids, x < t.heap.length) →
    More t (indexCells ir ic ids t) ∧ (indexCells ir ic ids t).rows = t.rows ∧ (indexCells ir ic ids t).columnCount = t.columnCount := by
  intro ids
  induction ids with
  | nil => intro ic t _; exact ⟨More.refl t, rfl, rfl⟩
  | cons id ids ih =>
    intro ic t hv
    have m1 : More t (t.modCell id fun c => { c with rowIdx := ir, cellIdx := ic }) := more_mod (hv id (by simp)) fun _ => ⟨rfl, rfl, rfl, rfl, rfl⟩
    obtain ⟨h1, h2, h3⟩ := ih (ic + 1) _ fun x hx => lt_of_lt_of_le (hv x (List.mem_cons_of_mem _ hx)) m1.len
    exact ⟨m1.trans h1, h2, h3⟩

theorem indexRows_more : ∀ (rows : List TRow) (ir : Nat) (t : Tab), HasCells t rows →
    More t (indexRows ir rows t) ∧ (indexRows ir rows t).rows = t.rows ∧ (indexRows ir rows t).columnCount = t.columnCount := by
  intro rows
  induction rows with
  | nil => intro ir t _; exact ⟨More.refl t, rfl, rfl⟩
  | cons r rows ih =>
    intro ir t hv
    obtain ⟨h1, h2, h3⟩ := indexCells_more ir r.cells 0 t (hv r (by simp))
    obtain ⟨k1, k2, k3⟩ := ih (ir + 1) (indexCells ir 0 r.cells t) fun r' hr' x hx => lt_of_lt_of_le (hv r' (List.mem_cons_of_mem _ hr') x hx) h1.len
    exact ⟨h1.trans k1, k2.trans h2, k3.trans h3⟩

theorem maxCells_seen (t : Tab) (rows : List TRow) : maxCells rows = longest (rowPlaces t rows) := by
  unfold maxCells longest
  have : ∀ m, rows.foldl (fun m r => if r.cells.length > m then r.cells.length else m) m = ((rowPlaces t rows).map List.length).foldl max m := by
    induction rows with
    | nil => intro m; rfl
    | cons r rows ih =>
      intro m
      have e : (idPlaces t r.cells).length = r.cells.length := by simp [idPlaces]
      show List.foldl _ (if r.cells.length > m then r.cells.length else m) rows = ((rowPlaces t rows).map List.length).foldl max (max m (idPlaces t r.cells).length)
      rw [ih, e]
      congr 1
      split <;> omega
  exact this 0

theorem normalize_seen {t : Tab} (hk : HasCells t t.rows) : More t (normalize t) ∧ HasCells (normalize t) (normalize t).rows ∧ (normalize t).columnCount = longest (rowPlaces t t.rows) ∧
    rowPlaces (normalize t) (normalize t).rows = (rowPlaces t t.rows).map fun row => row ++ List.replicate (longest (rowPlaces t t.rows) - row.length) .free := by
  unfold normalize
  simp only
  rw [maxCells_seen t]
  obtain ⟨rows', h1, h2, h3, h4, h5⟩ := padRows_seen (longest (rowPlaces t t.rows)) t.rows [] { t with columnCount := longest (rowPlaces t t.rows) } rfl hk
  rw [List.length_nil] at h1 h2 h3 h4 h5
  generalize padRows (longest (rowPlaces t t.rows)) t.rows.length 0 { t with columnCount := longest (rowPlaces t t.rows) } = q at *
  rw [List.nil_append] at h1 h3
  rw [h1]
  obtain ⟨k1, k2, k3⟩ := indexRows_more rows' 0 q h3
  rw [k2, k3, h1]
  exact ⟨(More.heap (u := t) (u' := q) h2 rfl rfl).trans k1, h3.more k1, h4, by rw [seenRows_more k1 h3, h5]; rfl⟩

/-! ### All together -/

theorem makeCells_seen (cs : Classes) (sty : Styles) (n : Nat) : ∀ (xcs : List TableCell) (ic : Nat) (heap : List TCell),
    ∃ new, makeCells cs sty n ic xcs heap = (heap ++ new, List.range' heap.length xcs.length) ∧
      new.map (fun c => (c.zero, c.spannedBy, c.colSpan, c.rowSpan, c.iss, c.minHeight)) = xcs.map fun x => (false, none, x.colSpan, x.rowSpan, x.iss, (0 : ℚ)) := by
  intro xcs
  induction xcs with
  | nil => intro ic heap; exact ⟨[], by simp [makeCells]⟩
  | cons xc xcs ih =>
    intro ic heap
    obtain ⟨new, h1, h2⟩ := ih (ic + 1) (heap ++ [{ TCell.new with styles := cellStyles cs sty n ic xc.st, colSpan := xc.colSpan, rowSpan := xc.rowSpan, iss := xc.iss }])
    refine ⟨{ TCell.new with styles := cellStyles cs sty n ic xc.st, colSpan := xc.colSpan, rowSpan := xc.rowSpan, iss := xc.iss } :: new, ?_, ?_⟩
    · rw [makeCells]
      simp only [h1]
      simp [List.range'_succ]
    · simp [h2, TCell.new]

/-- The cells of rows are numbered in order. -/
def numbered : Nat → List TableRow → List (List Nat)
  | _, [] => []
  | a, r :: rs => List.range' a r.cells.length :: numbered (a + r.cells.length) rs

theorem makeRows_seen (cs : Classes) (sty : Styles) (n : Nat) : ∀ (xrs : List TableRow) (ir : Nat) (heap : List TCell),
    ∃ new rows, makeRows cs sty n ir xrs heap = (heap ++ new, rows) ∧ rows.map TRow.cells = numbered heap.length xrs ∧
      new.map (fun c => (c.zero, c.spannedBy, c.colSpan, c.rowSpan, c.iss, c.minHeight)) = (xrs.flatMap (·.cells)).map fun x => (false, none, x.colSpan, x.rowSpan, x.iss, (0 : ℚ)) := by
  intro xrs
  induction xrs with
  | nil => intro ir heap; exact ⟨[], [], by simp [makeRows, numbered]⟩
  | cons xr xrs ih =>
    intro ir heap
    obtain ⟨new1, a1, a2⟩ := makeCells_seen cs (rowStyles cs sty n ir xr.st) xr.cells.length xr.cells 0 heap
    obtain ⟨new2, rows, b1, b2, b3⟩ := ih (ir + 1) (heap ++ new1)
    refine ⟨new1 ++ new2, { cells := List.range' heap.length xr.cells.length, height := 0 } :: rows, ?_, ?_, ?_⟩
    · rw [makeRows]
      simp only [a1, b1]
      simp
    · have hl : new1.length = xr.cells.length := by simpa using congrArg List.length a2
      rw [List.map_cons, b2, numbered, List.length_append, hl]
    · rw [List.map_append, a2, b3]; simp

theorem placesOf_numbered (all : List TableCell) : ∀ (cells : List TableCell) (a : Nat), (∀ i < cells.length, all[a + i]? = cells[i]?) →
    ((List.range' a cells.length).map TPlace.cell).flatMap (besides fun x => (all[x]?.map (·.colSpan)).getD 0) = placesOf a cells := by
  intro cells
  induction cells with
  | nil => intro a _; rfl
  | cons c cells ih =>
    intro a h
    rw [List.length_cons, List.range'_succ, List.map_cons, List.flatMap_cons, ih (a + 1) (by
      intro i hi
      have := h (i + 1) (by rw [List.length_cons]; omega)
      rw [show a + 1 + i = a + (i + 1) by omega, this]
      rfl)]
    have h0 := h 0 (by simp)
    rw [Nat.add_zero] at h0
    simp only [besides, placesOf, h0]
    rfl

theorem placesIn_numbered (all : List TableCell) : ∀ (rows : List TableRow) (a : Nat), all.drop a = rows.flatMap (·.cells) →
    (numbered a rows).map (fun ids => (ids.map TPlace.cell).flatMap (besides fun x => (all[x]?.map (·.colSpan)).getD 0)) = placesIn a rows := by
  intro rows
  induction rows with
  | nil => intro a _; rfl
  | cons r rows ih =>
    intro a h
    rw [List.flatMap_cons] at h
    rw [numbered, List.map_cons, placesIn, ih (a + r.cells.length) (by rw [← List.drop_drop, h]; simp)]
    congr 1
    refine placesOf_numbered all r.cells a fun i hi => ?_
    rw [← List.getElem?_drop, h, List.getElem?_append_left hi]

theorem numbered_bound : ∀ (rows : List TableRow) (a : Nat), ∀ ids ∈ numbered a rows, ∀ x ∈ ids, x < a + (rows.flatMap (·.cells)).length := by
  intro rows
  induction rows with
  | nil => intro a ids h; simp [numbered] at h
  | cons r rows ih =>
    intro a ids h x hx
    rw [List.flatMap_cons, List.length_append]
    rcases List.mem_cons.mp h with rfl | h
    · have := List.mem_range'_1.mp hx; omega
    · have := ih _ ids h x hx; omega

theorem processSpans_seen (cs : Classes) (sty : Styles) (xrows : List TableRow) :
    ∃ t, processSpans (makeTable cs sty xrows) = some t ∧ HasCells t t.rows ∧ rowPlaces t t.rows = tablePlaces xrows ∧
      t.columnCount = longest (coverRows (rowSpanOf xrows) xrows.length (placesIn 0 xrows)) ∧ ∀ x, (t.cell x).minHeight = 0 := by
  obtain ⟨new, rows, h1, h2, h3⟩ := makeRows_seen cs sty xrows.length xrows 0 []
  rw [List.length_nil] at h2
  rw [List.nil_append] at h1
  let t0 : Tab := { heap := new, rows := rows, columnCount := 0 }
  have e0 : makeTable cs sty xrows = t0 := by unfold makeTable; rw [h1]
  have hlen : new.length = (xrows.flatMap (·.cells)).length := by simpa using congrArg List.length h3
  have hcell : ∀ x < new.length, foundAt t0 x = .cell x ∧ (t0.cell x).colSpan = colSpanOf xrows x ∧ (t0.cell x).rowSpan = rowSpanOf xrows x := by
    intro x hx
    have hx' : x < (xrows.flatMap (·.cells)).length := by omega
    have e := congrArg (fun l => l[x]?) h3
    simp only [List.getElem?_map, List.getElem?_eq_getElem hx, List.getElem?_eq_getElem hx', Option.map_some, Option.some.injEq, Prod.mk.injEq] at e
    have hc : t0.cell x = new[x] := by unfold Tab.cell; rw [List.getD_eq_getElem?_getD, List.getElem?_eq_getElem hx]; rfl
    unfold foundAt colSpanOf rowSpanOf
    rw [hc, e.1, e.2.1, e.2.2.1, e.2.2.2.1, List.getElem?_eq_getElem hx']
    exact ⟨rfl, rfl, rfl⟩
  have hin : ∀ r ∈ rows, ∀ x ∈ r.cells, x < new.length := by
    intro r hr x hx
    have := numbered_bound xrows 0 r.cells (by rw [← h2]; exact List.mem_map_of_mem hr) x hx
    omega
  have hs0 : Spans (colSpanOf xrows) (rowSpanOf xrows) t0 := fun x hx _ => (hcell x hx).2
  obtain ⟨rows1, c1, c2, c3, c4⟩ := colSpanRows_seen (cs := colSpanOf xrows) rows [] t0 rfl (by intro r hr; simp at hr)
    fun r hr x hx => ⟨hin r hr x hx, (hcell x (hin r hr x hx)).1, (hcell x (hin r hr x hx)).2.1⟩
  have e1 : colSpanRows rows.length ([] : List TRow).length t0 = processColumnSpans t0 := rfl
  rw [e1, List.nil_append] at c1 c3
  rw [e1] at c2 c4
  have hseen0 : rowPlaces t0 rows = (numbered 0 xrows).map (List.map TPlace.cell) := by
    rw [← h2, List.map_map]
    exact List.map_congr_left fun r hr => List.map_congr_left fun x hx => (hcell x (hin r hr x hx)).1
  have hp : rowPlaces (processColumnSpans t0) rows1 = placesIn 0 xrows := by
    rw [c4, hseen0, List.map_map, ← placesIn_numbered (xrows.flatMap (·.cells)) xrows 0 (by simp)]
    exact List.map_congr_left fun _ _ => rfl
  have hl1 : rows1.length = xrows.length := by
    have e := congrArg List.length c4
    have e' := congrArg List.length hseen0
    have e'' := congrArg List.length h2
    have hn : ∀ (l : List TableRow) (a : Nat), (numbered a l).length = l.length := by
      intro l
      induction l with
      | nil => intro a; rfl
      | cons r l ih => intro a; simp [numbered, ih]
    simp [rowPlaces, hn] at e e' e''
    omega
  obtain ⟨t1, rows2, r1, r2, r3, r4, r5⟩ := rowSpanRows_seen (cs := colSpanOf xrows) (rs := rowSpanOf xrows) rows1.length [] rows1 (processColumnSpans t0) (le_refl _) c1 c3 (hs0.more c2)
  rw [List.nil_append] at r2 r4
  have e2 : processRowSpans (processColumnSpans t0) = some t1 := by unfold processRowSpans; rw [c1]; exact r1
  rw [hp, hl1] at r5
  have hk1 : HasCells t1 t1.rows := by rw [r2]; exact r4
  have hz : ∀ x, (t0.cell x).minHeight = 0 := by
    intro x
    unfold Tab.cell
    rw [List.getD_eq_getElem?_getD]
    have e := congrArg (fun l => l[x]?) h3
    simp only [List.getElem?_map] at e
    show ((new[x]?).getD TCell.new).minHeight = 0
    cases e5 : new[x]? with
    | none => rfl
    | some c =>
      rw [e5] at e
      cases e6 : (xrows.flatMap (·.cells))[x]? with
      | none => rw [e6] at e; simp at e
      | some d =>
        rw [e6] at e
        simp only [Option.map_some, Option.some.injEq, Prod.mk.injEq] at e
        exact e.2.2.2.2.2
  obtain ⟨n0, n1, n2, n3⟩ := normalize_seen hk1
  rw [r2, r5] at n2 n3
  refine ⟨normalize t1, ?_, n1, n3, n2, ((c2.trans r3).trans n0).flat hz⟩
  rw [e0, processSpans, e2]
  rfl

/-- Same up to sizes: same places. -/
theorem Shape.samePlaces {t t' : Tab} (h : Shape t t') : rowPlaces t' t'.rows = rowPlaces t t.rows := by
  obtain ⟨_, _, h3, h4, h5⟩ := h
  apply List.ext_getElem?
  intro i
  have hf : foundAt t' = foundAt t := by
    funext x
    obtain ⟨⟨_, _, _, _, a, _, _, b⟩, _⟩ := h5 x
    unfold foundAt
    rw [a, b]
  have h4i := h4 i
  unfold rowAt at h4i
  unfold rowPlaces idPlaces
  rw [List.getElem?_map, List.getElem?_map, hf]
  cases e : t.rows[i]? with
  | none =>
    have : t'.rows[i]? = none := by
      rw [List.getElem?_eq_none_iff] at e ⊢
      omega
    rw [this]
  | some r =>
    cases e' : t'.rows[i]? with
    | none =>
      rw [List.getElem?_eq_none_iff] at e'
      have := (List.getElem?_eq_some_iff.mp e).1
      omega
    | some r' =>
      rw [e, e'] at h4i
      simp only [Option.getD_some] at h4i
      simp only [Option.map_some, h4i]

/-- What is known of the cells from the file. -/
theorem makeTable_cells (cs : Classes) (sty : Styles) (xrows : List TableRow) :
    (makeTable cs sty xrows).heap.map (fun c => (c.zero, c.spannedBy, c.colSpan, c.rowSpan, c.iss, c.minHeight)) = (xrows.flatMap (·.cells)).map fun x => (false, none, x.colSpan, x.rowSpan, x.iss, (0 : ℚ)) := by
  obtain ⟨new, rows, h1, _, h3⟩ := makeRows_seen cs sty xrows.length xrows 0 []
  unfold makeTable
  rw [h1]
  exact h3

/-- The places of the table that is laid out. -/
theorem transformTable_places {σ : Type} {m : Measure σ} {cs : Classes} {page : Page} {curr : Styles} {st : Styled} {xrows : List TableRow} {s s' : σ} {t : Tab}
    (h : transformTable m cs page curr st xrows s = some (t, s')) :
    rowPlaces t t.rows = tablePlaces xrows ∧ t.columnCount = longest (coverRows (rowSpanOf xrows) xrows.length (placesIn 0 xrows)) := by
  obtain ⟨t1, p1, _, p3, p4, _⟩ := processSpans_seen cs (st.mutatedStyles cs curr) xrows
  obtain ⟨hf, _⟩ := makeTable_fresh cs (st.mutatedStyles cs curr) xrows
  obtain ⟨t1', q1, q2⟩ := processSpans_spec hf
  obtain rfl : t1 = t1' := Option.some.inj (p1.symm.trans q1)
  obtain ⟨t2, _, w1, w2, _⟩ := assignColumnWidths_spec q2 (page.effectiveWidth (st.mutatedStyles cs curr).dim.width)
  obtain ⟨v, _⟩ := assignHeights_spec m (q2.shape w2).inv s
  unfold transformTable at h
  simp only [p1, w1, Option.some.injEq] at h
  have e : t = (assignHeights m t2 s).1 := by rw [h]
  have hs : Shape t1 t := e ▸ w2.trans v
  exact ⟨hs.samePlaces.trans p3, hs.2.1.trans p4⟩

theorem foldl_max_eq : ∀ (l : List Nat) (m : Nat), l.foldl max m = max m (l.foldl max 0) := by
  intro l
  induction l with
  | nil => intro m; simp
  | cons a l ih => intro m; rw [List.foldl_cons, List.foldl_cons, ih (max m a), ih (max 0 a)]; omega

theorem longest_le {rows : List (List TPlace)} {r : List TPlace} (h : r ∈ rows) : r.length ≤ longest rows := by
  unfold longest
  induction rows with
  | nil => simp at h
  | cons a rows ih =>
    rw [List.map_cons, List.foldl_cons, foldl_max_eq]
    rcases List.mem_cons.mp h with rfl | h
    · omega
    · have := ih h; omega

/-- Filling up does not make the longest row longer. -/
theorem longest_filled (rows : List (List TPlace)) : longest (rows.map fun row => row ++ List.replicate (longest rows - row.length) .free) = longest rows := by
  have key : ∀ (l : List (List TPlace)) (n : Nat), (∀ r ∈ l, r.length ≤ n) → longest (l.map fun row => row ++ List.replicate (n - row.length) .free) = if l = [] then 0 else n := by
    intro l n
    induction l with
    | nil => intro _; rfl
    | cons a l ih =>
      intro h
      have hi := ih fun r hr => h r (List.mem_cons_of_mem _ hr)
      have ha := h a (by simp)
      rw [if_neg (by simp)]
      unfold longest at hi ⊢
      rw [List.map_cons, List.map_cons, List.foldl_cons, foldl_max_eq, hi]
      rw [List.length_append, List.length_replicate]
      split <;> omega
  rw [key rows _ fun r hr => longest_le hr]
  split
  · rename_i e; rw [e]; rfl
  · rfl

end Verif.Proofs
