import Verif.Model.RenderTable
/-
Two sets of operations that do the same render the same tables (for C92).
-/
namespace Verif.Proofs
open Verif.Go Verif.Model

/-- Whatever `ops` does in a state, `ops'` does in the related one. -/
structure SimOps {σ τ : Type} (R : σ → τ → Prop) (ops : TableOps σ) (ops' : TableOps τ) : Prop where
  getXY : ∀ s u, R s u → ops'.getXY u = ops.getXY s
  prevent : ∀ s u, R s u → ops'.prevent u = ops.prevent s
  setX : ∀ x s u, R s u → R (ops.setX x s) (ops'.setX x u)
  setY : ∀ y s u, R s u → R (ops.setY y s) (ops'.setY y u)
  add : ∀ s u s', R s u → ops.addPage s = some s' → ∃ u', ops'.addPage u = some u' ∧ R s' u'
  cell : ∀ pa id s u s', R s u → ops.renderCell pa id s = some s' → ∃ u', ops'.renderCell pa id u = some u' ∧ R s' u'

variable {σ τ : Type} {R : σ → τ → Prop} {ops : TableOps σ} {ops' : TableOps τ} {t : Tab}

theorem renderRowCells_sim (h : SimOps R ops ops') {y : ℚ} : ∀ (ids : List Nat) (x : ℚ) (s s' : σ) (u : τ), R s u →
    renderRowCells ops t y x ids s = some s' → ∃ u', renderRowCells ops' t y x ids u = some u' ∧ R s' u'
  | [], x, s, s', u, hr, e => by
    simp only [renderRowCells, Option.some.injEq] at e
    exact ⟨u, rfl, e ▸ hr⟩
  | id :: ids, x, s, s', u, hr, e => by
    unfold renderRowCells at e ⊢
    simp only at e ⊢
    by_cases hc : (t.cell id).spannedBy.isSome ∨ (t.cell id).zero
    · rw [if_pos hc] at e ⊢
      exact renderRowCells_sim h ids _ _ _ _ hr e
    · rw [if_neg hc] at e ⊢
      cases h1 : ops.renderCell { x0 := x, y0 := y, x1 := x + (t.dim id).1, y1 := y + (t.dim id).2 } id s with
      | none => rw [h1] at e; exact absurd e (by simp)
      | some s1 =>
        rw [h1] at e
        obtain ⟨u1, h2, h3⟩ := h.cell _ _ _ _ _ hr h1
        rw [h2]
        exact renderRowCells_sim h ids _ _ _ _ h3 e

theorem renderRow_sim (h : SimOps R ops ops') {x0 y : ℚ} {row : TRow} {s : σ} {u : τ} {q : ℚ × σ} (hr : R s u)
    (e : renderRow ops t x0 row y s = some q) : ∃ u', renderRow ops' t x0 row y u = some (q.1, u') ∧ R q.2 u' := by
  unfold renderRow at e ⊢
  cases h1 : renderRowCells ops t y x0 row.cells s with
  | none => rw [h1] at e; exact absurd e (by simp)
  | some s1 =>
    simp only [h1, Option.some.injEq] at e
    obtain ⟨u1, h2, h3⟩ := renderRowCells_sim h _ _ _ _ _ hr h1
    rw [h2, ← e]
    exact ⟨_, rfl, h.setX _ _ _ h3⟩

theorem renderHeader_sim (h : SimOps R ops ops') {x0 : ℚ} : ∀ (rows : List TRow) (y : ℚ) (s : σ) (u : τ) (q : ℚ × σ), R s u →
    renderHeader ops t x0 rows y s = some q → ∃ u', renderHeader ops' t x0 rows y u = some (q.1, u') ∧ R q.2 u'
  | [], y, s, u, q, hr, e => by
    simp only [renderHeader, Option.some.injEq] at e
    exact ⟨u, by rw [← e]; rfl, by rw [← e]; exact hr⟩
  | r :: rs, y, s, u, q, hr, e => by
    unfold renderHeader at e ⊢
    cases h1 : renderRow ops t x0 r y s with
    | none => rw [h1] at e; exact absurd e (by simp)
    | some q1 =>
      rw [h1] at e
      obtain ⟨u1, h2, h3⟩ := renderRow_sim h hr h1
      rw [h2]
      exact renderHeader_sim h rs _ _ _ _ h3 e

theorem renderRows_sim (h : SimOps R ops ops') {rh : Int} {bottom x0 : ℚ} : ∀ (rows : List TRow) (i : Nat) (y : ℚ) (s : σ) (u : τ) (q : ℚ × σ),
    R s u → renderRows ops t rh bottom x0 i rows y s = some q → ∃ u', renderRows ops' t rh bottom x0 i rows y u = some (q.1, u') ∧ R q.2 u'
  | [], i, y, s, u, q, hr, e => by
    simp only [renderRows, Option.some.injEq] at e
    exact ⟨u, by rw [← e]; rfl, by rw [← e]; exact hr⟩
  | r :: rs, i, y, s, u, q, hr, e => by
    have fin : ∀ (y2 : ℚ) (s2 : σ) (u2 : τ), R s2 u2 → (match renderRow ops t x0 r y2 s2 with
        | none => none
        | some (y3, s3) => renderRows ops t rh bottom x0 (i + 1) rs y3 s3) = some q → ∃ u', (match renderRow ops' t x0 r y2 u2 with
        | none => none
        | some (y3, s3) => renderRows ops' t rh bottom x0 (i + 1) rs y3 s3) = some (q.1, u') ∧ R q.2 u' := by
      intro y2 s2 u2 hr2 e
      cases h1 : renderRow ops t x0 r y2 s2 with
      | none => rw [h1] at e; exact absurd e (by simp)
      | some q1 =>
        rw [h1] at e
        obtain ⟨u1, h2, h3⟩ := renderRow_sim h hr2 h1
        rw [h2]
        exact renderRows_sim h rs _ _ _ _ _ h3 e
    unfold renderRows at e ⊢
    simp only at e ⊢
    rw [h.prevent s u hr]
    by_cases hc : (!ops.prevent s) = true ∧ y + t.maxCellHeight r > bottom
    · simp only [if_pos hc] at e ⊢
      cases h1 : ops.addPage s with
      | none => rw [h1] at e; exact absurd e (by simp)
      | some s1 =>
        obtain ⟨u1, h2, h3⟩ := h.add _ _ _ hr h1
        simp only [h1] at e
        simp only [h2, h.getXY _ _ h3]
        by_cases hd : i > 0 ∧ rh > 0
        · simp only [if_pos hd] at e ⊢
          cases h4 : renderHeader ops t x0 (t.rows.take rh.toNat) (ops.getXY s1).2 s1 with
          | none => rw [h4] at e; exact absurd e (by simp)
          | some q1 =>
            obtain ⟨u2, h5, h6⟩ := renderHeader_sim h _ _ _ _ _ h3 h4
            rw [h4] at e
            rw [h5]
            exact fin _ _ _ h6 e
        · simp only [if_neg hd] at e ⊢
          exact fin _ _ _ h3 e
    · simp only [if_neg hc] at e ⊢
      exact fin _ _ _ hr e

theorem renderLaid_sim (h : SimOps R ops ops') {rh : Int} {bottom : ℚ} {s s' : σ} {u : τ} (hr : R s u) (e : renderLaid ops t rh bottom s = some s') :
    ∃ u', renderLaid ops' t rh bottom u = some u' ∧ R s' u' := by
  have fin : ∀ (x0 y1 : ℚ) (s1 : σ) (u1 : τ), R s1 u1 → (match renderRows ops t rh bottom x0 0 t.rows y1 s1 with
      | none => none
      | some (y2, s2) => some (ops.setY y2 s2)) = some s' → ∃ u', (match renderRows ops' t rh bottom x0 0 t.rows y1 u1 with
      | none => none
      | some (y2, s2) => some (ops'.setY y2 s2)) = some u' ∧ R s' u' := by
    intro x0 y1 s1 u1 hr1 e
    cases h1 : renderRows ops t rh bottom x0 0 t.rows y1 s1 with
    | none => rw [h1] at e; exact absurd e (by simp)
    | some q =>
      obtain ⟨u2, h2, h3⟩ := renderRows_sim h _ _ _ _ _ _ hr1 h1
      simp only [h1, Option.some.injEq] at e
      rw [h2, ← e]
      exact ⟨_, rfl, h.setY _ _ _ h3⟩
  unfold renderLaid at e ⊢
  simp only at e ⊢
  rw [h.prevent s u hr, h.getXY s u hr]
  by_cases hc : (!ops.prevent s) = true ∧ (ops.getXY s).2 + headHeight t rh > bottom
  · simp only [if_pos hc] at e ⊢
    cases h1 : ops.addPage s with
    | none => rw [h1] at e; exact absurd e (by simp)
    | some s1 =>
      obtain ⟨u1, h2, h3⟩ := h.add _ _ _ hr h1
      simp only [h1] at e
      simp only [h2, h.getXY _ _ h3]
      exact fin _ _ _ _ h3 e
  · simp only [if_neg hc] at e ⊢
    exact fin _ _ _ _ hr e

/-- After the rows the position is at the left edge of the table. -/
theorem renderRows_left {rh : Int} {bottom x0 : ℚ} : ∀ (rows : List TRow) (i : Nat) (y : ℚ) (s : σ) (q : ℚ × σ), rows ≠ [] →
    renderRows ops t rh bottom x0 i rows y s = some q → ∃ s1, q.2 = ops.setX x0 s1
  | [], i, y, s, q, hn, e => absurd rfl hn
  | r :: rs, i, y, s, q, _, e => by
    unfold renderRows at e
    simp only at e
    split at e
    · exact absurd e (by simp)
    · split at e
      · exact absurd e (by simp)
      · rename_i y3 s3 h3
        cases rs with
        | nil =>
          simp only [renderRows, Option.some.injEq] at e
          unfold renderRow at h3
          split at h3
          · exact absurd h3 (by simp)
          · simp only [Option.some.injEq, Prod.mk.injEq] at h3
            exact ⟨_, by rw [← e]; exact h3.2.symm⟩
        | cons r' rs' => exact renderRows_left (r' :: rs') _ _ _ _ (by simp) e

theorem renderLaid_left {rh : Int} {bottom : ℚ} {s s' : σ} (hn : t.rows ≠ []) (e : renderLaid ops t rh bottom s = some s') :
    ∃ y s1, s' = ops.setY y (ops.setX (ops.getXY s).1 s1) := by
  unfold renderLaid at e
  simp only at e
  split at e
  · exact absurd e (by simp)
  · split at e
    · exact absurd e (by simp)
    · rename_i y2 s2 h2
      obtain ⟨s1, h1⟩ := renderRows_left _ _ _ _ _ hn h2
      simp only [Option.some.injEq] at e
      exact ⟨y2, s1, by rw [← e, ← h1]⟩

end Verif.Proofs
