import Verif.Proofs.Places
import Verif.Props.Table
/-
Property C122: the places of a table, exactly (/repo/table.go).
-/
namespace Verif.Props
open Verif.Go Verif.Model Verif.Proofs Verif.Spec

variable {σ : Type} {m : Measure σ} {cs : Classes} {page : Page} {curr : Styles} {st : Styled} {xrows : List TableRow} {s s' : σ} {t : Tab}

/-- C122: what is at each place of a table: the rule of `tablePlaces`, whatever the spans. -/
theorem C122_places (h : transformTable m cs page curr st xrows s = some (t, s')) : t.rows.map (fun r => r.cells.map (foundAt t)) = tablePlaces xrows :=
  (transformTable_places h).1

/-- C122: and how many columns there are. -/
theorem C122_columns (h : transformTable m cs page curr st xrows s = some (t, s')) : t.columnCount = longest (tablePlaces xrows) := by
  rw [(transformTable_places h).2]
  exact (longest_filled _).symm

/-- C122: the cell found under a number is the one with this number in the file. -/
theorem C122_cells (h : transformTable m cs page curr st xrows s = some (t, s')) {a : Nat} {c : TableCell} (ha : (xrows.flatMap (·.cells))[a]? = some c) :
    foundAt t a = .cell a ∧ (t.cell a).iss = c.iss ∧ (t.cell a).colSpan = c.colSpan ∧ (t.cell a).rowSpan = c.rowSpan := by
  obtain ⟨H0, orig, cws, hl, hf, _⟩ := table_laid_of h
  have e := congrArg (fun l => l[a]?) (makeTable_cells cs (st.mutatedStyles cs curr) xrows)
  rw [hf.heap] at e
  simp only [List.getElem?_map, ha, Option.map_some, Option.map_eq_some_iff, Prod.mk.injEq] at e
  obtain ⟨d, e1, e2, e3, e4, e5, e6, _⟩ := e
  have hlt : a < H0.length := (List.getElem?_eq_some_iff.mp e1).1
  have hd : H0.getD a TCell.new = d := by rw [List.getD_eq_getElem?_getD, e1]; rfl
  obtain ⟨_, q2, q3, q4, q5, q6⟩ := hl.span.inv.authored a hlt
  rw [hd] at q2 q3 q4
  unfold foundAt
  rw [q2, q3, q4, q5, q6, e4, e5, e6]
  exact ⟨rfl, rfl, rfl, rfl⟩

/-- C122: in a table without row spans the rows are as in the file, filled up to the longest one. -/
theorem C122_no_rowspans (h : transformTable m cs page curr st xrows s = some (t, s')) (hr : ∀ c ∈ xrows.flatMap (·.cells), c.rowSpan ≤ 1) :
    t.rows.map (fun r => r.cells.map (foundAt t)) = (placesIn 0 xrows).map fun row => row ++ List.replicate (longest (placesIn 0 xrows) - row.length) .free := by
  have hr' : ∀ a, rowSpanOf xrows a ≤ 1 := by
    intro a
    unfold rowSpanOf
    cases e : (xrows.flatMap (·.cells))[a]? with
    | none => simp
    | some c => simpa using hr c (List.mem_of_getElem? e)
  have hb : ∀ (xs : List TPlace) (k : Nat) (rows : List (List TPlace)), coverBelow (rowSpanOf xrows) k xs rows = rows := by
    intro xs
    induction xs with
    | nil => intro k rows; rfl
    | cons x xs ih =>
      intro k rows
      cases x with
      | cell a => rw [coverBelow, ih, extent_one (hr' a)]; rfl
      | covered a => rw [coverBelow, ih]; simp
      | free => rw [coverBelow, ih]; simp
  have hc : ∀ (n : Nat) (rows : List (List TPlace)), n = rows.length → coverRows (rowSpanOf xrows) n rows = rows := by
    intro n
    induction n with
    | zero => intro rows _; rfl
    | succ n ih =>
      intro rows hn
      cases rows with
      | nil => rfl
      | cons r rows => rw [coverRows, hb, ih rows (by simpa using hn)]
  have hlen : ∀ (rows : List TableRow) (a : Nat), (placesIn a rows).length = rows.length := by
    intro rows
    induction rows with
    | nil => intro a; rfl
    | cons r rows ih => intro a; simp [placesIn, ih]
  rw [C122_places h]
  unfold tablePlaces
  rw [hc _ _ (hlen xrows 0).symm]

/-- C122: the places of the example table: cell 2 has three rows, so that there is a row more than in the file, and the cells right of it have moved. -/
example : tablePlaces exRows = [[.cell 0, .cell 1, .covered 1], [.cell 2, .cell 3, .free], [.covered 2, .cell 4, .cell 5], [.covered 2, .free, .free]] := by decide +kernel

example : exLaid.map (fun r => r.1.rows.map fun row => row.cells.map (foundAt r.1)) = some (tablePlaces exRows) ∧ exLaid.map (fun r => r.1.columnCount) = some 3 := by decide +kernel

/-- C122: the first cell extends over two columns and two rows, but below it only its first column is covered: cell 2 is where the cell extends to (compare C25). -/
example : tablePlaces [.mk ⟨[], []⟩ [.mk ⟨[], []⟩ 2 2 [], .mk ⟨[], []⟩ 1 2 []], .mk ⟨[], []⟩ [.mk ⟨[], []⟩ 1 1 [], .mk ⟨[], []⟩ 1 1 []]] =
    [[.cell 0, .covered 0, .cell 1, .free], [.covered 0, .cell 2, .covered 1, .cell 3]] := by decide +kernel

/-- A table that meets the condition of C122_no_rowspans. -/
example : (transformTable exMeasure [] ⟨⟨0, 0, 100, 200⟩⟩ zeroStyles ⟨[], []⟩ [.mk ⟨[], []⟩ [.mk ⟨[], []⟩ 2 1 [], .mk ⟨[], []⟩ 1 0 []], .mk ⟨[], []⟩ [.mk ⟨[], []⟩ 1 1 []]] ()).map
    (fun r => r.1.rows.map fun row => row.cells.map (foundAt r.1)) = some [[.cell 0, .covered 0, .cell 1], [.cell 2, .free, .free]] := by decide +kernel

end Verif.Props
