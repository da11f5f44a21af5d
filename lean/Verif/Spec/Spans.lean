import Verif.Spec.Places
/-
Conditions under which the cells of a table do not share positions (C25).
-/
namespace Verif.Spec
open Verif.Go Verif.Model

/-- No cell extends over several rows and several columns. -/
def NoBlocks (t : Tab) : Prop := ∀ i a, a ∈ idsOf t i → isAuthored t a = true → (t.cell a).colSpan ≤ 1 ∨ (t.cell a).rowSpan ≤ 1

/-- A row reached by a cell from above has no cells over several columns. -/
def RowsClear (t : Tab) : Prop := ∀ i r a b, a ∈ idsOf t i → isAuthored t a = true → b ∈ idsOf t r → isAuthored t b = true →
  i < r → r < i + extent (t.cell a).rowSpan → (t.cell b).colSpan ≤ 1

/-- Of two cells over several rows, if the upper one goes on below the start of the lower one, then the lower one is further to the
right. -/
def Descending (t : Tab) : Prop := ∀ (i j i' j' a b : Nat), (idsOf t i)[j]? = some a → isAuthored t a = true →
  (idsOf t i')[j']? = some b → isAuthored t b = true → i < i' → i' + 1 < i + extent (t.cell a).rowSpan → 1 < (t.cell b).rowSpan → j < j'

/-! The same, said of the rows of the file. -/

/-- What is at row `i` and column `j` of the table with these rows. -/
def placeAt (rows : List TableRow) (i j : Nat) : Option TPlace := ((tablePlaces rows)[i]?.getD [])[j]?

/-- The cell with number `a` covers row `r` and column `k`. -/
def CoversIn (rows : List TableRow) (a r k : Nat) : Prop := ∃ i j, placeAt rows i j = some (.cell a) ∧
  (i ≤ r ∧ r < i + extent (rowSpanOf rows a)) ∧ j ≤ k ∧ k < j + extent (colSpanOf rows a)

/-- No cell has both spans. -/
def NoBlocksIn (rows : List TableRow) : Prop := ∀ x ∈ rows, ∀ c ∈ x.cells, c.colSpan ≤ 1 ∨ c.rowSpan ≤ 1

/-- A row reached by a cell from above has no cells over several columns. -/
def RowsClearIn (rows : List TableRow) : Prop := ∀ (i r : Nat) (x y : TableRow), rows[i]? = some x → rows[r]? = some y → i < r →
  ∀ c ∈ x.cells, ∀ d ∈ y.cells, r < i + extent c.rowSpan → d.colSpan ≤ 1

/-- A row in which a cell from above neither starts nor ends has no cells over several rows. -/
def RowsLowIn (rows : List TableRow) : Prop := ∀ (i r : Nat) (x y : TableRow), rows[i]? = some x → rows[r]? = some y → i < r →
  ∀ c ∈ x.cells, ∀ d ∈ y.cells, r + 1 < i + extent c.rowSpan → d.rowSpan ≤ 1

/-- Of two cells over several rows, if the upper one goes on below the start of the lower one, then the lower one is further to the right. -/
def DescendingIn (rows : List TableRow) : Prop := ∀ i j i' j' a b, placeAt rows i j = some (.cell a) → placeAt rows i' j' = some (.cell b) →
  i < i' → i' + 1 < i + extent (rowSpanOf rows a) → 1 < rowSpanOf rows b → j < j'

end Verif.Spec
