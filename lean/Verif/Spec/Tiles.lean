import Verif.Spec.Neat
import Verif.Spec.Stacked
/-
What C99 talks about: where the cells of a table are on the pages.
-/
namespace Verif.Spec
open Verif.Go Verif.Model

/-- A cell on a page. -/
structure Tile where
  page : Nat
  id : Nat
  area : Area
deriving DecidableEq

/-- The cells among the steps of a table, with the page each of them is on; `k` is the page at the beginning. -/
def tiles : Nat → List TEvent → List Tile
  | _, [] => []
  | k, .page _ :: es => tiles (k + 1) es
  | k, .cell id a :: es => ⟨k, id, a⟩ :: tiles k es

/-- Two areas have no inner point in common: one is beside or below the other. -/
def Clear (a b : Area) : Prop := a.x1 ≤ b.x0 ∨ b.x1 ≤ a.x0 ∨ a.y1 ≤ b.y0 ∨ b.y1 ≤ a.y0

/-- The first area lies in the second. -/
def Area.In (a b : Area) : Prop := b.x0 ≤ a.x0 ∧ a.x1 ≤ b.x1 ∧ b.y0 ≤ a.y0 ∧ a.y1 ≤ b.y1

/-- The printable area of a paper: between the margins, with 2 mm to spare at the right. -/
def printable (p : Paper) : Area := ⟨p.margins.left, p.margins.top, p.width - p.margins.right - 2, p.height - p.margins.bottom⟩

/-- No cell of the header rows extends over rows below them. -/
def HeadersEnd (t : Tab) (rh : Int) : Prop := ∀ i : Nat, (i : Int) < rh → ∀ id ∈ idsOf t i, isAuthored t id = true → (i : Int) + extent (t.cell id).rowSpan ≤ rh

/-- The width of row `i`. -/
def rowWidth (t : Tab) (i : Nat) : ℚ := ((idsOf t i).map fun id => (t.cell id).width).sum

/-- The marks of a table, in parts: each of its cells, which lies in the printable area, with the page it is on, and the page breaks in between (`none`),
with nothing but marks of header and footer (`H`).
The texts of each cell lie inside of it; texts of different cells do not overlap. -/
structure Parts (p : Paper) (H : Mark → Prop) (t : Tab) (ts : List Tile) (new : List Mark) (parts : List (Option Tile × List Mark)) : Prop where
  all : new = (parts.map Prod.snd).flatten
  cells : parts.filterMap Prod.fst = ts
  pages : ∀ ms, (none, ms) ∈ parts → turns ms = 1 ∧ ∀ m ∈ ms, m = .page ∨ H m
  put : ∀ u ms, (some u, ms) ∈ parts → CellPut p t u.page u.id u.area ms ∧ Area.In u.area (printable p) ∧
    ∀ pg x y f c w, .text pg x y f c w ∈ ms → pg = u.page ∧ Area.In ⟨x, y, x + p.metric f w, y + lineHeight f⟩ u.area
  clear : ts.Pairwise fun u v => u.page = v.page → Clear u.area v.area
  apart : parts.Pairwise fun q q' => q.1.isSome → q'.1.isSome → ∀ m ∈ q.2, ∀ m' ∈ q'.2, Apart p m m'

end Verif.Spec
