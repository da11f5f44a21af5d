import Verif.Spec.RenderTable
import Verif.Spec.InStep
/-
What C92 talks about: the tables of the body, as they are on the pages.
-/
namespace Verif.Spec
open Verif.Go Verif.Model

/-- What is on page `page` of a cell that was given the area `a`: its background, half a line inside of the area. -/
def cellMark (t : Tab) (page id : Nat) (a : Area) : Mark :=
  .draw page (.fillRect (a.x0 + (t.cell id).styles.lineWidth / 2) (a.y0 + (t.cell id).styles.lineWidth / 2)
    (a.x1 - a.x0 - (t.cell id).styles.lineWidth) (a.y1 - a.y0 - (t.cell id).styles.lineWidth))

/-- The cells and page breaks of a table are among the marks in the same order, from page `k` on: each cell is on the page that was started last.
Other page breaks among the marks are permitted if `loose`. -/
inductive OnPages (t : Tab) (loose : Bool) : Nat → List TEvent → List Mark → Prop
  | done {k : Nat} : OnPages t loose k [] []
  | other {k : Nat} {es : List TEvent} {m : Mark} {ms : List Mark} : m ≠ .page → OnPages t loose k es ms → OnPages t loose k es (m :: ms)
  | turn {k : Nat} {es : List TEvent} {ms : List Mark} : loose = true → OnPages t loose (k + 1) es ms → OnPages t loose k es (.page :: ms)
  | page {k : Nat} {top : ℚ} {es : List TEvent} {ms : List Mark} : OnPages t loose (k + 1) es ms → OnPages t loose k (.page top :: es) (.page :: ms)
  | cell {k id : Nat} {a : Area} {es : List TEvent} {ms : List Mark} : OnPages t loose k es ms →
      OnPages t loose k (.cell id a :: es) (cellMark t k id a :: ms)

/-- The page breaks among the marks. -/
def turns (ms : List Mark) : Nat := ms.count .page

/-- The page breaks among the steps of a table. -/
def breaks : List Item → Nat
  | [] => 0
  | .page _ :: items => breaks items + 1
  | _ :: items => breaks items

/-- The header rows that are repeated before row `i` at the top of a new page. -/
def repeated (t : Tab) (rh : Int) (i : Nat) (top : ℚ) : List Item := if i > 0 ∧ rh > 0 then headersAt t rh.toNat top else []

/-- The steps of a table that starts at `y`, with `rh` header rows, on pages with the given top and bottom edge. -/
structure TableSteps (t : Tab) (rh : Int) (top bottom y : ℚ) (items : List Item) : Prop where
  /-- each row starts where the one before ended -/
  chained : Chained t y items
  /-- all rows, in order -/
  rows : items.filterMap Item.rowIdx = List.range t.rows.length
  /-- new pages start at the top -/
  tops : ∀ z, .page z ∈ items → z = top
  /-- each row ends above the bottom, or is the first one on a new page, below the header rows -/
  fits : ∀ pre post i z, items = pre ++ .row i z :: post → Fits t i z bottom ∨ ∃ pre', pre = pre' ++ .page top :: repeated t rh i top
  /-- the header rows and the row below stay together: the table starts on a new page if they do not fit -/
  together : y + stacked t (min (rh + 1).toNat t.rows.length) > bottom → ∃ post, items = .page top :: post
  /-- other pages are started only where a row does not fit, and its header rows are repeated -/
  needed : ∀ pre post, items = pre ++ .page top :: post →
    (pre = [] ∧ y + stacked t (min (rh + 1).toNat t.rows.length) > bottom) ∨ ∃ i z post', i < t.rows.length ∧ post = repeated t rh i top ++ .row i z :: post' ∧ ¬ Fits t i (endY t y pre) bottom
  /-- header rows are repeated at the top of new pages only, all of them, and a row that is not the first one of the table comes below -/
  headers : ∀ pre post j z, items = pre ++ .header j z :: post → ∃ i y' pre' post', i > 0 ∧ rh > 0 ∧
    items = pre' ++ .page top :: headersAt t rh.toNat top ++ .row i y' :: post' ∧ pre = pre' ++ .page top :: (headersAt t rh.toNat top).take j

/-- From the state `e` of the library to `e'` the table `t` was put onto the pages, in these steps. -/
structure LaidOut (p : Paper) (t : Tab) (rh : Int) (e e' : Fpdf) (new : List Mark) (items : List Item) : Prop where
  steps : TableSteps t rh p.margins.top (p.height - p.margins.bottom) e.y items
  marks : OnPages t true e.page (items.flatMap (Item.events t e.x)) new
  /-- afterwards the position is below the last row -/
  below : 0 ≤ endY t e.y items → e'.y = endY t e.y items
  /-- at the left edge of the table -/
  left : t.rows ≠ [] → 0 ≤ e.x → e'.x = e.x

end Verif.Spec
