import Verif.Spec.Table
import Verif.Model.RenderTable
/-
What the properties of rendering tables (C28-C30) talk about.
-/
namespace Verif.Spec
open Verif.Go Verif.Model

/-- What can be observed while a table is rendered. -/
inductive TEvent
  /-- a new page, on which writing starts at `top` -/
  | page (top : ℚ)
  /-- a cell is rendered into an area -/
  | cell (id : Nat) (area : Area)
deriving DecidableEq

/-- Operations that also keep a list of what was observed. -/
def traced {σ : Type} (ops : TableOps σ) : TableOps (σ × List TEvent) where
  getXY s := ops.getXY s.1
  setX x s := (ops.setX x s.1, s.2)
  setY y s := (ops.setY y s.1, s.2)
  prevent s := ops.prevent s.1
  addPage s := (ops.addPage s.1).map fun s' => (s', s.2 ++ [.page (ops.getXY s').2])
  renderCell pa id s := (ops.renderCell pa id s.1).map fun s' => (s', s.2 ++ [.cell id pa])

/-- A step of rendering a table. -/
inductive Item
  /-- a new page -/
  | page (top : ℚ)
  /-- row `i`, repeated as header, at `y` -/
  | header (i : Nat) (y : ℚ)
  /-- row `i` in its turn, at `y` -/
  | row (i : Nat) (y : ℚ)
deriving DecidableEq

/-- The authored cells among `ids`, side by side from `x` on, at `y`: each as wide and high as the columns and rows it spans. -/
def cellEvents (t : Tab) (y : ℚ) : ℚ → List Nat → List TEvent
  | _, [] => []
  | x, id :: ids =>
    (if isAuthored t id then [.cell id ⟨x, y, x + (t.dim id).1, y + (t.dim id).2⟩] else []) ++
      cellEvents t y (x + (t.cell id).width) ids

/-- What is observed of a step; `x` is the left edge of the table. -/
def Item.events (t : Tab) (x : ℚ) : Item → List TEvent
  | .page top => [.page top]
  | .header i y => cellEvents t y x (idsOf t i)
  | .row i y => cellEvents t y x (idsOf t i)

/-- Where the step leaves off. -/
def Item.endY (t : Tab) : Item → ℚ
  | .page top => top
  | .header i y => y + heightOf t i
  | .row i y => y + heightOf t i

/-- Where the steps leave off, if they start at `y`. -/
def endY (t : Tab) (y : ℚ) (items : List Item) : ℚ := items.foldl (fun _ it => it.endY t) y

/-- Each row starts where the previous step left off. -/
def Chained (t : Tab) : ℚ → List Item → Prop
  | _, [] => True
  | _, .page top :: items => Chained t top items
  | y, .header i y' :: items => y' = y ∧ Chained t (y + heightOf t i) items
  | y, .row i y' :: items => y' = y ∧ Chained t (y + heightOf t i) items

/-- The row rendered in its turn. -/
def Item.rowIdx : Item → Option Nat
  | .row i _ => some i
  | _ => none

/-- The repeated header rows. -/
def Item.headerIdx : Item → Option Nat
  | .header i _ => some i
  | _ => none

/-- `items` explains `log`: these steps, one after the other from `(x, y)`, are what was observed. -/
structure Explains (t : Tab) (x y : ℚ) (log : List TEvent) (items : List Item) : Prop where
  log : log = items.flatMap (Item.events t x)
  chained : Chained t y items
  /-- all rows, in order -/
  rows : items.filterMap Item.rowIdx = List.range t.rows.length

/-- Row `i` at `y`: it starts and all its cells end at or above `bottom`. -/
def Fits (t : Tab) (i : Nat) (y bottom : ℚ) : Prop := y ≤ bottom ∧ ∀ id ∈ idsOf t i, y + (t.dim id).2 ≤ bottom

/-- The height of the tallest cell of row `k`. -/
def tallest (t : Tab) (k : Nat) : ℚ := ((idsOf t k).map fun id => (t.dim id).2).foldl max 0

/-- The rows `0 .. n-1`, each as high as its tallest cell. -/
def stacked (t : Tab) (n : Nat) : ℚ := ((List.range n).map (tallest t)).sum

/-- The heights of the rows before row `k`. -/
def heightsBefore (t : Tab) (k : Nat) : ℚ := ((List.range k).map (heightOf t)).sum

/-- The first `h` rows (as far as they exist) as headers, from `top` on. -/
def headersAt (t : Tab) (h : Nat) (top : ℚ) : List Item :=
  (List.range (min h t.rows.length)).map fun k => .header k (top + heightsBefore t k)

/-- A condition on states that goes with the given value of preventPageBreak and is kept by rendering. -/
structure Keeps {σ : Type} (ops : TableOps σ) (b : Bool) (I : σ → Prop) : Prop where
  prevent : ∀ s, I s → ops.prevent s = b
  setX : ∀ x s, I s → I (ops.setX x s)
  renderCell : ∀ pa id s s', I s → ops.renderCell pa id s = some s' → I s'
  addPage : b = false → ∀ s s', I s → ops.addPage s = some s' → I s'

end Verif.Spec
