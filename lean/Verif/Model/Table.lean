import Verif.Model.Doc
import Verif.Model.Dim
/-
Model of /repo/table.go: spans, column widths, row heights.  The dump functions (lines 11-54) are in Dump.lean.

Cells are pointers in the code.  Here they live in a heap and are named by their index in it; allocation appends.  Rows are
pointers too, but each row is reachable only from its place in the list of rows, so rows are plain values.
-/
namespace Verif.Model
open Verif.Go

/-- table.go:84-100, tableCell. -/
structure TCell where
  styles : Styles
  iss : List Instr
  colSpan : Int
  rowSpan : Int
  rowIdx : Nat
  cellIdx : Nat
  minHeight : ℚ
  height : ℚ
  width : ℚ
  spannedBy : Option Nat
  spansCols : List Nat
  spansRows : List Nat
  zero : Bool

/-- `&tableCell{}`. -/
def TCell.new : TCell where
  styles := zeroStyles
  iss := []
  colSpan := 0
  rowSpan := 0
  rowIdx := 0
  cellIdx := 0
  minHeight := 0
  height := 0
  width := 0
  spannedBy := none
  spansCols := []
  spansRows := []
  zero := false

/-- `&tableCell{zero: true}` (table.go:159-161, 214-216). -/
def TCell.zeroCell : TCell := { TCell.new with zero := true }

/-- table.go:65-71, tableRow; its styles are not used after the cells are made. -/
structure TRow where
  cells : List Nat
  height : ℚ
deriving DecidableEq

/-- table.go:57-63, table, with the heap of its cells. -/
structure Tab where
  heap : List TCell
  rows : List TRow
  columnCount : Nat

/-- Read a cell; every id that occurs is allocated (`C21_no_panic`), so the default is never used. -/
def Tab.cell (t : Tab) (id : Nat) : TCell := t.heap.getD id TCell.new

/-- Change a cell in place. -/
def Tab.modCell (t : Tab) (id : Nat) (f : TCell → TCell) : Tab := { t with heap := t.heap.modify id f }

/-- Allocate a cell. -/
def Tab.alloc (t : Tab) (c : TCell) : Tab × Nat := ({ t with heap := t.heap ++ [c] }, t.heap.length)

/-- table.go:180-187, the loop making the `n` placeholders of cell `id`; `acc` is newCells. -/
def colShadows (id : Nat) : Nat → Tab → List Nat → Tab × List Nat
  | 0, t, acc => (t, acc)
  | n + 1, t, acc =>
    let (t1, s) := t.alloc { TCell.new with spannedBy := some id, rowSpan := (t.cell id).rowSpan }
    let t2 := t1.modCell id fun c => { c with spansCols := c.spansCols ++ [s] }
    colShadows id n t2 (acc ++ [s])

/-- table.go:175-188, the loop over the cells of a row. -/
def colSpanCells : List Nat → Tab → List Nat → Tab × List Nat
  | [], t, acc => (t, acc)
  | id :: ids, t, acc =>
    let c := t.cell id
    if c.colSpan ≤ 1 then colSpanCells ids t (acc ++ [id])
    else
      let (t', acc') := colShadows id (c.colSpan - 1).toNat t (acc ++ [id])
      colSpanCells ids t' acc'

/-- table.go:172-191, processColumnSpans: the rows from index `ir` on (`n` of them). -/
def colSpanRows : Nat → Nat → Tab → Tab
  | 0, _, t => t
  | n + 1, ir, t =>
    match t.rows[ir]? with
    | none => t
    | some row =>
      let (t', cells) := colSpanCells row.cells t []
      colSpanRows n (ir + 1) { t' with rows := t'.rows.set ir { row with cells := cells } }

def processColumnSpans (t : Tab) : Tab := colSpanRows t.rows.length 0 t

/-- table.go:213-217: zero cells are appended to the row until it has `ic` cells (`k` of them). -/
def padZero : Nat → Tab → List Nat → Tab × List Nat
  | 0, t, cells => (t, cells)
  | k + 1, t, cells =>
    let (t', z) := t.alloc TCell.zeroCell
    padZero k t' (cells ++ [z])

/-- table.go:204-228: one placeholder of cell `id`, which is in column `ic`, for row `sr`.  `none` is an index out of range. -/
def rowShadow (id ic sr : Nat) (t : Tab) : Option Tab :=
  -- lines 206-212
  let (t1, at_) := if sr ≥ t.rows.length then ({ t with rows := t.rows ++ [⟨[], 0⟩] }, t.rows.length) else (t, sr)
  match t1.rows[at_]? with
  | none => none
  | some row =>
    let (t2, cells) := padZero (ic - row.cells.length) t1 row.cells
    let (t3, s) := t2.alloc { TCell.new with spannedBy := some id }
    let t4 := t3.modCell id fun c => { c with spansRows := c.spansRows ++ [s] }
    if ic > cells.length then none
    else some { t4 with rows := t4.rows.set at_ { row with cells := cells.take ic ++ [s] ++ cells.drop ic } }

/-- table.go:203-229, the loop over the following rows, from `sr` on (`n` of them). -/
def rowShadows (id ic : Nat) : Nat → Nat → Tab → Option Tab
  | 0, _, t => some t
  | n + 1, sr, t =>
    match rowShadow id ic sr t with
    | none => none
    | some t' => rowShadows id ic n (sr + 1) t'

/-- table.go:195-230, the loop over the cells of row `ir`, from column `ic` on. -/
def rowSpanCells (ir : Nat) : Nat → List Nat → Tab → Option Tab
  | _, [], t => some t
  | ic, id :: ids, t =>
    let c := t.cell id
    if c.rowSpan ≤ 1 then rowSpanCells ir (ic + 1) ids t
    else if c.spannedBy.isSome ∨ c.zero then rowSpanCells ir (ic + 1) ids t
    else match rowShadows id ic (c.rowSpan - 1).toNat (ir + 1) t with
      | none => none
      | some t' => rowSpanCells ir (ic + 1) ids t'

/-- table.go:193-232, the loop over the rows from `ir` on; `n` is fixed at the start: rows appended meanwhile are not visited. -/
def rowSpanRows : Nat → Nat → Tab → Option Tab
  | 0, _, t => some t
  | n + 1, ir, t =>
    match t.rows[ir]? with
    | none => none
    | some row =>
      match rowSpanCells ir 0 row.cells t with
      | none => none
      | some t' => rowSpanRows n (ir + 1) t'

def processRowSpans (t : Tab) : Option Tab := rowSpanRows t.rows.length 0 t

/-- table.go:151-156: the largest number of cells. -/
def maxCells (rows : List TRow) : Nat := rows.foldl (fun m r => if r.cells.length > m then r.cells.length else m) 0

/-- table.go:157-163: all rows are padded with zero cells. -/
def padRows (cc : Nat) : Nat → Nat → Tab → Tab
  | 0, _, t => t
  | n + 1, ir, t =>
    match t.rows[ir]? with
    | none => t
    | some row =>
      let (t', cells) := padZero (cc - row.cells.length) t row.cells
      padRows cc n (ir + 1) { t' with rows := t'.rows.set ir { row with cells := cells } }

/-- table.go:165-168: numbering the cells of a row from column `ic` on. -/
def indexCells (ir : Nat) : Nat → List Nat → Tab → Tab
  | _, [], t => t
  | ic, id :: ids, t => indexCells ir (ic + 1) ids (t.modCell id fun c => { c with rowIdx := ir, cellIdx := ic })

/-- table.go:164-169 -/
def indexRows : Nat → List TRow → Tab → Tab
  | _, [], t => t
  | ir, r :: rs, t => indexRows (ir + 1) rs (indexCells ir 0 r.cells t)

/-- table.go:150-170, normalize. -/
def normalize (t : Tab) : Tab :=
  let cc := maxCells t.rows
  let t1 := padRows cc t.rows.length 0 { t with columnCount := cc }
  indexRows 0 t1.rows t1

/-- table.go:234-238, processSpans. -/
def processSpans (t : Tab) : Option Tab := (processRowSpans (processColumnSpans t)).map normalize

/-! ### Dimensions -/

/-- table.go:102-112, dim. -/
def Tab.dim (t : Tab) (id : Nat) : ℚ × ℚ :=
  let c := t.cell id
  (c.spansCols.foldl (fun w s => w + (t.cell s).width) c.width,
   c.spansRows.foldl (fun h s => h + (t.cell s).height) c.height)

/-- table.go:73-82, maxCellHeight. -/
def Tab.maxCellHeight (t : Tab) (row : TRow) : ℚ :=
  row.cells.foldl (fun m id => let ch := (t.dim id).2; if ch > m then ch else m) 0

/-- table.go:120-124: the cells of a row from column `ic` on; `none` is an index out of range. -/
def widthsRow (t : Tab) : Nat → List Nat → List ℚ → Option (List ℚ)
  | _, [], cws => some cws
  | ic, id :: ids, cws =>
    match cws[ic]? with
    | none => none
    | some w =>
      let cw := (t.cell id).styles.columnWidth
      widthsRow t (ic + 1) ids (if cw > w then cws.set ic cw else cws)

/-- table.go:119-125 -/
def widthsRows (t : Tab) : List TRow → List ℚ → Option (List ℚ)
  | [], cws => some cws
  | r :: rs, cws =>
    match widthsRow t 0 r.cells cws with
    | none => none
    | some cws' => widthsRows t rs cws'

/-- table.go:126-134: the space used by columns with a width, and the number of the others (the order of adding does not matter
with exact numbers). -/
def usedSpace : List ℚ → ℚ × Nat
  | [] => (0, 0)
  | cw :: cws =>
    let (u, z) := usedSpace cws
    if cw > 0 then (cw + u, z) else (u, z + 1)

/-- table.go:135-142: sharing the rest. -/
def fillWidths (width : ℚ) (cws : List ℚ) : List ℚ :=
  let (used, z) := usedSpace cws
  if z > 0 then
    let cw := (width - used) / z
    cws.map fun w => if w = 0 then cw else w
  else cws

/-- table.go:144-146: setting the widths of the cells of a row. -/
def setWidths (cws : List ℚ) : Nat → List Nat → Tab → Option Tab
  | _, [], t => some t
  | ic, id :: ids, t =>
    match cws[ic]? with
    | none => none
    | some w => setWidths cws (ic + 1) ids (t.modCell id fun c => { c with width := w })

/-- table.go:143-147 -/
def setAllWidths (cws : List ℚ) : List TRow → Tab → Option Tab
  | [], t => some t
  | r :: rs, t =>
    match setWidths cws 0 r.cells t with
    | none => none
    | some t' => setAllWidths cws rs t'

/-- table.go:116-148, assignColumnWidths. -/
def assignColumnWidths (width : ℚ) (t : Tab) : Option Tab :=
  match widthsRows t t.rows (List.replicate t.columnCount 0) with
  | none => none
  | some cws => setAllWidths (fillWidths width cws) t.rows t

/-! ### Heights -/

/-- Measuring a text: textHeightFnc(styles)(iss, width, styles) (table.go:255).  It acts on a state (the engine), as measuring
changes fonts. -/
abbrev Measure (σ : Type) := Styles → List Instr → ℚ → σ → ℚ × σ

/-- table.go:240-265, assignCellMinHeight. -/
def assignCellMinHeight {σ : Type} (m : Measure σ) (id : Nat) (t : Tab) (s : σ) : Tab × σ :=
  let c := t.cell id
  if c.spannedBy.isSome ∨ c.zero then (t, s)
  else if c.styles.dim.height > 0 then
    (t.modCell id fun c => { c with minHeight := c.styles.dim.height }, s)
  else
    let availableWidth := c.spansCols.foldl (fun w sc => w + (t.cell sc).width) c.width
      - (c.styles.box.padding.left + c.styles.box.padding.right)
    let (textHeight, s') := m c.styles c.iss availableWidth s
    let cellHeight := textHeight + c.styles.box.padding.top + c.styles.box.padding.bottom
    let heightPerCell := cellHeight / (1 + c.spansRows.length)
    let t1 := t.modCell id fun c => { c with minHeight := heightPerCell }
    (c.spansRows.foldl (fun t sc => t.modCell sc fun c => { c with minHeight := heightPerCell }) t1, s')

/-- table.go:269-271: the cells of a row. -/
def minHeightsRow {σ : Type} (m : Measure σ) : List Nat → Tab → σ → Tab × σ
  | [], t, s => (t, s)
  | id :: ids, t, s =>
    let (t', s') := assignCellMinHeight m id t s
    minHeightsRow m ids t' s'

/-- table.go:268-272 -/
def minHeights {σ : Type} (m : Measure σ) : List TRow → Tab → σ → Tab × σ
  | [], t, s => (t, s)
  | r :: rs, t, s =>
    let (t', s') := minHeightsRow m r.cells t s
    minHeights m rs t' s'

/-- table.go:275-280: the largest minHeight of a row. -/
def maxMinHeight (t : Tab) (ids : List Nat) : ℚ :=
  ids.foldl (fun m id => if (t.cell id).minHeight > m then (t.cell id).minHeight else m) 0

/-- table.go:274-282 -/
def setRowHeights (t : Tab) : Tab :=
  { t with rows := t.rows.map fun r => { r with height := maxMinHeight t r.cells } }

/-- table.go:284-288 -/
def setCellHeights (t : Tab) : Tab :=
  t.rows.foldl (fun t r => r.cells.foldl (fun t id => t.modCell id fun c => { c with height := r.height }) t) t

/-- table.go:267-289, assignHeights. -/
def assignHeights {σ : Type} (m : Measure σ) (t : Tab) (s : σ) : Tab × σ :=
  let (t', s') := minHeights m t.rows t s
  (setCellHeights (setRowHeights t'), s')

/-! ### transformTable -/

/-- table.go:297-304: the styles of row `ir` of `n`. -/
def rowStyles (cs : Classes) (tabSty : Styles) (n ir : Nat) (st : Styled) : Styles :=
  if ir = 0 then st.mutatedStylesWithSelector b!"first-row" cs tabSty
  else if ir + 1 = n then st.mutatedStylesWithSelector b!"last-row" cs tabSty
  else st.mutatedStyles cs tabSty

/-- table.go:310-317: the styles of cell `ic` of `n`. -/
def cellStyles (cs : Classes) (rowSty : Styles) (n ic : Nat) (st : Styled) : Styles :=
  if ic = 0 then st.mutatedStylesWithSelector b!"first-cell" cs rowSty
  else if ic + 1 = n then st.mutatedStylesWithSelector b!"last-cell" cs rowSty
  else st.mutatedStyles cs rowSty

/-- table.go:308-326: the cells of a row from column `ic` on; `n` is their total number. -/
def makeCells (cs : Classes) (rowSty : Styles) (n : Nat) : Nat → List TableCell → List TCell → List TCell × List Nat
  | _, [], heap => (heap, [])
  | ic, xc :: xcs, heap =>
    let c : TCell := { TCell.new with styles := cellStyles cs rowSty n ic xc.st, colSpan := xc.colSpan, rowSpan := xc.rowSpan, iss := xc.iss }
    let (heap', ids) := makeCells cs rowSty n (ic + 1) xcs (heap ++ [c])
    (heap', heap.length :: ids)

/-- table.go:295-328: the rows from index `ir` on; `n` is their total number. -/
def makeRows (cs : Classes) (tabSty : Styles) (n : Nat) : Nat → List TableRow → List TCell → List TCell × List TRow
  | _, [], heap => (heap, [])
  | ir, xr :: xrs, heap =>
    let sty := rowStyles cs tabSty n ir xr.st
    let (heap1, ids) := makeCells cs sty xr.cells.length 0 xr.cells heap
    let (heap2, rows) := makeRows cs tabSty n (ir + 1) xrs heap1
    (heap2, { cells := ids, height := 0 } :: rows)

/-- table.go:291-328: the table before span processing. -/
def makeTable (cs : Classes) (tabSty : Styles) (xrows : List TableRow) : Tab :=
  let (heap, rows) := makeRows cs tabSty xrows.length 0 xrows []
  { heap := heap, rows := rows, columnCount := 0 }

/-- table.go:291-334, transformTable; `page` is p.page(). -/
def transformTable {σ : Type} (m : Measure σ) (cs : Classes) (page : Page) (currStyles : Styles) (st : Styled) (xrows : List TableRow)
    (s : σ) : Option (Tab × σ) :=
  let tabSty := st.mutatedStyles cs currStyles
  match processSpans (makeTable cs tabSty xrows) with
  | none => none
  | some t =>
    match assignColumnWidths (page.effectiveWidth tabSty.dim.width) t with
    | none => none
    | some t' => some (assignHeights m t' s)

end Verif.Model
