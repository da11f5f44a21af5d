import Verif.Model.TextLines
import Verif.Model.RenderTable
import Verif.Model.Grid
/-
Model of /repo/process.go, of renderCell in /repo/table.go, of the writing functions in /repo/text.go and /repo/text-hyph.go, and of
renderImage in /repo/image.go.

A Processor method is a function on processor states.  `none` stands for a panic or for a call that does not return: AddPage and
WriteText of the engine can call back into the processor (header and footer), and these calls are nested without bound if the
header or the footer has a page break.  `callsAt n` allows nesting up to depth `n`.
-/
namespace Verif.Model
open Verif.Go

/-- Methods of the Processor. -/
abbrev M (E : Type) := StateT (PState E) Option

/-- The engine operations that can call back into the processor. -/
structure Calls (E : Type) where
  addPage : M E Unit
  writeText : Str → M E Unit

section
variable {E : Type}

/-- A call of an engine operation that does not call back. -/
def upd (f : E → E) : M E Unit := fun s => some ((), { s with eng := f s.eng })

/-- A query of the engine. -/
def ask {α : Type} (f : E → α) : M E α := fun s => some (f s.eng, s)

/-- A method that always returns. -/
def total {α : Type} (f : PState E → α × PState E) : M E α := fun s => some (f s)

/-- process.go:95-98, changeFont. -/
def changeFontM (eng : Engine E) (f : Font) : M E Unit := fun s => some ((), changeFont eng f s)

/-- process.go:115-118, resetStyles. -/
def resetStyles (eng : Engine E) : M E Unit := fun s =>
  some ((), { s with eng := eng.setTextColor s.curr.color.text (eng.changeFont s.curr.font s.eng) })

/-- draw.go:5-39, drawBox. -/
def drawBoxM (eng : Engine E) (x0 y0 x1 y1 : ℚ) (sty : Styles) : M E Unit :=
  upd fun e => (drawBox x0 y0 x1 y1 sty).foldl (fun e c => eng.draw c e) e

/-! ### Writing text -/

/-- text.go:105-108 and text-hyph.go:125-128: the items of a line. -/
def writeItems (eng : Engine E) (c : Calls E) : List TextItem → M E Unit
  | [] => pure ()
  | i :: is => do
    changeFontM eng i.sty.font
    c.writeText i.text
    writeItems eng c is

/-- text.go:97-104: where a line starts. -/
def alignLine (eng : Engine E) (h : Str) (xLeft width : ℚ) (line : TextLine) : M E Unit :=
  if h = b!"left" then upd (eng.setX xLeft)
  else if h = b!"center" then upd (eng.setX (xLeft + (width - line.width) / 2))
  else if h = b!"right" then upd (eng.setX (xLeft + width - line.width))
  else pure ()

/-- text.go:96-110 -/
def writeLines (eng : Engine E) (c : Calls E) (sty : Styles) (xLeft width : ℚ) : List TextLine → M E Unit
  | [] => pure ()
  | line :: lines => do
    alignLine eng sty.align.h xLeft width line
    writeItems eng c line.items
    upd (eng.lineFeed sty.dim.lineSpacing)
    writeLines eng c sty xLeft width lines

/-- text.go:91-111, writeText. -/
def writeText (eng : Engine E) (ctx : Ctx) (c : Calls E) (iss : List Instr) (width : ℚ) (sty : Styles) : M E Unit := do
  upd (eng.changeFont sty.font)
  upd (eng.setTextColor sty.color.text)
  let lines ← total (textLines eng ctx.classes iss width sty)
  let xy ← ask eng.getXY
  writeLines eng c sty xy.1 width lines

/-- text-hyph.go:132-137: the items of a justified line. -/
def writeSpaced (eng : Engine E) (c : Calls E) (spaceWidth : ℚ) : List TextItem → M E Unit
  | [] => pure ()
  | i :: is => do
    changeFontM eng i.sty.font
    c.writeText (trimSpace i.text)
    let xy ← ask eng.getXY
    upd (eng.setX (xy.1 + spaceWidth))
    writeSpaced eng c spaceWidth is

/-- text-hyph.go:123-138: the items of a line. -/
def writeHyphLine (eng : Engine E) (c : Calls E) (width : ℚ) (line : TextLine) : M E Unit :=
  let spaceCnt : Int := line.items.length - 1
  if spaceCnt < 1 ∨ line.paragraph then writeItems eng c line.items
  else writeSpaced eng c ((width - 1 / 10 - line.pureTextWidth) / spaceCnt) line.items

/-- text-hyph.go:121-140 -/
def writeHyphLines (eng : Engine E) (c : Calls E) (sty : Styles) (xLeft width : ℚ) : List TextLine → M E Unit
  | [] => pure ()
  | line :: lines => do
    upd (eng.setX xLeft)
    writeHyphLine eng c width line
    upd (eng.lineFeed sty.dim.lineSpacing)
    writeHyphLines eng c sty xLeft width lines

/-- text-hyph.go:116-141, writeTextHyphenated. -/
def writeTextHyphenated (eng : Engine E) (ctx : Ctx) (c : Calls E) (iss : List Instr) (width : ℚ) (sty : Styles) : M E Unit := do
  upd (eng.changeFont sty.font)
  upd (eng.setTextColor sty.color.text)
  let lines ← total (textLinesHyphenated eng ctx.hyphenate ctx.classes iss width sty)
  let xy ← ask eng.getXY
  writeHyphLines eng c sty xy.1 width lines

/-- process.go:223-230, writeTextFnc, applied. -/
def writeTextFnc (eng : Engine E) (ctx : Ctx) (c : Calls E) (iss : List Instr) (width : ℚ) (sty : Styles) : M E Unit :=
  if sty.align.h = b!"block" then writeTextHyphenated eng ctx c iss width sty else writeText eng ctx c iss width sty

/-- process.go:147-156, renderText. -/
def renderText (eng : Engine E) (ctx : Ctx) (c : Calls E) (st : Styled) (iss : List Instr) : M E Unit :=
  if iss.length = 0 then pure ()
  else do
    let s ← get
    let sty := st.mutatedStyles ctx.classes s.curr
    let pa ← ask eng.printableArea
    writeTextFnc eng ctx c iss ((Page.mk pa).effectiveWidth sty.dim.width) sty
    resetStyles eng

/-! ### Boxes -/

/-- process.go:179-189 and 161-171: the height of the contents of a box with the styles `sty`. -/
def boxHeight (eng : Engine E) (ctx : Ctx) (sty : Styles) (iss : List Instr) (width : ℚ) : M E ℚ :=
  if sty.dim.height ≤ 0 then
    if iss.length > 0 then total (textHeightFnc eng ctx sty iss width) else ask eng.fontHeight
  else pure sty.dim.height

/-- process.go:179: the width of the contents of a box. -/
def boxWidth (sty : Styles) (pa : Area) : ℚ := pa.effectiveWidth sty.dim.width - sty.box.padding.left - sty.box.padding.right

/-- process.go:158-173, textBoxHeight. -/
def textBoxHeight (eng : Engine E) (ctx : Ctx) (st : Styled) (iss : List Instr) (pa : Area) : M E ℚ := do
  let s ← get
  let sty := st.mutatedStyles ctx.classes s.curr
  let height ← boxHeight eng ctx sty iss (boxWidth sty pa)
  resetStyles eng
  pure height

/-- process.go:191-197: where the box starts, after a page break if it would reach the bottom margin. -/
def boxStart (eng : Engine E) (c : Calls E) (height : ℚ) : M E (ℚ × ℚ) := do
  let s ← get
  let xy := eng.getXY s.eng
  if !s.prevent ∧ xy.2 + height ≥ eng.pageHeight s.eng - (eng.margins s.eng).bottom then do
    c.addPage
    ask eng.getXY
  else pure xy

/-- process.go:175-211, renderTextBox. -/
def renderTextBox (eng : Engine E) (ctx : Ctx) (c : Calls E) (st : Styled) (iss : List Instr) (pa : Area) : M E Unit := do
  let s ← get
  let sty := st.mutatedStyles ctx.classes s.curr
  let width := boxWidth sty pa
  let height ← boxHeight eng ctx sty iss width
  let xy ← boxStart eng c height
  let x0 := xy.1 + sty.dim.offsetX
  let y0 := xy.2 + sty.dim.offsetY
  let y1 := y0 + height + sty.box.padding.top + sty.box.padding.bottom
  let x1 := x0 + width + sty.box.padding.left + sty.box.padding.right
  drawBoxM eng x0 y0 x1 y1 sty
  upd (eng.setY (y0 + sty.box.padding.top))
  upd (eng.setX (x0 + sty.box.padding.left))
  if iss.length > 0 then writeTextFnc eng ctx c iss width sty else pure ()
  upd (eng.setY y1)
  resetStyles eng

/-! ### Images, cells, tables -/

/-- image.go:50-94, renderImage. -/
def renderImage (eng : Engine E) (ctx : Ctx) (st : Styled) (source : Str) (pa : Area) : M E Unit :=
  let src := ctx.resolve source
  match ctx.describe src with
  | none => pure ()
  | some d => fun s =>
    let sty := st.mutatedStyles ctx.classes s.curr
    let xy := eng.getXY s.eng
    let pl := placeImage d sty xy.1 xy.2 pa
    some ((), { s with eng := eng.putImage src pl.x pl.y pl.width pl.height s.eng })

/-- table.go:404-413: where the text of a cell starts. -/
def textTop (v : Str) (padded : Area) (textHeight : ℚ) : ℚ :=
  let textMargin := padded.height - textHeight
  if v = b!"middle" then padded.y0 + textMargin / 2
  else if v = b!"bottom" then padded.y0 + textMargin
  else padded.y0

/-- table.go:424-431: where a box in a cell starts. -/
def boxTop (v : Str) (padded : Area) (height : ℚ) : ℚ :=
  if v = b!"middle" then padded.y0 + height / 2
  else if v = b!"bottom" then padded.y0 + height
  else padded.y0

/-- table.go:420-437: the boxes and images of a cell. -/
def renderCellItems (eng : Engine E) (ctx : Ctx) (c : Calls E) (v : Str) (padded : Area) : List Instr → M E Unit
  | [] => pure ()
  | .box st iss :: is => do
    let height ← textBoxHeight eng ctx st iss padded
    upd (eng.setY (boxTop v padded height))
    renderTextBox eng ctx c st iss padded
    renderCellItems eng ctx c v padded is
  | .image st source :: is => do
    upd (eng.setY padded.y0)
    renderImage eng ctx st source padded
    renderCellItems eng ctx c v padded is
  | _ :: is => renderCellItems eng ctx c v padded is

/-- table.go:403-417: the text of a cell. -/
def renderCellText (eng : Engine E) (ctx : Ctx) (c : Calls E) (pa : Area) (sty : Styles) (iss : List Instr) : M E Unit := do
  let padded := pa.withPadding sty.box.padding
  let h ← total (textHeight eng ctx.classes iss padded.width sty)
  upd (eng.setY (textTop sty.align.v padded h))
  upd (eng.setX padded.x0)
  writeTextFnc eng ctx c iss (pa.width - sty.box.padding.left - sty.box.padding.right) sty

/-- table.go:399-438, renderCell for a cell with the given styles and contents. -/
def renderCell (eng : Engine E) (ctx : Ctx) (c : Calls E) (pa : Area) (sty : Styles) (iss : List Instr) : M E Unit := do
  drawBoxM eng pa.x0 pa.y0 pa.x1 pa.y1 sty
  let padded := pa.withPadding sty.box.padding
  if iss.length > 0 then renderCellText eng ctx c pa sty iss else pure ()
  upd (eng.setX padded.x0)
  renderCellItems eng ctx c sty.align.v padded iss

/-- The operations renderTable works with. -/
def tableOps (eng : Engine E) (ctx : Ctx) (c : Calls E) (t : Tab) : TableOps (PState E) where
  getXY s := eng.getXY s.eng
  setX x s := { s with eng := eng.setX x s.eng }
  setY y s := { s with eng := eng.setY y s.eng }
  prevent s := s.prevent
  addPage s := (c.addPage s).map (·.2)
  renderCell pa id s := (renderCell eng ctx c pa (t.cell id).styles (t.cell id).iss s).map (·.2)

/-- table.go:338-397, renderTable. -/
def renderTable (eng : Engine E) (ctx : Ctx) (c : Calls E) (st : Styled) (repeatHeader : Int) (rows : List TableRow) : M E Unit := do
  let s ← get
  match transformTable (textHeightFnc eng ctx) ctx.classes (Page.mk (eng.printableArea s.eng)) s.curr st rows s with
  | none => fun _ => none
  | some (t, s1) => do
    set s1
    if t.columnCount = 0 then resetStyles eng
    else do
      let pa ← ask eng.printableArea
      (fun s => (renderLaid (tableOps eng ctx c t) t repeatHeader pa.y1 s).map fun s' => ((), s'))
      resetStyles eng

/-! ### Instructions -/

/-- grid.go:63-87, renderGrid: it draws nothing; only a panic would be visible. -/
def renderGridM (rows : List (Styled × List Str)) : M E Unit :=
  match renderGrid id (rows.map (·.2)) with
  | .panic => fun _ => none
  | _ => pure ()

/-- process.go:122-143, one instruction. -/
def processInstr (eng : Engine E) (ctx : Ctx) (c : Calls E) : Instr → M E Unit
  | .font st => do
    let s ← get
    changeFontM eng (st.mutatedStyles ctx.classes s.curr).font
  | .lineFeed lines => upd (eng.lineFeed lines)
  | .setX x => upd (eng.setX x)
  | .setY y => upd (eng.setY y)
  | .box st iss => do
    let pa ← ask eng.printableArea
    renderTextBox eng ctx c st iss pa
  | .text st iss => renderText eng ctx c st iss
  | .table st rh rows => renderTable eng ctx c st rh rows
  | .image st source => do
    let pa ← ask eng.printableArea
    renderImage eng ctx st source pa
  | .grid _ rows _ => renderGridM rows
  | .pageBreak => c.addPage
  | _ => pure ()

/-- process.go:120-145, processInstructions. -/
def processInstrs (eng : Engine E) (ctx : Ctx) (c : Calls E) : List Instr → M E Unit
  | [] => pure ()
  | i :: is => do
    processInstr eng ctx c i
    processInstrs eng ctx c is

/-! ### Header, footer, Process -/

/-- process.go:53-62 and 63-72: the functions registered with OnHeader and OnFooter. -/
def callback (eng : Engine E) (ctx : Ctx) (c : Calls E) (iss : List Instr) : M E Unit := do
  let xy ← ask eng.getXY
  modify fun s => { s with prevent := true }
  processInstrs eng ctx c iss
  upd (eng.setX xy.1)
  upd (eng.setY xy.2)
  modify fun s => { s with prevent := false }

/-- An engine operation together with the header and footer functions it calls. -/
def runProg {α : Type} (hdr ftr : M E Unit) : Prog E α → M E α
  | .done e a => fun s => some (a, { s with eng := e })
  | .header e k => fun s =>
    match hdr { s with eng := e } with
    | none => none
    | some ((), s') => runProg hdr ftr (k s'.eng) s'
  | .footer e k => fun s =>
    match ftr { s with eng := e } with
    | none => none
    | some ((), s') => runProg hdr ftr (k s'.eng) s'

/-- Running an engine operation in which header and footer work with the calls `c`. -/
def runWith {α : Type} (eng : Engine E) (ctx : Ctx) (c : Calls E) (op : E → Prog E α) : M E α := fun s =>
  runProg (callback eng ctx c ctx.header) (callback eng ctx c ctx.footer) (op s.eng) s

/-- The engine calls, with header and footer calls nested up to depth `n`. -/
def callsAt (eng : Engine E) (ctx : Ctx) : Nat → Calls E
  | 0 => { addPage := fun _ => none, writeText := fun _ _ => none }
  | n + 1 =>
    { addPage := runWith eng ctx (callsAt eng ctx n) eng.addPage,
      writeText := fun t => runWith eng ctx (callsAt eng ctx n) (eng.writeText t) }

/-- process.go:43-89, Process: what is written and whether an error is returned. -/
def process (eng : Engine E) (ctx : Ctx) (n : Nat) : M E PdfResult := do
  upd (eng.setPageCountAlias b!"{np}")
  let s ← get
  changeFontM eng s.curr.font
  (callsAt eng ctx n).addPage
  processInstrs eng ctx (callsAt eng ctx n) ctx.body
  let failed ← ask eng.failed
  if failed then pure { written := [], failed := true }
  else runWith eng ctx (callsAt eng ctx (n - 1)) eng.writePDF

/-- process.go:24-33, NewProcessor. -/
def newProcessor (e : E) : PState E := { eng := e, curr := defaultStyle, prevent := false }

end
end Verif.Model
