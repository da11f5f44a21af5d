import Verif.Proofs.Typeset
import Verif.Props.Leaflets
import Verif.Props.Process
/-
C116: a document is set word by word.
-/
namespace Verif.Props
open Verif.Go Verif.Model Verif.Spec Verif.Proofs

variable {p : Paper} {ctx : Ctx} {n : Nat}

/-- C116: what is on the pages of a document is what a typist sets who goes through the document once, word by word and, in tables, cell by cell, with the footer of the
page and the header of the next one whenever they go to the next page: every text with its page, place, font and color, every frame, every image, and where lines and
pages end.  After an error only the footer of the last page is missing. -/
theorem C116_typeset (ht : 0 ≤ p.margins.top) (hm : 0 ≤ p.margins.left) (hh : .pageBreak ∉ ctx.header) (hft : .pageBreak ∉ ctx.footer) {s' : PState Fpdf} {r : PdfResult}
    (hr : process (Fpdf.engine p) ctx n (newProcessor (Fpdf.new p)) = some (r, s')) :
    let t := typeset p ctx ctx.body
    s'.eng.out = (t.foot p ctx).out ∧ s'.eng.page = (t.foot p ctx).page ∨ r.failed = true ∧ s'.eng.out = t.out ∧ s'.eng.page = t.page :=
  process_typeset hh hft ht hm hr

/-- C116: and this is always set. -/
theorem C116_returns (ht : 0 ≤ p.margins.top) (hm : 0 ≤ p.margins.left) (hh : .pageBreak ∉ ctx.header) (hft : .pageBreak ∉ ctx.footer) (hn : 2 ≤ n) :
    ∃ r s', process (Fpdf.engine p) ctx n (newProcessor (Fpdf.new p)) = some (r, s') ∧
      let t := typeset p ctx ctx.body
      s'.eng.out = (t.foot p ctx).out ∧ s'.eng.page = (t.foot p ctx).page ∨ r.failed = true ∧ s'.eng.out = t.out ∧ s'.eng.page = t.page := by
  obtain ⟨r, s', h⟩ := C43_returns (ctx := ctx) (quiet_fpdf p) hh hft (newProcessor (Fpdf.new p))
  exact ⟨r, s', h n hn, C116_typeset ht hm hh hft (h n hn)⟩

/-- C116: without header and footer there is only the body. -/
theorem C116_bare (ht : 0 ≤ p.margins.top) (hm : 0 ≤ p.margins.left) (hh : ctx.header = []) (hft : ctx.footer = []) {s' : PState Fpdf} {r : PdfResult}
    (hr : process (Fpdf.engine p) ctx n (newProcessor (Fpdf.new p)) = some (r, s')) :
    s'.eng.out = (typeset p ctx ctx.body).out ∧ s'.eng.page = (typeset p ctx ctx.body).page := by
  have h := C116_typeset ht hm (by rw [hh]; simp) (by rw [hft]; simp) hr
  unfold Typist.foot at h
  rw [hft] at h
  exact h.elim id fun h => h.2

/-- C116, with C111: what the body puts on the pages of a document whose header and footer change no font is what it puts there without them. -/
theorem C116_document (hh : FontFree ctx.classes ctx.header) (hf : FontFree ctx.classes ctx.footer) (ht : 0 ≤ p.margins.top) (hm : 0 ≤ p.margins.left) {body : List Instr}
    {pages : Nat} {out : List Mark} (h : ComesOut (Fpdf.engine p) p ctx n body pages out) :
    let t := typeset p { bodyOnly ctx with body := body } body
    ∃ ls, (∀ l ∈ ls, Leaflet.Clean l) ∧ ls.length = pages ∧ out = dressed ls ∧ undressed ls = t.out ∧ pages = t.page := by
  obtain ⟨ls, h1, h2, h3, r, s, h4, _, h5, h6⟩ := C111_body hh hf h
  obtain ⟨f2, f3⟩ := C116_bare (ctx := { bodyOnly ctx with body := body }) ht hm rfl rfl h4
  exact ⟨ls, h1, h2, h3, by rw [← h6, f2], by rw [← h5, f3]⟩

/-- C116: the height of the paper and its upper and lower margin move lines from page to page, but no text to the left or right: in a document without boxes and
page numbers all texts are as far from the left as on any other paper of this width, in the same order. -/
theorem C116_heights {p' : Paper} (hp : SameColumns p p') (ht : 0 ≤ p.margins.top) (ht' : 0 ≤ p'.margins.top) (hm : 0 ≤ p.margins.left) (hb : PageFree ctx ctx.body)
    (hh : ctx.header = []) (hft : ctx.footer = []) {n' : Nat} {s s' : PState Fpdf} {r r' : PdfResult} (hr : process (Fpdf.engine p) ctx n (newProcessor (Fpdf.new p)) = some (r, s))
    (hr' : process (Fpdf.engine p') ctx n' (newProcessor (Fpdf.new p')) = some (r', s')) : columns s.eng.out = columns s'.eng.out := by
  rw [(C116_bare ht hm hh hft hr).1, (C116_bare ht' (hp.left ▸ hm) hh hft hr').1]
  exact typeset_columns hp hh hft hb

/-! ### Examples -/

private def plain : Styled := ⟨[], []⟩

private def exCtx (header footer body : List Instr) : Ctx := { classes := [], header := header, footer := footer, body := body, hyphenate := exHyph, resolve := id, describe := fun _ => some ⟨96, 48⟩ }

private def run (p : Paper) (ctx : Ctx) : Option (PdfResult × PState Fpdf) := process (Fpdf.engine p) ctx 2 (newProcessor (Fpdf.new p))

/-- A text, an image, and a text that goes on to the next page. -/
private def exBody : List Instr := [.setX 30, .text plain [.textBlock b!"one two"], .setX 50, .image plain b!"a.png", .setY (-19), .setX 40,
  .text ⟨[[([0, 1], .flt 24)]], []⟩ [.textBlock b!"large", .lineBreak, .textBlock b!"larger"]]

example : (typeset exPaper (exCtx [] [] exBody) exBody).out.filter (fun m => match m with | .feed _ => false | _ => true) =
    [.page, .text 1 30 10 defaultStyle.font defaultStyle.color.text b!"one", .text 1 36 10 defaultStyle.font defaultStyle.color.text b!" two",
     .image 1 b!"a.png" 50 (327 / 20) (127 / 5) (127 / 10), .text 1 40 81 { defaultStyle.font with pointSize := 24 } defaultStyle.color.text b!"large", .page,
     .text 2 40 10 { defaultStyle.font with pointSize := 24 } defaultStyle.color.text b!"larger"] := by
  decide +kernel

example : ∃ r s', run exPaper (exCtx [] [] exBody) = some (r, s') ∧ s'.eng.out = (typeset exPaper (exCtx [] [] exBody) exBody).out ∧ s'.eng.page = 2 := by
  have h : (run exPaper (exCtx [] [] exBody)).isSome = true := by decide +kernel
  obtain ⟨⟨r, s'⟩, hr⟩ := Option.isSome_iff_exists.mp h
  obtain ⟨h2, h3⟩ := C116_bare (p := exPaper) (ctx := exCtx [] [] exBody) (n := 2) (by decide +kernel) (by decide +kernel) rfl rfl hr
  exact ⟨r, s', hr, h2, h3.trans (by decide +kernel)⟩

/-- A table at the end of a page: its header row is set again on the next one, where the cell with the box is. -/
private def exTable : List Instr := [.setY 78, .table ⟨[], []⟩ 1
  [⟨plain, [⟨plain, 1, 1, [.textBlock b!"name"]⟩, ⟨plain, 1, 1, [.textBlock b!"what"]⟩]⟩,
   ⟨plain, [⟨plain, 1, 1, [.textBlock b!"a"]⟩, ⟨plain, 1, 1, [.textBlock b!"b c"]⟩]⟩,
   ⟨plain, [⟨plain, 1, 1, [.textBlock b!"d"]⟩, ⟨plain, 1, 1, [.box plain [.textBlock b!"boxed"]]⟩]⟩]]

example : (typeset exPaper (exCtx [] [] exTable) exTable).out.filter (fun m => match m with | .text .. => true | .page => true | _ => false) =
    let put : Nat → ℚ → ℚ → Str → Mark := fun page x y t => .text page x y defaultStyle.font defaultStyle.color.text t
    [.page, put 1 10 78 b!"name", put 1 49 78 b!"what", put 1 10 (2467 / 30) b!"a", put 1 49 (2467 / 30) b!"b", put 1 51 (2467 / 30) b!" c",
     .page, put 2 10 10 b!"name", put 2 49 10 b!"what", put 2 10 (427 / 30) b!"d", put 2 49 (427 / 30) b!"boxed"] := by
  decide +kernel

/-- A header that leaves a smaller font, a footer, and the table in between. -/
private def exHead : List Instr := [.font ⟨[[([0, 1], .flt 6)]], []⟩, .text plain [.textBlock b!"head"], .lineFeed 1]

private def exFoot : List Instr := [.setY (-9), .text plain [.textBlock b!"foot"]]

private def exLow : List Instr := .setY 85 :: exTable.tail

private def exDressed : Ctx := exCtx exHead exFoot exLow

example : ((typeset exPaper exDressed exLow).foot exPaper exDressed).out.filter (fun m => match m with | .text .. => true | .page => true | _ => false) =
    let put : Nat → ℚ → ℚ → Str → Mark := fun page x y t => .text page x y { defaultStyle.font with pointSize := 6 } defaultStyle.color.text t
    [.page, put 1 10 10 b!"head", put 1 10 85 b!"name", put 1 49 85 b!"what", put 1 10 (5227 / 60) b!"a", put 1 49 (5227 / 60) b!"b", put 1 51 (5227 / 60) b!" c",
     put 1 10 91 b!"foot", .page, put 2 10 10 b!"head", put 2 10 10 b!"name", put 2 49 10 b!"what", put 2 10 (727 / 60) b!"d", put 2 49 (727 / 60) b!"boxed",
     put 2 10 91 b!"foot"] := by
  decide +kernel

example : ∃ r s', run exPaper exDressed = some (r, s') ∧ s'.eng.out = ((typeset exPaper exDressed exLow).foot exPaper exDressed).out := by
  have h : (run exPaper exDressed).map (fun q => q.1.failed) = some false := by decide +kernel
  obtain ⟨r, s', h1, h2⟩ := C116_returns (p := exPaper) (ctx := exDressed) (n := 2) (by decide +kernel) (by decide +kernel) (by simp [exDressed, exCtx, exHead])
    (by simp [exDressed, exCtx, exFoot]) (le_refl 2)
  have e : r.failed = false := by
    have h1 : run exPaper exDressed = some (r, s') := h1
    rw [h1] at h
    exact Option.some.inj h
  exact ⟨r, s', h1, h2.elim (fun h => h.1) (fun h => absurd h.1 (by rw [e]; simp))⟩

/-- Paper of half the height. -/
private def low : Paper := { exPaper with height := 50 }

example : columns (typeset low (exCtx [] [] exBody) exBody).out = columns (typeset exPaper (exCtx [] [] exBody) exBody).out ∧
    (typeset low (exCtx [] [] exBody) exBody).out ≠ (typeset exPaper (exCtx [] [] exBody) exBody).out := by
  decide +kernel

private theorem exBody_free : PageFree (exCtx [] [] exBody) exBody := by
  intro i hi
  simp only [exBody, List.mem_cons, List.not_mem_nil, or_false] at hi
  rcases hi with rfl | rfl | rfl | rfl | rfl | rfl | rfl <;> first | exact trivial | exact fun _ _ _ => rfl

example : ∃ r s r' s', run exPaper (exCtx [] [] exBody) = some (r, s) ∧ run low (exCtx [] [] exBody) = some (r', s') ∧ columns s.eng.out = columns s'.eng.out := by
  have h : (run exPaper (exCtx [] [] exBody)).isSome = true := by decide +kernel
  have h' : (run low (exCtx [] [] exBody)).isSome = true := by decide +kernel
  obtain ⟨⟨r, s⟩, hr⟩ := Option.isSome_iff_exists.mp h
  obtain ⟨⟨r', s'⟩, hr'⟩ := Option.isSome_iff_exists.mp h'
  exact ⟨r, s, r', s', hr, hr', C116_heights (p := exPaper) (p' := low) (ctx := exCtx [] [] exBody) (n := 2) (n' := 2) ⟨rfl, rfl, rfl, rfl⟩ (by decide +kernel) (by decide +kernel) (by decide +kernel) exBody_free rfl rfl hr hr'⟩

/-- C116: for boxes this does not hold: a box that goes to the next page starts at its left margin there, wherever it would have been on its page. -/
theorem C116_boxes : let body : List Instr := [.setX 50, .setY 38, .box plain [.textBlock b!"boxed"]]
    columns (typeset exPaper (exCtx [] [] body) body).out = [(50, defaultStyle.font, defaultStyle.color.text, b!"boxed")] ∧
      columns (typeset low (exCtx [] [] body) body).out = [(10, defaultStyle.font, defaultStyle.color.text, b!"boxed")] := by
  decide +kernel

end Verif.Props
