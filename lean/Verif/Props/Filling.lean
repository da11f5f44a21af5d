import Mathlib.Algebra.Order.Archimedean.Basic
import Verif.Proofs.Filling
import Verif.Props.Leaflets
/-
C115: where the lines of texts stand, page after page.
-/
namespace Verif.Props
open Verif.Go Verif.Model Verif.Spec Verif.Proofs

variable {p : Paper} {ctx : Ctx} {F : Font → Prop} {n : Nat} {s' : PState Fpdf} {r : PdfResult}

/-- C115: the texts of a document without boxes, tables, header and footer are line by line below each other.  A line that does not end above the bottom margin
stands at the top of the next page, with all its texts, and nothing else moves a line. -/
theorem C115_flow (ht : 0 ≤ p.margins.top) (hF : FontSizes ctx F) (hl : LinesFit p F) (hb : PlainTexts ctx F ctx.body) (hh : ctx.header = []) (hft : ctx.footer = [])
    (hr : process (Fpdf.engine p) ctx n (newProcessor (Fpdf.new p)) = some (r, s')) :
    let fl := flowsOf p ctx defaultStyle.font (1, p.margins.top) ctx.body
    spots s'.eng.out = flowing p (1, p.margins.top) fl ∧ s'.eng.page = (flowEnd p (1, p.margins.top) fl).1 :=
  process_flow hF hh hft ht hl hb hr

/-- C115: if no line of a text is empty, each page but the last one has the same number of lines: as many as fit.  Line `i`, counted from 0, is on page
`1 + i / k`, as the one with number `i % k`, and there are as many pages as this takes. -/
theorem C115_even (ht : 0 ≤ p.margins.top) (hF : FontSizes ctx F) (hl : LinesFit p F) (hb : PlainTexts ctx F ctx.body) (hh : ctx.header = []) (hft : ctx.footer = [])
    {st : Styled} {iss : List Instr} {sty : Styles} (hbody : ctx.body = [.text st iss]) (hsty : sty = st.mutatedStyles ctx.classes defaultStyle)
    (hne : ∀ l ∈ linesOn p ctx 1 sty iss, l ≠ []) {d : ℚ} (hd : d = lineHeight sty.font * sty.dim.lineSpacing) (hd0 : 0 ≤ d) {k : Nat}
    (hk : PageHolds p (lineHeight sty.font) d k) (hr : process (Fpdf.engine p) ctx n (newProcessor (Fpdf.new p)) = some (r, s')) :
    spots s'.eng.out = (linesOn p ctx 1 sty iss).zipIdx.flatMap (fun l => l.1.map fun t => (1 + l.2 / k, p.margins.top + ((l.2 % k : Nat) : ℚ) * d, t)) ∧
      s'.eng.page = 1 + ((linesOn p ctx 1 sty iss).length - 1) / k := by
  obtain ⟨h2, h3⟩ := C115_flow ht hF hl hb hh hft hr
  have e : flowsOf p ctx defaultStyle.font (1, p.margins.top) ctx.body = (linesOn p ctx 1 sty iss).map (Flow.line (lineHeight sty.font) d) := by
    rw [hbody, hd, hsty]
    simp only [flowsOf, List.append_nil]
  rw [e] at h2 h3
  obtain ⟨h4, h5⟩ := flowing_even hd0 hk (linesOn p ctx 1 sty iss) 0 hne
  have e0 : evenAt p d k 0 = (1, p.margins.top) := rfl
  rw [e0] at h4 h5
  refine ⟨h2.trans h4, h3.trans ?_⟩
  rw [h5, Nat.zero_add]
  cases (linesOn p ctx 1 sty iss).length with
  | zero => simp [evenAt]
  | succ m => rfl

private theorem spots_append (a b : List Mark) : spots (a ++ b) = spots a ++ spots b := List.filterMap_append

private theorem spots_undressed (ls : List Leaflet) : spots (undressed ls) = spots (ls.flatMap (·.body)) := by
  induction ls with
  | nil => rfl
  | cons l ls ih =>
    unfold undressed at ih ⊢
    simp only [List.flatMap_cons, spots_append, ih]
    rfl

/-- C115, with C111: the same in a document with header and footer, for the texts of the body. -/
theorem C115_document (hh : FontFree ctx.classes ctx.header) (hf : FontFree ctx.classes ctx.footer) (ht : 0 ≤ p.margins.top) {body : List Instr}
    (hF : FontSizes { bodyOnly ctx with body := body } F) (hl : LinesFit p F) (hb : PlainTexts ctx F body) {pages : Nat} {out : List Mark}
    (h : ComesOut (Fpdf.engine p) p ctx n body pages out) :
    let fl := flowsOf p ctx defaultStyle.font (1, p.margins.top) body
    ∃ ls, (∀ l ∈ ls, Leaflet.Clean l) ∧ ls.length = pages ∧ out = dressed ls ∧
      spots (ls.flatMap (·.body)) = flowing p (1, p.margins.top) fl ∧ pages = (flowEnd p (1, p.margins.top) fl).1 := by
  obtain ⟨ls, h1, h2, h3, r, s, h4, _, h5, h6⟩ := C111_body hh hf h
  obtain ⟨f2, f3⟩ := C115_flow (ctx := { bodyOnly ctx with body := body }) ht hF hl hb rfl rfl h4
  have e : ∀ (is : List Instr) (f : Font) (at_ : Nat × ℚ), flowsOf p { bodyOnly ctx with body := body } f at_ is = flowsOf p ctx f at_ is := by
    intro is
    induction is with
    | nil => intro f at_; rfl
    | cons i is ih =>
      intro f at_
      cases i <;> simp only [flowsOf, ih] <;> rfl
  rw [e] at f2 f3
  refine ⟨ls, h1, h2, h3, ?_, by rw [← h5, f3]⟩
  rw [← spots_undressed, ← h6]
  exact f2

/-- C115: which lines a page holds is a matter of the room between its margins: there is a number for every distance above 0, if a line fits at all. -/
theorem C115_holds {h d : ℚ} (hd : 0 < d) (hfit : p.margins.top + h ≤ p.height - p.margins.bottom) : ∃ k, PageHolds p h d k ∧ ∀ k', PageHolds p h d k' → k' = k := by
  have hex : ∃ k : Nat, p.height - p.margins.bottom < p.margins.top + k * d + h := by
    obtain ⟨k, hk⟩ := exists_nat_gt ((p.height - p.margins.bottom - p.margins.top - h) / d)
    refine ⟨k, ?_⟩
    rw [div_lt_iff₀ hd] at hk
    linarith
  have key : ∀ k k', PageHolds p h d k → PageHolds p h d k' → ¬ k < k' := by
    rintro k k' ⟨_, _, h1⟩ ⟨_, h2, _⟩ hlt
    have : ((k + 1 : Nat) : ℚ) ≤ k' := by exact_mod_cast hlt
    push_cast at this
    have := mul_le_mul_of_nonneg_right (show (k : ℚ) ≤ k' - 1 by linarith) (le_of_lt hd)
    linarith
  have h1 := Nat.find_spec hex
  have hpos : 0 < Nat.find hex := by
    rw [Nat.find_pos]
    push_cast
    linarith
  have h2 := Nat.find_min hex (m := Nat.find hex - 1) (by omega)
  have hk : PageHolds p h d (Nat.find hex) := by
    refine ⟨hpos, ?_, h1⟩
    rw [Nat.cast_sub (by omega)] at h2
    push_cast at h2
    linarith
  exact ⟨_, hk, fun k' h' => le_antisymm (not_lt.mp (key _ _ hk h')) (not_lt.mp (key _ _ h' hk))⟩

/-! ### Examples -/

private def plain : Styled := ⟨[], []⟩

/-- A text of 25 lines of two words. -/
private def exText : List Instr := (List.replicate 25 [.textBlock b!"one two", .lineBreak]).flatten

private def exCtx (header footer body : List Instr) : Ctx := { classes := [], header := header, footer := footer, body := body, hyphenate := exHyph, resolve := id, describe := fun _ => none }

private def run (ctx : Ctx) : Option (PdfResult × PState Fpdf) := process (Fpdf.engine exPaper) ctx 2 (newProcessor (Fpdf.new exPaper))

private def dflt : Font → Prop := (· = defaultStyle.font)

private theorem plain_same (sty : Styles) : plain.mutatedStyles [] sty = sty ∧ ∀ sel, plain.mutatedStylesWithSelector sel [] sty = sty := ⟨rfl, fun _ => rfl⟩

private theorem fonts_plain {body : List Instr} (h : ∀ i ∈ body, ∀ st, StyleIn st i → st = plain) : FontSizes (exCtx [] [] body) dflt where
  default := rfl
  plain i hi st hs sty hf := by rw [h i (by simpa [exCtx] using hi) st hs]; exact hf
  selected i hi st hs sel sty hf := by rw [h i (by simpa [exCtx] using hi) st hs]; exact hf
  size f hf := by rw [hf]; decide +kernel

private theorem exText_styles (st : Styled) (h : StyleIn st (.text plain exText)) : st = plain := by
  cases h with
  | text => rfl
  | textIn hm hs =>
    have : ∀ i ∈ exText, i = .textBlock b!"one two" ∨ i = .lineBreak := by
      intro i hi
      simp only [exText, List.mem_flatten, List.mem_replicate] at hi
      obtain ⟨l, ⟨_, rfl⟩, hi⟩ := hi
      simpa using hi
    rcases this _ hm with rfl | rfl <;> nomatch hs

private theorem exText_fonts : FontSizes (exCtx [] [] [.text plain exText]) dflt :=
  fonts_plain fun i hi st hs => by
    simp only [List.mem_singleton] at hi
    subst hi
    exact exText_styles st hs

private theorem exText_plain (header footer : List Instr) : PlainTexts (exCtx header footer [.text plain exText]) dflt [.text plain exText] := by
  intro i hi
  simp only [List.mem_singleton] at hi
  subst hi
  intro f _ sty st' t hm
  rw [exText_styles st' (.textIn hm .paragraph)]
  rfl

private theorem exFit : LinesFit exPaper dflt := by
  intro f hf
  rw [hf]
  decide +kernel

/-- The page holds 12 lines, and the text has 25: there are three pages, with one line on the last one. -/
example : PageHolds exPaper (lineHeight defaultStyle.font) (lineHeight defaultStyle.font * defaultStyle.dim.lineSpacing) 12 := by
  unfold PageHolds
  decide +kernel

example : ∃ r s', run (exCtx [] [] [.text plain exText]) = some (r, s') ∧ s'.eng.page = 3 ∧
    spots s'.eng.out = (List.range 25).flatMap fun i => [(1 + i / 12, 10 + ((i % 12 : Nat) : ℚ) * (127 / 20), b!"one"), (1 + i / 12, 10 + ((i % 12 : Nat) : ℚ) * (127 / 20), b!" two")] := by
  have h : (run (exCtx [] [] [.text plain exText])).isSome = true := by decide +kernel
  obtain ⟨⟨r, s'⟩, hr⟩ := Option.isSome_iff_exists.mp h
  obtain ⟨h1, h2⟩ := C115_even (ctx := exCtx [] [] [.text plain exText]) (by decide +kernel) exText_fonts exFit (exText_plain [] []) rfl rfl rfl rfl (by decide +kernel) rfl
    (by decide +kernel) (k := 12) (by unfold PageHolds; decide +kernel) hr
  refine ⟨r, s', hr, ?_, ?_⟩
  · rw [h2]; decide +kernel
  · rw [h1]; decide +kernel

/-- What the program puts on the pages, with line feeds, moves, page breaks and an empty line. -/
example : (run (exCtx [] [] [.text plain [.textBlock b!"one", .lineBreak, .lineBreak, .textBlock b!"two"], .lineFeed 2, .text plain [.textBlock b!"three"], .setY (-15),
      .text plain [.textBlock b!"four", .lineBreak, .textBlock b!"five"], .pageBreak, .text plain [.textBlock b!"six"]])).map (fun x => spots x.2.eng.out) =
    some [(1, 10, b!"one"), (1, 227 / 10, b!"two"), (1, 2251 / 60, b!"three"), (1, 85, b!"four"), (2, 10, b!"five"), (3, 10, b!"six")] := by
  decide +kernel

/-- The font of the last word of a text stays: the next text is as large. -/
example : (run (exCtx [] [] [.text plain [.textBlock b!"one"], .text ⟨[[([0, 1], .flt 24)]], []⟩ [.textBlock b!"two"], .text plain [.textBlock b!"three"],
      .text plain [.textBlock b!"four"]])).map (fun x => spots x.2.eng.out) =
    some [(1, 10, b!"one"), (1, 327 / 20, b!"two"), (1, 581 / 20, b!"three"), (1, 167 / 4, b!"four")] := by
  decide +kernel

/-- C115: the condition on sizes is needed.  A line with words of two sizes can come apart: a large word does not fit on the page and goes on to the next one, as do
the words after it, but a small word before it stays. -/
theorem C115_sizes : (run (exCtx [] [] [.setY 84, .text plain [.textBlock b!"small", .paragraph ⟨[[([0, 1], .flt 36)]], []⟩ b!"LARGE", .textBlock b!"next"]])).map (fun x => spots x.2.eng.out) =
    some [(1, 84, b!"small"), (2, 10, b!" LARGE"), (2, 10, b!" next")] := by
  decide +kernel

/-- C115: a line must fit on a page.  If it does not, each of its words gets a page. -/
theorem C115_high : (run (exCtx [] [] [.text ⟨[[([0, 1], .flt 240)]], []⟩ [.textBlock b!"a b c"]])).map (fun x => spots x.2.eng.out) =
    some [(2, 10, b!"a"), (3, 10, b!" b"), (4, 10, b!" c")] := by
  decide +kernel

end Verif.Props
