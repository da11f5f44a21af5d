import Verif.Proofs.Margins
import Verif.Props.Inside
import Verif.Props.Write
/-
C97: texts stay between the left and the right margin.
-/
namespace Verif.Props
open Verif.Go Verif.Model Verif.Spec Verif.Proofs

variable {p : Paper} {ctx : Ctx} {N n : Nat} {δ : ℚ} {F : Font → Prop} {r : PdfResult} {s' : PState Fpdf}

/-- C97: in a document whose words have room on the lines, and whose texts, boxes and tables begin at the left margin, every text that is written,
on whatever page, starts behind the left margin and ends before the right edge of the printable area; with `δ` to spare if no text is block text. -/
theorem C97_between (hp : Spaces p δ) (hδ : 0 ≤ δ) (hl : 0 ≤ p.margins.left) (hf : FontSet ctx F) (hh : Lined p ctx N δ F true ctx.header)
    (hft : Lined p ctx N δ F false ctx.footer) (hb : Lined p ctx N δ F true ctx.body)
    (hr : process (Fpdf.engine p) ctx n (newProcessor (Fpdf.new p)) = some (r, s')) (hN : s'.eng.page ≤ N) : ∀ m ∈ s'.eng.out, InWidth p δ m :=
  fun m hm => (process_within ⟨⟨hp, hδ, hl⟩, hf, hh, hft, hb⟩ hr hN m hm).1

/-- C97: with the quarter of a micrometer to spare that the library wants, the library breaks none of the lines itself: the pages are those that the
processor meant. -/
theorem C97_library {g : Glyphs} (ha : Adds p g) (hp : Spaces p (1 / 4000)) (hl : 0 ≤ p.margins.left) (hf : FontSet ctx F)
    (hh : Lined p ctx N (1 / 4000) F true ctx.header) (hft : Lined p ctx N (1 / 4000) F false ctx.footer) (hb : Lined p ctx N (1 / 4000) F true ctx.body)
    (hr : process (Fpdf.engine p) ctx n (newProcessor (Fpdf.new p)) = some (r, s')) (hN : s'.eng.page ≤ N) :
    process (Fpdf.fullEngine p g) ctx n (newProcessor (Fpdf.new p)) = some (r, s') := by
  refine C96_same ha ctx n hr fun m hm => ?_
  have h := process_within ⟨⟨hp, by norm_num, hl⟩, hf, hh, hft, hb⟩ hr hN m hm
  cases m with
  | text page x y f c t =>
    obtain ⟨⟨_, h1⟩, h2⟩ := h
    obtain ⟨h3, h4, h5, h6⟩ := h2 (by norm_num)
    refine ⟨h3, fun hu => h4 hu.2, h5, h6, ?_⟩
    rw [Fpdf.cellMargin]
    linarith
  | _ => trivial

/-! ### Examples -/

private def plain : Styled := ⟨[], []⟩

private def exDoc (header footer body : List Instr) : Ctx :=
  { classes := [], header := header, footer := footer, body := body, hyphenate := exHyph, resolve := id, describe := fun _ => none }

private def run (ctx : Ctx) : Option (PdfResult × PState Fpdf) := process (Fpdf.engine exPaper) ctx 2 (newProcessor (Fpdf.new exPaper))

private def texts (r : PdfResult × PState Fpdf) : List (ℚ × Str) := r.2.eng.out.filterMap fun
  | .text _ x _ _ _ t => some (x, t)
  | _ => none

theorem exPaper_spaces : Spaces exPaper (1 / 4000) where
  nonneg f t := by
    show (0 : ℚ) ≤ 2 * (t.length : ℚ)
    positivity
  space f w := by
    show (2 * (w.length : ℚ)) + 1 / 4000 ≤ 2 * ((w.length + 1 : Nat) : ℚ)
    push_cast
    linarith
  wide f w := by
    have h : ((trimSpace w).length : ℚ) ≤ w.length := by exact_mod_cast trimSpace_length w
    show (2 * ((trimSpace w).length : ℚ)) + 1 / 10 ≤ 2 * ((w.length + 1 : Nat) : ℚ)
    push_cast
    linarith
  trims f w := by
    have h : ((trimSpace w).length : ℚ) ≤ w.length := by exact_mod_cast trimSpace_length w
    show (2 * ((trimSpace w).length : ℚ)) ≤ 2 * (w.length : ℚ)
    linarith

private def padded : Styled := ⟨[[([1, 1], .quad ⟨2, 2, 2, 2⟩)]], []⟩
private def word (c : Int) (w : Str) : TableCell := .mk padded c 1 [.textBlock w]

/-- A table with a cell over two columns, and a cell with two boxes below its text. -/
private def linedRows : List TableRow := [.mk plain [word 2 b!"over both columns", word 1 b!"last"],
  .mk plain [word 1 b!"a cell", .mk padded 1 1 [.textBlock b!"text", .box padded [.textBlock b!"a box"], .box padded [.textBlock b!"b"]], word 1 b!"c"]]

/-- A header with the page number, a footer on a line of its own, a right-aligned text of three lines, a table, a box, and a text on the second page. -/
private def exLined : Ctx := exDoc [.text plain [.textBlock b!"page {cp}"]] [.lineFeed 1, .text plain [.textBlock b!"end"]]
  [.text ⟨[[([4, 0], .str b!"right")]], []⟩ [.textBlock b!"a line of words wider than the printable area, and another one of them, so that it wraps"],
   .table plain 1 linedRows, .box ⟨[[([1, 1], .quad ⟨5, 1, 1, 1⟩)]], []⟩ [.textBlock b!"in a box"], .pageBreak, .text plain [.textBlock b!"on page {cp}"]]

/-- The words of the example as a list. -/
private def narrow (W : ℚ) (sty : Styles) (iss : List Instr) : Bool := (List.range 3).all fun page =>
  sty.align.h ≠ b!"block" && (tokens [] page sty iss).all fun t => match t with
    | some w => spaced exPaper.metric w < W
    | none => true

private theorem narrow_room {W : ℚ} {sty : Styles} {iss : List Instr} (h : narrow W sty iss = true) : RoomFor exPaper exLined 2 (1 / 4000) W sty iss := by
  intro page hp
  have h1 := List.all_eq_true.mp h page (List.mem_range.mpr (by omega))
  simp only [ne_eq, Bool.and_eq_true, decide_eq_true_eq] at h1
  rw [if_neg h1.1]
  intro w hw
  have := List.all_eq_true.mp h1.2 _ hw
  simpa using this

private abbrev dflt (f : Font) : Prop := f = defaultStyle.font

private theorem no_style {st : Styled} {t : Str} (h : StyleIn st (.textBlock t)) : False := nomatch h

private theorem exLined_styles {i : Instr} (hi : i ∈ exLined.header ++ exLined.footer ++ exLined.body) {st : Styled} (hs : StyleIn st i) :
    st = plain ∨ st = padded ∨ st = ⟨[[([4, 0], .str b!"right")]], []⟩ ∨ st = ⟨[[([1, 1], .quad ⟨5, 1, 1, 1⟩)]], []⟩ := by
  have one : ∀ {st' : Styled} {t : Str}, (StyleIn st (.text st' [.textBlock t]) ∨ StyleIn st (.box st' [.textBlock t])) → st = st' := by
    intro st' t h
    rcases h with h | h
    · cases h with
      | text => rfl
      | textIn hi h => rw [List.mem_singleton.mp hi] at h; exact absurd h no_style
    · cases h with
      | box => rfl
      | boxIn hi h => rw [List.mem_singleton.mp hi] at h; exact absurd h no_style
  have rows : ∀ {st' : Styled} {cells : List TableCell}, .mk st' cells ∈ linedRows → st' = plain ∧ ∀ c ∈ cells, c.st = padded ∧ ∀ i ∈ c.iss, StyleIn st i → st = padded := by
    intro st' cells h
    have cell : ∀ c w, (word c w).st = padded ∧ ∀ i ∈ (word c w).iss, StyleIn st i → st = padded := fun c w => ⟨rfl, fun i hi h => by
      rw [List.mem_singleton.mp hi] at h; exact absurd h no_style⟩
    simp only [linedRows, List.mem_cons, List.not_mem_nil, or_false, TableRow.mk.injEq] at h
    rcases h with ⟨rfl, rfl⟩ | ⟨rfl, rfl⟩ <;> refine ⟨rfl, fun c hc => ?_⟩ <;> simp only [List.mem_cons, List.not_mem_nil, or_false] at hc
    · rcases hc with rfl | rfl <;> exact cell _ _
    · rcases hc with rfl | rfl | rfl
      · exact cell _ _
      · refine ⟨rfl, fun i hi h => ?_⟩
        simp only [TableCell.iss, List.mem_cons, List.not_mem_nil, or_false] at hi
        rcases hi with rfl | rfl | rfl
        · exact absurd h no_style
        · exact one (.inr h)
        · exact one (.inr h)
      · exact cell _ _
  simp only [exLined, exDoc, List.mem_append, List.mem_cons, List.not_mem_nil, or_false] at hi
  rcases hi with (rfl | rfl | rfl) | rfl | rfl | rfl | rfl | rfl
  · exact Or.inl (one (.inl hs))
  · nomatch hs
  · exact Or.inl (one (.inl hs))
  · exact .inr (.inr (.inl (one (.inl hs))))
  · cases hs with
    | table => exact .inl rfl
    | row h => exact .inl (rows h).1
    | cell h h' => exact .inr (.inl ((rows h).2 _ h').1)
    | cellIn h h' hi hs => exact .inr (.inl (((rows h).2 _ h').2 _ hi hs))
  · exact .inr (.inr (.inr (one (.inr hs))))
  · nomatch hs
  · exact Or.inl (one (.inl hs))

private theorem exLined_fonts : FontSet exLined dflt := by
  refine ⟨rfl, fun i hi st hs sty hF => ?_, fun st rh rows hi st' hs sel sty hF => ?_⟩
  · rcases exLined_styles hi hs with rfl | rfl | rfl | rfl <;> exact hF
  · rcases exLined_styles hi hs with rfl | rfl | rfl | rfl <;> exact hF

/-- The words of a box, on each page. -/
private def boxOk (x0 x1 : ℚ) (st : Styled) (iss : List Instr) : Bool :=
  let sty := st.mutatedStyles [] defaultStyle
  decide (0 ≤ sty.dim.offsetX + sty.box.padding.left) &&
  decide (x0 + sty.dim.offsetX + sty.box.padding.left + boxInside (x1 - x0) sty ≤ exPaper.width - exPaper.margins.right - 2) &&
  ((List.range 3).all fun page => decide (tokens [] (page : Nat) sty iss ≠ [])) && narrow (boxInside (x1 - x0) sty) sty iss

private theorem boxOk_room {x0 x1 : ℚ} {st : Styled} {iss : List Instr} (h : boxOk x0 x1 st iss = true) : BoxRoom exPaper exLined 2 (1 / 4000) dflt x0 x1 st iss := by
  intro f hf
  subst hf
  simp only [boxOk, Bool.and_eq_true, decide_eq_true_eq] at h
  obtain ⟨⟨⟨h1, h2⟩, h3⟩, h4⟩ := h
  refine ⟨h1, h2, .inr fun page hp => ?_, narrow_room h4⟩
  have h5 := List.all_eq_true.mp h4 page (List.mem_range.mpr (by omega))
  simp only [ne_eq, Bool.and_eq_true, decide_eq_true_eq] at h5
  have h6 := List.all_eq_true.mp h3 page (List.mem_range.mpr (by omega))
  show (if (st.mutatedStyles [] defaultStyle).align.h = b!"block" then _ else _) ≠ []
  rw [if_neg h5.1]
  exact of_decide_eq_true h6

private def cellOk (x0 x1 : ℚ) (sty : Styles) (iss : List Instr) : Bool :=
  decide (exPaper.margins.left ≤ x0 + sty.box.padding.left) && decide (x1 - sty.box.padding.right ≤ exPaper.width - exPaper.margins.right - 2) &&
  narrow (x1 - x0 - sty.box.padding.left - sty.box.padding.right) sty iss &&
  iss.all fun
    | .box st is => boxOk (x0 + sty.box.padding.left) (x1 - sty.box.padding.right) st is
    | _ => true

private def tableOk (rows : List SetRow) : Bool := rows.all fun r => r.cells.zipIdx.all fun q => match q.1.2 with
  | none => true
  | some c =>
    let x0 := exPaper.margins.left + ((r.cells.take q.2).map (·.1)).sum
    cellOk x0 (x0 + c.width) c.sty c.iss

private theorem exLined_table : TableRoom exPaper exLined 2 (1 / 4000) dflt plain linedRows := by
  intro f hf sty r hr j w c hj
  subst hf
  have h : tableOk (layTable (fun _ _ _ (u : Unit) => (0, u)) [] (wideSet ((areaOf exPaper).x1 - (areaOf exPaper).x0) (plain.mutatedStyles [] defaultStyle).dim.width)
      (plain.mutatedStyles [] defaultStyle) linedRows ()).1 = true := by
    decide +kernel
  have h1 := List.all_eq_true.mp (List.all_eq_true.mp h r hr) ((w, some c), j) (List.mk_mem_zipIdx_iff_getElem?.mpr hj)
  simp only [cellOk, Bool.and_eq_true, decide_eq_true_eq] at h1
  obtain ⟨⟨⟨h1, h2⟩, h3⟩, h4⟩ := h1
  exact ⟨h1, h2, narrow_room h3, fun st is hm => boxOk_room (List.all_eq_true.mp h4 _ hm)⟩

private theorem exLined_header : Lined exPaper exLined 2 (1 / 4000) dflt true exLined.header :=
  ⟨rfl, fun f hf => by subst hf; exact narrow_room (by decide +kernel), trivial⟩

private theorem exLined_footer : Lined exPaper exLined 2 (1 / 4000) dflt false exLined.footer :=
  ⟨rfl, fun f hf => by subst hf; exact narrow_room (by decide +kernel), trivial⟩

private theorem exLined_body : Lined exPaper exLined 2 (1 / 4000) dflt true exLined.body := by
  refine ⟨rfl, fun f hf => ?_, rfl, exLined_table, rfl, boxOk_room (by decide +kernel), rfl, fun f hf => ?_, trivial⟩
  · subst hf; exact narrow_room (by decide +kernel)
  · subst hf; exact narrow_room (by decide +kernel)

/-- It has two pages, and 41 texts; the second box of the cell starts at the left margin, not in its cell. -/
example : (run exLined).map (fun r => (r.2.eng.page, (texts r).length)) = some (2, 41) := by decide +kernel

/-- So the theorems apply to it. -/
example : ∃ r s', run exLined = some (r, s') ∧ (∀ m ∈ s'.eng.out, InWidth exPaper (1 / 4000) m) ∧
    process (Fpdf.fullEngine exPaper exGlyphs) exLined 2 (newProcessor (Fpdf.new exPaper)) = some (r, s') := by
  have h : (run exLined).map (fun r => r.2.eng.page) = some 2 := by decide +kernel
  obtain ⟨⟨r, s'⟩, hr, hp⟩ := Option.map_eq_some_iff.mp h
  exact ⟨r, s', hr, C97_between exPaper_spaces (by norm_num) (by decide +kernel) exLined_fonts exLined_header exLined_footer exLined_body hr (le_of_eq hp),
    C97_library exGlyphs_adds exPaper_spaces (by decide +kernel) exLined_fonts exLined_header exLined_footer exLined_body hr (le_of_eq hp)⟩

/-- A right-aligned text of 14 lines, 12 of them on the first page, and a footer that starts with a text. -/
private def exFooter : Ctx := exDoc [] [.text plain [.textBlock b!"the end of the very page"]]
  [.text ⟨[[([4, 0], .str b!"right")]], []⟩ (List.replicate 14 (.textBlock b!"aaaaaaaaaaaaaaaaaaaa "))]

/-- C97: the condition on footers is needed.  A footer starts at the position where the page break has come, not at the left margin.  Here that is 46 mm, the
beginning of a right-aligned line, and the footer of the first page runs over the right edge at 88 mm with its last word; the footer of the
second page, for which the position is at the left margin, ends at 58 mm. -/
theorem C97_footer : ((run exFooter).map fun r => (texts r).filter fun q => q.2 ≠ b!"aaaaaaaaaaaaaaaaaaaa") =
    some [(46, b!"the"), (52, b!" end"), (60, b!" of"), (66, b!" the"), (74, b!" very"), (84, b!" page"),
      (10, b!"the"), (16, b!" end"), (24, b!" of"), (30, b!" the"), (38, b!" very"), (48, b!" page")] := by
  decide +kernel

end Verif.Props
