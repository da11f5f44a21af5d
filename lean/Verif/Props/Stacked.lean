import Verif.Proofs.Stacked
import Verif.Proofs.Words
import Verif.Props.Margins
/-
C98: texts are one below the other.
-/
namespace Verif.Props
open Verif.Go Verif.Model Verif.Spec Verif.Proofs

variable {p : Paper} {ctx : Ctx} {n : Nat} {F : Font → Prop} {r : PdfResult} {s' : PState Fpdf}

/-- C98: in a document without tables, with line spacings of 1 or more, a single size in each text, boxes as high as their words, and no moves upwards, whatever
text of the body is written after another one is on a later page, below it, or behind it on the same line.  Texts of the header and the footer are put where
these want. -/
theorem C98_follows (hp : Spaces p 0) (ht : 0 ≤ p.margins.top) (hw : 0 ≤ p.width) (hf : FontSizes ctx F) (hb : Stacked p ctx F true ctx.body)
    (hr : process (Fpdf.engine p) ctx n (newProcessor (Fpdf.new p)) = some (r, s')) :
    s'.eng.out.Pairwise fun m m' => ComesAfter p m m' ∨ InHeaderFooter p ctx s'.eng.out m ∨ InHeaderFooter p ctx s'.eng.out m' :=
  process_stack hf hp ht hw hb hr

/-- With neither header nor footer nothing is put on the pages by them. -/
theorem C98_nothing (hh : ctx.header = []) (hft : ctx.footer = []) (out : List Mark) (m : Mark) : ¬ InHeaderFooter p ctx out m := by
  rintro ⟨n, iss, s, s1, new, hi, hc, ho, hm, _⟩
  have hn : iss = [] := by rcases hi with rfl | rfl <;> assumption
  rw [hn, callback_eq] at hc
  obtain ⟨q, hq, e⟩ := Option.map_eq_some_iff.mp hc
  simp only [processInstrs, Pure.pure, StateT.pure, Option.some.injEq] at hq
  simp only [Prod.mk.injEq, true_and] at e
  rw [← e, ← hq] at ho
  have : new = [] := List.self_eq_append_right.mp ho
  rw [this] at hm
  simp at hm

/-- C98: without header and footer all texts come in reading order, and no two of them overlap. -/
theorem C98_apart (hp : Spaces p 0) (ht : 0 ≤ p.margins.top) (hw : 0 ≤ p.width) (hf : FontSizes ctx F) (hb : Stacked p ctx F true ctx.body)
    (hh : ctx.header = []) (hft : ctx.footer = []) (hr : process (Fpdf.engine p) ctx n (newProcessor (Fpdf.new p)) = some (r, s')) :
    s'.eng.out.Pairwise fun m m' => ComesAfter p m m' ∧ Apart p m m' := by
  refine (C98_follows hp ht hw hf hb hr).imp fun h => ?_
  rcases h with h | h | h
  · refine ⟨h, ?_⟩
    rename_i m m'
    cases m with
    | text k x y f c t =>
      cases m' with
      | text k' x' y' f' c' t' =>
        rcases h with h | ⟨_, h | ⟨_, h⟩⟩
        · exact Or.inl (Nat.ne_of_lt h)
        · exact Or.inr (Or.inl h)
        · exact Or.inr (Or.inr (Or.inr (Or.inl h)))
      | _ => trivial
    | _ => trivial
  · exact absurd h (C98_nothing hh hft _ _)
  · exact absurd h (C98_nothing hh hft _ _)

/-! ### Examples -/

private def plain : Styled := ⟨[], []⟩

private def size (q : ℚ) : Styled := ⟨[[([0, 1], .flt q)]], []⟩

private def block : Styled := ⟨[[([4, 0], .str b!"block")]], []⟩

private def padded : Styled := ⟨[[([1, 1], .quad ⟨5, 1, 1, 1⟩)]], []⟩

private def exDoc (header footer body : List Instr) : Ctx :=
  { classes := [], header := header, footer := footer, body := body, hyphenate := exHyph, resolve := id, describe := fun _ => none }

private def run (ctx : Ctx) : Option (PdfResult × PState Fpdf) := process (Fpdf.engine exPaper) ctx 2 (newProcessor (Fpdf.new exPaper))

private structure Put where
  page : Nat
  y : ℚ
  height : ℚ
  text : Str
  deriving DecidableEq

private def texts (r : PdfResult × PState Fpdf) : List Put := r.2.eng.out.filterMap fun
  | .text k _ y f _ t => some ⟨k, y, lineHeight f, t⟩
  | _ => none

/-- A header and a footer at the edges of the page, a position on the first page, a text with a paragraph, block text, boxes with and without words, and two page
breaks. -/
private def exBody : List Instr :=
  [.setY 20, .text plain [.textBlock b!"page {cp}", .paragraph plain b!"of a text with words enough for more than one line of the page"], .lineFeed (1 / 2),
   .text block [.textBlock b!"words that are to be spread over the width of their line"], .box padded [.textBlock b!"in a box", .lineBreak, .textBlock b!"of two lines"],
   .box plain [], .pageBreak, .setY 80, .text plain [.textBlock b!"down", .lineBreak, .textBlock b!"there"]]

private def exHF : Ctx := exDoc [.setY 2, .text plain [.textBlock b!"page {cp}"]] [.setY 95, .text plain [.textBlock b!"end"]] exBody

private def exPlain : Ctx := exDoc [] [] exBody

private abbrev dflt (f : Font) : Prop := f = defaultStyle.font

private theorem exPaper_spaces0 : Spaces exPaper 0 where
  nonneg := exPaper_spaces.nonneg
  space f w := by have := exPaper_spaces.space f w; linarith
  wide := exPaper_spaces.wide
  trims := exPaper_spaces.trims

/-- Its styles change no fonts. -/
private theorem keeps_font {st : Styled} (h : st = plain ∨ st = block ∨ st = padded) :
    (∀ sty, (st.mutatedStyles [] sty).font = sty.font) ∧ ∀ sel sty, (st.mutatedStylesWithSelector sel [] sty).font = sty.font := by
  rcases h with rfl | rfl | rfl <;> exact ⟨fun _ => rfl, fun _ _ => rfl⟩

private theorem ex_styles {i : Instr} (hi : i ∈ exHF.header ++ exHF.footer ++ exBody) {st : Styled} (hs : StyleIn st i) : st = plain ∨ st = block ∨ st = padded := by
  have sub : ∀ {st' : Styled} {iss : List Instr}, (∀ j ∈ iss, (∃ t, j = .textBlock t) ∨ (∃ t, j = .paragraph plain t) ∨ j = .lineBreak) →
      (StyleIn st (.text st' iss) ∨ StyleIn st (.box st' iss)) → st = st' ∨ st = plain := by
    intro st' iss hiss h
    have inner : ∀ j ∈ iss, StyleIn st j → st = plain := by
      intro j hj h
      rcases hiss j hj with ⟨t, rfl⟩ | ⟨t, rfl⟩ | rfl
      · nomatch h
      · cases h; rfl
      · nomatch h
    rcases h with h | h
    · cases h with
      | text => exact Or.inl rfl
      | textIn hi h => exact Or.inr (inner _ hi h)
    · cases h with
      | box => exact Or.inl rfl
      | boxIn hi h => exact Or.inr (inner _ hi h)
  simp only [exHF, exDoc, exBody, List.mem_append, List.mem_cons, List.not_mem_nil, or_false] at hi
  rcases hi with ((rfl | rfl) | rfl | rfl) | rfl | rfl | rfl | rfl | rfl | rfl | rfl | rfl | rfl
  · nomatch hs
  · exact Or.inl ((sub (by simp) (.inl hs)).elim id id)
  · nomatch hs
  · exact Or.inl ((sub (by simp) (.inl hs)).elim id id)
  · nomatch hs
  · exact Or.inl ((sub (by simp) (.inl hs)).elim id id)
  · nomatch hs
  · exact ((sub (by simp) (.inl hs)).elim (fun h => Or.inr (Or.inl h)) Or.inl)
  · exact ((sub (by simp) (.inr hs)).elim (fun h => Or.inr (Or.inr h)) Or.inl)
  · exact Or.inl ((sub (by simp) (.inr hs)).elim id id)
  · nomatch hs
  · nomatch hs
  · exact Or.inl ((sub (by simp) (.inl hs)).elim id id)

private theorem exHF_fonts : FontSizes exHF dflt where
  default := rfl
  plain i hi st hs sty hF := by rw [show exHF.classes = [] from rfl, (keeps_font (ex_styles hi hs)).1]; exact hF
  selected i hi st hs sel sty hF := by rw [show exHF.classes = [] from rfl, (keeps_font (ex_styles hi hs)).2]; exact hF
  size f hf := by rw [hf]; decide +kernel

private theorem exPlain_fonts : FontSizes exPlain dflt where
  default := rfl
  plain i hi st hs sty hF := exHF_fonts.plain i (List.mem_append_right _ hi) st hs sty hF
  selected i hi st hs sel sty hF := exHF_fonts.selected i (List.mem_append_right _ hi) st hs sel sty hF
  size := exHF_fonts.size

private theorem wordsOf_plain {t : Str} (h : ¬ b!"{cp}" <:+: t) (page : Int) : wordsOf page t = wordsOf 1 t := by
  unfold wordsOf piecesOf
  rw [replaceAll_none (by decide) h, replaceAll_none (by decide) h]

private theorem airy_one {hdr ftr : List Instr} {st : Styled} {iss : List Instr} (h : 1 ≤ (st.mutatedStyles [] defaultStyle).dim.lineSpacing)
    (hi : ∀ st' t, .paragraph st' t ∈ iss → st' = plain) : Airy (exDoc hdr ftr exBody) (st.mutatedStyles [] defaultStyle) iss :=
  ⟨h, fun st' t hm => by rw [hi st' t hm]; rfl⟩

private theorem ex_stacked {hdr ftr : List Instr} : Stacked exPaper (exDoc hdr ftr exBody) dflt true exBody := by
  refine ⟨rfl, by decide +kernel, ?_, by norm_num, ?_, ?_, ?_, rfl, by decide +kernel, ?_, trivial⟩
  · intro f hf
    subst hf
    exact airy_one (by decide +kernel) (by simp +contextual)
  · intro f hf
    subst hf
    exact airy_one (by decide +kernel) (by simp)
  · intro f hf
    subst hf
    have key : ∀ page, wordsOn (exDoc hdr ftr exBody) page (padded.mutatedStyles [] defaultStyle)
          [.textBlock b!"in a box", .lineBreak, .textBlock b!"of two lines"] =
        tokens [] 1 (padded.mutatedStyles [] defaultStyle) [.textBlock b!"in a box", .lineBreak, .textBlock b!"of two lines"] := by
      intro page
      unfold wordsOn
      rw [if_neg (by decide +kernel)]
      simp only [tokens]
      rw [wordsOf_plain (by decide +kernel) page, wordsOf_plain (by decide +kernel) page]
    refine ⟨airy_one (by decide +kernel) (by simp), ?_, ?_, Or.inr ⟨?_, fun page page' => ⟨(key page).trans (key page').symm, (key page).trans_ne (by decide +kernel)⟩⟩⟩
    · show 0 ≤ (padded.mutatedStyles [] defaultStyle).dim.offsetY + (padded.mutatedStyles [] defaultStyle).box.padding.top
      decide +kernel
    · show 0 ≤ (padded.mutatedStyles [] defaultStyle).box.padding.bottom
      decide +kernel
    · show (padded.mutatedStyles [] defaultStyle).dim.height ≤ 0
      decide +kernel
  · intro f hf
    subst hf
    refine ⟨airy_one (by decide +kernel) (by simp), ?_, ?_, Or.inl rfl⟩
    · show 0 ≤ (plain.mutatedStyles [] defaultStyle).dim.offsetY + (plain.mutatedStyles [] defaultStyle).box.padding.top
      decide +kernel
    · show 0 ≤ (plain.mutatedStyles [] defaultStyle).box.padding.bottom
      decide +kernel
  · intro f hf
    subst hf
    exact airy_one (by decide +kernel) (by simp)

/-- It has three pages: the last word does not fit on the second one. -/
example : (run exHF).map (fun r => (r.2.eng.page, (texts r).length)) = some (3, 45) := by decide +kernel

/-- So the theorems apply to them. -/
example : ∃ r s', run exHF = some (r, s') ∧
    s'.eng.out.Pairwise fun m m' => ComesAfter exPaper m m' ∨ InHeaderFooter exPaper exHF s'.eng.out m ∨ InHeaderFooter exPaper exHF s'.eng.out m' := by
  have h : (run exHF).isSome = true := by decide +kernel
  obtain ⟨⟨r, s'⟩, hr⟩ := Option.isSome_iff_exists.mp h
  exact ⟨r, s', hr, C98_follows exPaper_spaces0 (by decide +kernel) (by decide +kernel) exHF_fonts ex_stacked hr⟩

example : ∃ r s', run exPlain = some (r, s') ∧ s'.eng.out.Pairwise fun m m' => ComesAfter exPaper m m' ∧ Apart exPaper m m' := by
  have h : (run exPlain).isSome = true := by decide +kernel
  obtain ⟨⟨r, s'⟩, hr⟩ := Option.isSome_iff_exists.mp h
  exact ⟨r, s', hr, C98_apart exPaper_spaces0 (by decide +kernel) (by decide +kernel) exPlain_fonts ex_stacked rfl rfl hr⟩

/-- C98: the condition on sizes is needed.  The line feed after a line is as high as its last word: the second line runs into the large word of the first one. -/
theorem C98_sizes : (run (exDoc [] [] [.text plain [.paragraph (size 36) b!"LARGE", .textBlock b!"small", .lineBreak, .textBlock b!"next"]])).map texts =
    some [⟨1, 10, 127 / 10, b!"LARGE"⟩, ⟨1, 10, 127 / 30, b!" small"⟩, ⟨1, 327 / 20, 127 / 30, b!"next"⟩] := by
  decide +kernel

/-- C98: the condition on the height of boxes is needed.  What comes after a box whose height is set begins below this height, wherever the words end. -/
theorem C98_low : (run (exDoc [] [] [.box ⟨[[([2, 1], .flt 2)]], []⟩ [.textBlock b!"one", .lineBreak, .textBlock b!"two"], .text plain [.textBlock b!"next"]])).map texts =
    some [⟨1, 10, 127 / 30, b!"one"⟩, ⟨1, 327 / 20, 127 / 30, b!"two"⟩, ⟨1, 12, 127 / 30, b!"next"⟩] := by
  decide +kernel

/-- C98: the words of boxes are needed as well.  A box with nothing but blanks in it, and a line spacing of 3, has a negative height, and what comes after it
begins above the end of what came before it; here even above its beginning. -/
theorem C98_blank : (run (exDoc [] [] [.setY 20, .text plain [.textBlock b!"one"], .box ⟨[[([2, 2], .flt 3)]], []⟩ [.textBlock b!" "],
      .text plain [.textBlock b!"next"]])).map texts = some [⟨1, 20, 127 / 30, b!"one"⟩, ⟨1, 20 - 127 / 60, 127 / 30, b!"next"⟩] := by
  decide +kernel

end Verif.Props
