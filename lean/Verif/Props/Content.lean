import Verif.Proofs.Content
import Verif.Props.Pages
/-
Property C73: all content of the document is put on the pages, in order, and nothing else (/repo/process.go, /repo/table.go, /repo/image.go).
-/
namespace Verif.Props
open Verif.Go Verif.Model Verif.Proofs Verif.Spec

variable {E : Type} {eng : Engine E} {ctx : Ctx} {n : Nat} {s s' : PState E}

/-- C73: processing a part of the document - body, header or footer - puts its words, images and page breaks into the document, in order. -/
theorem C73_part (hs : Sound eng ctx) (c : Calls E) (iss : List Instr) (h : processInstrs eng ctx c iss s = some ((), s')) :
    ∃ ps, PartPuts (meansOf ctx) iss ps ∧ Did eng c s ps s' :=
  processInstrs_puts hs iss s () s' h

/-- C73: what is on the pages in the end: header of the first page, the body - with footer and header around each new page - and the last
footer (if there was no error). -/
theorem C73_document {p : Paper} {r : PdfResult} {s' : PState Fpdf} (hw : ∀ w, (ctx.hyphenate w).flatten <:+: w) (he : (ctx.hyphenate []).length ≤ 1)
    (h : process (Fpdf.engine p) ctx n (newProcessor (Fpdf.new p)) = some (r, s')) :
    ∃ hd ds ft, Brings (meansOf ctx) ctx.header ctx.footer ctx.header hd ∧ Brings (meansOf ctx) ctx.header ctx.footer ctx.body ds ∧
      (Brings (meansOf ctx) ctx.header ctx.footer ctx.footer ft ∨ r.failed = true ∧ ft = []) ∧ putsOn s'.eng = .page :: (hd ++ ds ++ ft) :=
  process_grew ⟨fun _ _ => rfl, hw, he⟩ h

/-- What is assumed of the hyphenator holds for that of the repository. -/
theorem C73_hyphenator {nd : Nat → Bool} {lower : Nat → Nat} {text : Str} {pl : Lookup} (h : parsePatterns nd text = some pl) :
    (∀ w, ((hyphenate lower pl w).getD []).flatten <:+: w) ∧ ((hyphenate lower pl []).getD []).length ≤ 1 :=
  ⟨hyphenator_cuts h, by simp [hyphenate]⟩

/-- How to read `Written`: without hyphenation the texts, without the space before them and without empty ones, are the words. -/
theorem C73_unbroken {hyph : Str → List Str} (hh : ∀ w, (hyph w).length ≤ 1) {ws ts : List Str} (hw : ∀ w ∈ ws, w ≠ [] ∧ w.head? ≠ some 32)
    (h : Written hyph ws ts) : (ts.map fun t => if t.head? = some 32 then t.tail else t).filter (· ≠ []) = ws := by
  induction h with
  | nil => rfl
  | @whole w ws t ts ht _ ih =>
    have h1 := hw w (by simp)
    have : (if t.head? = some 32 then t.tail else t) = w := by
      rcases ht with rfl | rfl
      · rw [if_neg h1.2]
      · simp
    rw [List.map_cons, this, List.filter_cons_of_pos (by simpa using h1.1), ih fun w hw' => hw w (by simp [hw'])]
  | broken i h1 h2 _ _ _ _ => exact absurd (Nat.lt_of_lt_of_le h2 (hh _)) (by omega)
  | blank ht _ ih =>
    rcases ht with rfl | rfl <;> simpa using ih hw

/-! ### Example -/

private def plain : Styled := ⟨[], []⟩

private def exDoc : Ctx :=
  { classes := [], header := [.text plain [.textBlock b!"page {cp}"]], footer := [.text plain [.textBlock b!"end"]],
    body := [.textBlock b!"lost", .image plain b!"pic", .image plain b!"gone", .pageBreak,
      .table plain 0 [⟨plain, [⟨plain, 1, 1, [.textBlock b!"a  syllable"]⟩, ⟨plain, 1, 1, [.image plain b!"pic"]⟩]⟩],
      .text ⟨[[([4, 0], .str b!"block")]], []⟩ [.textBlock b!"some words to be broken when the syllable stands"]],
    hyphenate := exHyph, resolve := id, describe := fun s => if s = b!"pic" then some ⟨10, 10⟩ else none }

/-- The assumptions of C73 hold for it. -/
example : Sound (Fpdf.engine exPaper) exDoc := by
  refine ⟨fun _ _ => rfl, fun w => ?_, by decide⟩
  show (exHyph w).flatten <:+: w
  unfold exHyph
  split
  · rename_i h; rw [h]; decide
  · simp

/-- What is on its pages. -/
example : (process (Fpdf.engine exPaper) exDoc 2 (newProcessor (Fpdf.new exPaper))).map (fun r => putsOn r.2.eng) =
    some [.page, .text b!"page", .text b!" 1", .image b!"pic", .text b!"end",
      .page, .text b!"page", .text b!" 2", .text b!"a", .text b!" syllable", .image b!"pic",
      .text b!"some", .text b!"words", .text b!"to", .text b!"be", .text b!"broken", .text b!"when", .text b!"the", .text b!"syl-",
      .text b!"lable", .text b!" stands", .text b!"end"] := by
  decide +kernel

end Verif.Props
