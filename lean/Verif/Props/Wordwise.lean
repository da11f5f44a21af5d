import Verif.Proofs.Wordwise
import Verif.Props.Alike
import Verif.Props.TextLines
import Verif.Model.Write
/-
Property C110: how a text is divided into pieces of text and paragraphs makes no difference (/repo/text.go, /repo/text-hyph.go).
-/
namespace Verif.Props
open Verif.Go Verif.Model Verif.Spec Verif.Proofs

variable {E : Type} {eng : Engine E} (hyphenate : Str → List Str) (resolve : Str → Str) (images : Str → Option ImageDesc)

/-- C110: every word of the texts, boxes and cells of a document can be put into a paragraph of its own, with the style of the piece
of text it is from: the same engine calls, the same result, from every state. -/
theorem C110_words (k : FontAgain eng) {d : Document} (h : DocWorded d) (n : Nat) :
    process eng (ctxOf hyphenate resolve images d) n = process eng (ctxOf hyphenate resolve images (docwise d)) n :=
  (process_wise k (ctxOf hyphenate resolve images d) (fun i hi => h i (.inl hi)) (fun i hi => h i (.inr (.inl hi)))
    (fun i hi => h i (.inr (.inr hi))) n).symm

/-- C110: so documents with the same words in the same styles are processed the same way, however their texts are divided. -/
theorem C110_same (k : FontAgain eng) {d d' : Document} (h : DocWorded d) (h' : DocWorded d') (hl : LookAlike (docwise d) (docwise d'))
    (n : Nat) : process eng (ctxOf hyphenate resolve images d) n = process eng (ctxOf hyphenate resolve images d') n := by
  rw [C110_words hyphenate resolve images k h, C110_words hyphenate resolve images k h', C72_process eng hyphenate resolve images hl]

/-- C110: the same for files. -/
theorem C110_files (k : FontAgain eng) (fl : Floats) (o so : Nat → MapOrder) {toks toks' : List Tok} {d d' : Document}
    (hd : load fl o so toks = some d) (hd' : load fl o so toks' = some d') (h : DocWorded d) (h' : DocWorded d')
    (hl : LookAlike (docwise d) (docwise d')) (start : Meta → DocPage → E) (n : Nat) :
    loadAndProcess fl o so toks eng start hyphenate resolve images n = loadAndProcess fl o so toks' eng start hyphenate resolve images n := by
  have hi : d.info = d'.info := hl.info
  have hp : d.page = d'.page := hl.page
  simp only [loadAndProcess, hd, hd', Option.bind_some, C110_same hyphenate resolve images k h h' hl, hi, hp]

/-- What C110 asks of the engine holds for the engine of this project, with the library's own line breaks, too. -/
theorem C110_engine (p : Paper) (g : Glyphs) : FontAgain (Fpdf.engine p) ∧ FontAgain (Fpdf.fullEngine p g) := by
  have : ∀ f e, Fpdf.changeFont p f (Fpdf.changeFont p f e) = Fpdf.changeFont p f e := by
    intro f e
    simp [Fpdf.changeFont]
  exact ⟨⟨this, fun _ _ => rfl⟩, ⟨this, fun _ _ => rfl⟩⟩

/-! ### Examples -/

private def big : Styled := ⟨[[([0, 1], .flt 20)]], []⟩
private def block : Styled := ⟨[[([4, 0], .str b!"block")]], []⟩

private def doc (h : List Instr) (t c l : List Instr) : Document :=
  ⟨⟨[], [], []⟩, ⟨[], [], ⟨0, 0, 0, 0⟩⟩, [.text ⟨[], []⟩ h], [],
    [.text block t, .table ⟨[], []⟩ 0 [.mk ⟨[], []⟩ [.mk ⟨[], []⟩ 1 1 (c ++ [.box ⟨[], []⟩ l])]]], []⟩

/-- One piece of text after the other. -/
private def whole : Document :=
  doc [.textBlock b!"Page {cp} of {np}"] [.textBlock b!"a text with some words and then a syllable of it", .paragraph big b!"and four big words", .lineBreak, .textBlock b!"end"]
    [.textBlock b!"in a cell"] [.paragraph big b!"in a box"]

/-- The same words, divided in another way. -/
private def divided : Document :=
  doc [.paragraph ⟨[], []⟩ b!"Page", .textBlock b!"{cp} of", .textBlock b!" {np} "]
    [.textBlock b!"a text with", .paragraph ⟨[], []⟩ b!"some words and then a", .textBlock b!"syllable of it", .paragraph big b!"and four", .paragraph big b!"big words", .lineBreak,
      .textBlock b!"end"]
    [.textBlock b!"in", .textBlock b!"a cell"] [.paragraph big b!"in a", .paragraph big b!"box"]

private def wordedB : List Instr → Bool
  | [] => true
  | .textBlock t :: iss => decide (cutWords t ≠ [] ∧ 92 ∉ t) && wordedB iss
  | .paragraph _ t :: iss => decide (cutWords t ≠ [] ∧ 92 ∉ t) && wordedB iss
  | _ :: iss => wordedB iss

private theorem allWorded_of : ∀ {iss : List Instr}, wordedB iss = true → AllWorded iss
  | [], _ => ⟨by simp, by simp⟩
  | i :: iss, h => by
    have tail : wordedB iss = true := by
      cases i <;> simp only [wordedB, Bool.and_eq_true] at h <;> first | exact h.2 | exact h
    have ih := allWorded_of tail
    refine ⟨fun t ht => ?_, fun st t ht => ?_⟩
    · rcases List.mem_cons.mp ht with rfl | ht
      · simp only [wordedB, Bool.and_eq_true, decide_eq_true_eq] at h; exact h.1
      · exact ih.1 t ht
    · rcases List.mem_cons.mp ht with rfl | ht
      · simp only [wordedB, Bool.and_eq_true, decide_eq_true_eq] at h; exact h.1
      · exact ih.2 st t ht

private theorem doc_worded {h t c l : List Instr} (hh : wordedB h = true) (ht : wordedB t = true) (hc : wordedB (c ++ [.box ⟨[], []⟩ l]) = true)
    (hl : wordedB l = true) (hb : ∀ st m, .box st m ∉ c) : DocWorded (doc h t c l) := by
  intro i hi
  simp only [doc, List.mem_cons, List.not_mem_nil, or_false, false_or] at hi
  rcases hi with rfl | rfl | rfl
  · exact allWorded_of hh
  · exact allWorded_of ht
  · intro r hr x hx
    simp only [List.mem_singleton] at hr
    subst hr
    simp only [TableRow.cells, List.mem_singleton] at hx
    subst hx
    refine ⟨allWorded_of hc, fun st m hm => ?_⟩
    rcases List.mem_append.mp hm with hm | hm
    · exact absurd hm (hb st m)
    · simp only [List.mem_singleton, Instr.box.injEq] at hm
      rw [hm.2]
      exact allWorded_of hl

private theorem whole_worded : DocWorded whole := doc_worded (by decide +kernel) (by decide +kernel) (by decide +kernel) (by decide +kernel) (by simp)
private theorem divided_worded : DocWorded divided := doc_worded (by decide +kernel) (by decide +kernel) (by decide +kernel) (by decide +kernel) (by simp)

private theorem alike : LookAlike (docwise whole) (docwise divided) := by
  have h : docwise whole = docwise divided := rfl
  rw [← h]
  have hr : ∀ iss, AlikeAll (fun _ => SameEffect (docwise whole).styleClasses (docwise whole).styleClasses) Eq iss iss :=
    AlikeAll.refl (fun _ _ => ⟨fun _ => rfl, fun _ _ => rfl⟩) (fun _ => rfl)
  exact ⟨rfl, rfl, hr _, hr _, hr _⟩

example (n : Nat) : process (Fpdf.engine exPaper) (ctxOf exHyph id (fun _ => none) whole) n =
    process (Fpdf.engine exPaper) (ctxOf exHyph id (fun _ => none) divided) n :=
  C110_same _ _ _ (C110_engine exPaper ⟨fun _ _ => [], fun _ => true⟩).1 whole_worded divided_worded alike n

private def texts (t : List Instr) : Option (List Str) :=
  (process (Fpdf.engine exPaper) (ctxOf exHyph id (fun _ => none) (doc [] t [] [])) 2 (newProcessor (Fpdf.new exPaper))).map fun r =>
    r.2.eng.out.filterMap fun m => match m with | .text _ _ _ _ _ s => some s | _ => none

/- Both conditions on the texts are needed: in block text a piece of text without words is written, and white space next to a
backslash is dropped. -/
example : texts [.textBlock b!"one", .textBlock b!" ", .textBlock b!"two"] = some [b!"one", b!" ", b!" two"] ∧
    texts (wordwise [.textBlock b!"one", .textBlock b!" ", .textBlock b!"two"]) = some [b!"one", b!" two"] ∧
    texts [.textBlock b!"one \\ two"] = some [b!"one\\two"] ∧ texts (wordwise [.textBlock b!"one \\ two"]) = some [b!"one", b!" \\", b!" two"] := by
  decide +kernel

/- What is written for the first example: the header, the text with a word that is hyphenated, the cell and the box in it. -/
example : (process (Fpdf.engine exPaper) (ctxOf exHyph id (fun _ => none) whole) 2 (newProcessor (Fpdf.new exPaper))).map (fun r =>
    r.2.eng.out.filterMap fun m => match m with | .text _ _ _ _ _ s => some s | _ => none) = some
    [b!"Page", b!" 1", b!" of", b!" {np}", b!"a", b!" text", b!" with", b!" some", b!" words", b!" and",
     b!" then", b!" a", b!" syl-", b!"lable", b!"of", b!"it", b!"and", b!"four", b!"big", b!"words", b!"end",
     b!"in", b!" a", b!" cell", b!"in", b!" a", b!" box"] := by
  decide +kernel

end Verif.Props
