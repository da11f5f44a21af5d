import Verif.Proofs.Printing
import Verif.Props.Main
import Verif.Props.Origin
import Verif.Props.Typeset
/-
C117: from the files the program finds to the file it writes.
-/
namespace Verif.Props
open Verif.Go Verif.Model Verif.Spec Verif.Proofs

variable {lib : Libraries Fpdf} {w : World} {metric : Font → Str → ℚ} {print : List Mark → Str} {doc : Document} {l : Lib}

/-- The upper and the left margin of an engine are those of the document. -/
theorem made_margins (hm : Made lib w doc l) : l.margins.top = doc.page.margins.top ∧ l.margins.left = doc.page.margins.left := by
  obtain ⟨fs, defs, _, _, h⟩ := hm.fonts
  unfold newFpdf at h
  split at h
  · exact absurd h (by simp)
  · split at h
    · exact absurd h (by simp)
    · rw [← Option.some.inj h]
      simp only [libMargins]
      split <;> exact ⟨rfl, rfl⟩

/-- Which document and which engine it is, is fixed. -/
theorem made_unique {doc' : Document} {l' : Lib} (hm : Made lib w doc l) (hm' : Made lib w doc' l') : doc = doc' ∧ l = l' := by
  obtain ⟨bs, h1, h2⟩ := hm.loaded
  obtain ⟨bs', h1', h2'⟩ := hm'.loaded
  rw [h1] at h1'
  rw [← Option.some.inj h1', h2] at h2'
  have e := Option.some.inj h2'
  obtain ⟨fs, defs, h3, h4, h5⟩ := hm.fonts
  obtain ⟨fs', defs', h3', h4', h5'⟩ := hm'.fonts
  rw [h3] at h3'
  rw [← Option.some.inj h3', h4] at h4'
  rw [← Option.some.inj h4', ← e, h5] at h5'
  exact ⟨e, Option.some.inj h5'⟩

/-- C117: if the input is a document, its output can be created and its fonts loaded, the program either writes the pages that a typist sets (C116) and ends with exit code 0,
or writes nothing and ends with exit code 4; it never crashes. -/
theorem C117_program (h : Prints lib metric print) (hm : Made lib w doc l) (ht : 0 ≤ doc.page.margins.top) (hl : 0 ≤ doc.page.margins.left)
    (hh : .pageBreak ∉ doc.header) (hf : .pageBreak ∉ doc.footer) :
    (xpdfMain lib w).1 = .code 0 ∧ (xpdfMain lib w).2.files (outFile w) = some (print (pagesOf (l.paper metric) (viewOf lib w doc))) ∨
      (xpdfMain lib w).1 = .code 4 ∧ (xpdfMain lib w).2.files (outFile w) = some [] := by
  obtain ⟨e1, e2⟩ := made_margins hm
  obtain ⟨r, s, h1, h2⟩ := C116_returns (p := l.paper metric) (ctx := viewOf lib w doc) (n := lib.depth) (by rw [← e1] at ht; exact ht) (by rw [← e2] at hl; exact hl) hh hf h.depth
  have hp : Processed lib w { written := if r.failed then [] else print s.eng.out, failed := r.failed } := by
    refine ⟨doc, l, s, hm, ?_⟩
    rw [h.engine, h.start, process_printing, h1]
    rfl
  rw [processed_main lib w hp]
  cases hr : r.failed with
  | true => exact .inr ⟨rfl, if_pos rfl⟩
  | false =>
    refine .inl ⟨rfl, ?_⟩
    rcases h2 with ⟨h3, -⟩ | ⟨h3, -⟩
    · show (if outFile w = outFile w then some (print s.eng.out) else _) = _
      rw [if_pos rfl, h3]
      rfl
    · rw [hr] at h3
      exact absurd h3 (by simp)

/-- C117: if all fonts are there that the document can ask for, the exit code is 0. -/
theorem C117_fonts (h : Prints lib metric print) (hm : Made lib w doc l) (ht : 0 ≤ doc.page.margins.top) (hl : 0 ≤ doc.page.margins.left) (hh : .pageBreak ∉ doc.header)
    (hf : .pageBreak ∉ doc.footer) (hk : ∀ f, FontOrigin (viewOf lib w doc) f → (l.paper metric).known f = true) :
    (xpdfMain lib w).1 = .code 0 ∧ (xpdfMain lib w).2.files (outFile w) = some (print (pagesOf (l.paper metric) (viewOf lib w doc))) := by
  refine (C117_program h hm ht hl hh hf).resolve_right fun h4 => ?_
  rcases C82_failure lib w (by rw [h4.1]; simp) with ⟨h5, -⟩ | ⟨h5 | h5 | h5, -⟩ | ⟨-, r, ⟨doc', l', s, hm', h6⟩, h7, -⟩
  · rw [h5] at h4; exact absurd h4.1 (by simp)
  · rw [h5] at h4; exact absurd h4.1 (by simp)
  · rw [h5] at h4; exact absurd h4.1 (by simp)
  · rw [h5] at h4; exact absurd h4.1 (by simp)
  · obtain ⟨e1, e2⟩ := made_unique hm hm'
    rw [← e1, ← e2, h.engine, h.start, process_printing] at h6
    obtain ⟨q, hq, e⟩ := Option.map_eq_some_iff.mp h6
    have h8 := C85_available hq hk
    have h9 := congrArg (fun q : PdfResult × PState Fpdf => q.1.failed) e
    simp only [h8, h7] at h9
    exact absurd h9 (by simp)

/-- C117: exit code 0 means just this: the input is a document without page breaks in header and footer, and the output is what the typist sets. -/
theorem C117_success (h : Prints lib metric print) (h0 : (xpdfMain lib w).1 = .code 0) :
    ∃ doc l, Made lib w doc l ∧ (0 ≤ doc.page.margins.top → 0 ≤ doc.page.margins.left →
      .pageBreak ∉ doc.header ∧ .pageBreak ∉ doc.footer ∧ (xpdfMain lib w).2.files (outFile w) = some (print (pagesOf (l.paper metric) (viewOf lib w doc)))) := by
  obtain ⟨r, ⟨doc, l, s, hm, h1⟩, h2, -⟩ := (C82_success lib w).mp h0
  refine ⟨doc, l, hm, fun ht hl => ?_⟩
  obtain ⟨e1, e2⟩ := made_margins hm
  rw [h.engine, h.start, process_printing] at h1
  obtain ⟨q, hq, e⟩ := Option.map_eq_some_iff.mp h1
  have h3 : q.1.failed = false := by
    have := congrArg (fun q : PdfResult × PState Fpdf => q.1.failed) e
    simp only [h2] at this
    exact this
  obtain ⟨hh, hf⟩ := (C43_iff (p := l.paper metric) (ctx := viewOf lib w doc) (by rw [← e2] at hl; exact hl) (by rw [← e1] at ht; exact ht) _).1 ⟨_, q.1, q.2, hq, h3⟩
  refine ⟨hh, hf, ?_⟩
  rcases C117_program h hm ht hl hh hf with h4 | h4
  · exact h4.2
  · rw [h4.1] at h0
    exact absurd h0 (by simp)

/-! ### Example: a header, a text, a page break and another text -/

private def exTokens : List Tok :=
  [.start b!"document" [], .start b!"header" [], .start b!"text" [], .chars b!"head", .close b!"text", .close b!"header",
   .start b!"body" [], .start b!"text" [], .chars b!"one two", .close b!"text", .start b!"newpage" [], .close b!"newpage", .start b!"text" [], .chars b!"three", .close b!"text",
   .close b!"body", .close b!"document"]

/-- Prints a bar for each page, and the texts. -/
private def exPrint (out : List Mark) : Str := out.flatMap fun | .page => b!"|" | .text _ _ _ _ _ t => t | _ => []

private def exLib : Libraries Fpdf where
  tokens := fun bs => if bs = b!"a document" then exTokens else []
  floats := { parseFloat := fun s => (parseInt s).map (fun n => (n : ℚ)), convertFloat := fun s => (parseInt s).map (fun n => (n : ℚ)) }
  ord := fun _ => ⟨id, fun _ => .refl _⟩
  sheetOrd := fun _ => ⟨id, fun _ => .refl _⟩
  toml := fun _ => some ⟨[], []⟩
  parse := fun _ => .font
  engine := fun l => printing exPrint (l.paper fun _ s => s.length)
  start := fun l => Fpdf.new (l.paper fun _ s => s.length)
  image := fun _ => none
  hyphenate := fun s => [s]
  depth := 2

private def exWorld : World where
  args := [b!"xpdf", b!"in/doc.xml"]
  wd := b!"/home"
  files := fun p => if p = b!"/home/in/doc.xml" then some b!"a document" else if p = b!"/home/fonts/fontdef.toml" then some [] else none
  writable := fun p => p = b!"/home/doc.pdf"

private theorem exPrints : Prints exLib (fun _ s => s.length) exPrint := ⟨fun _ => rfl, fun _ => rfl, le_refl 2⟩

example : (xpdfMain exLib exWorld).1 = .code 0 ∧ (xpdfMain exLib exWorld).2.files b!"/home/doc.pdf" = some b!"|headone two|headthree" := by decide +kernel

example : ∃ doc l, Made exLib exWorld doc l ∧ exPrint (pagesOf (l.paper fun _ s => s.length) (viewOf exLib exWorld doc)) = b!"|headone two|headthree" := by
  have h0 : (xpdfMain exLib exWorld).1 = .code 0 := by decide +kernel
  have hl : (loadFile exLib exWorld (inputName exWorld.args)).map (fun d => (d.page.margins.top, d.page.margins.left)) = some (0, 0) := by decide +kernel
  obtain ⟨doc, l, hm, h⟩ := C117_success exPrints h0
  obtain ⟨bs, h1, h2⟩ := hm.loaded
  have e : loadFile exLib exWorld (inputName exWorld.args) = some doc := by
    simp only [loadFile, World.read, h1, Option.bind_some, h2]
  rw [e, Option.map_some, Option.some.injEq, Prod.mk.injEq] at hl
  obtain ⟨-, -, h3⟩ := h (by rw [hl.1]) (by rw [hl.2])
  refine ⟨doc, l, hm, (Option.some.inj (h3.symm.trans ?_))⟩
  decide +kernel

end Verif.Props
