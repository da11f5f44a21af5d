import Verif.Proofs.Sources
import Verif.Props.Spelled
import Verif.Props.Pictures
/-
Property C119: the texts in the PDF come from the file.
-/
namespace Verif.Props
open Verif.Go Verif.Model Verif.Spec Verif.Proofs

variable {fl : Floats} {ord sheetOrd : Nat → MapOrder} {p : Paper} {n : Nat} {r : PdfResult} {s' : PState Fpdf}
  {hyph : Str → List Str} {resolve : Str → Str} {images : Str → Option ImageDesc}

/-- C119: every text on the pages is blank, or a word (or a part of a word that is broken) of a text of the body, the header or the footer of the file, at one of the places
where texts are printed. -/
theorem C119_document (misc : List Tok) (hm : misc.all isMisc = true) (as : List Attr) (kids : List Node) (post : List Tok) {doc : Document}
    (hl : load fl ord sheetOrd (misc ++ ((Node.elem b!"document" as kids).toks ++ post)) = some doc)
    (hw : ∀ w, (hyph w).flatten <:+: w) (he : (hyph []).length ≤ 1)
    (h : process (Fpdf.engine p) (ctxOf hyph resolve images doc) n (newProcessor (Fpdf.new p)) = some (r, s'))
    {v : Str} (hv : Put.text v ∈ putsOn s'.eng) :
    (v = [] ∨ v = [32]) ∨ ∃ part ∈ [b!"body", b!"header", b!"footer"], ∃ nd ∈ inside part kids, ∃ x, PrintedIn x nd ∧
      ∃ page, ∃ w ∈ wordsOf page x, WordPiece (PartsBreak hyph) w v := by
  rw [C61_exact sheetOrd misc hm as kids post] at hl
  obtain ⟨hh, hb, hft⟩ : section_ fl ord b!"header" kids = some doc.header ∧ section_ fl ord b!"body" kids = some doc.body ∧
      section_ fl ord b!"footer" kids = some doc.footer := by
    unfold loaded at hl
    simp only [Option.bind_eq_bind, Option.bind_eq_some_iff, Option.pure_def, Option.some.injEq] at hl
    obtain ⟨_, _, _, _, _, _, _, _, a, ha, c, hc, b, hb, _, _, rfl⟩ := hl
    exact ⟨ha, hb, hc⟩
  have hi : Imageless (meansOf (ctxOf hyph resolve images doc)) := by
    intro src u hu
    have hu' : Put.text u ∈ (if (images (resolve src)).isSome then [Put.image (resolve src)] else []) := hu
    split at hu' <;> simp at hu'
  have key : ∀ iss ds, Brings (meansOf (ctxOf hyph resolve images doc)) doc.header doc.footer iss ds →
      Stems (meansOf (ctxOf hyph resolve images doc)) (iss.flatMap instrTexts ++ doc.header.flatMap instrTexts ++ doc.footer.flatMap instrTexts) ds := by
    rintro iss ds ⟨ps, h1, h2⟩
    exact filled_stems hi h2 _ (part_stems hi _ _ h1)
  have all : Stems (meansOf (ctxOf hyph resolve images doc)) (doc.body.flatMap instrTexts ++ doc.header.flatMap instrTexts ++ doc.footer.flatMap instrTexts) (putsOn s'.eng) := by
    obtain ⟨hd, ds, ft, h1, h2, h3, h4⟩ := C73_document hw he h
    have h3' : Stems (meansOf (ctxOf hyph resolve images doc)) (doc.footer.flatMap instrTexts ++ doc.header.flatMap instrTexts ++ doc.footer.flatMap instrTexts) ft := by
      rcases h3 with h3 | ⟨-, rfl⟩
      · exact key _ _ h3
      · exact .none _ (by simp)
    rw [h4]
    refine Stems.page ((((key _ _ h1).append (key _ _ h2)).append h3').mono ?_)
    intro x hx
    simp only [List.mem_append] at hx ⊢
    tauto
  refine (all v hv).imp id ?_
  rintro ⟨x, h1, h2⟩
  simp only [List.mem_append] at h1
  rcases h1 with (h1 | h1) | h1
  · obtain ⟨nd, h3, h4⟩ := section_shown hb h1
    exact ⟨_, by simp, nd, h3, x, h4, h2⟩
  · obtain ⟨nd, h3, h4⟩ := section_shown hh h1
    exact ⟨_, by simp, nd, h3, x, h4, h2⟩
  · obtain ⟨nd, h3, h4⟩ := section_shown hft h1
    exact ⟨_, by simp, nd, h3, x, h4, h2⟩

variable {lib : Libraries Fpdf} {w : World} {metric : Font → Str → ℚ} {print : List Mark → Str} {nd : Nat → Bool} {lower : Nat → Nat}

/-- C119: the same of the PDF of the program; the parts are those of English words. -/
theorem C119_program (h : Prints lib metric print) (he : lib.hyphenate = newEnUs nd lower) {bs : Str} (hb : w.files (absPath w.wd (inputName w.args)) = some bs)
    (misc : List Tok) (hm : misc.all isMisc = true) (as : List Attr) (kids : List Node) (post : List Tok)
    (ht : lib.tokens bs = misc ++ ((Node.elem b!"document" as kids).toks ++ post)) (h0 : (xpdfMain lib w).1 = .code 0) :
    ∃ e : Fpdf, (xpdfMain lib w).2.files (outFile w) = some (print e.out) ∧ ∀ v, Put.text v ∈ putsOn e →
      (v = [] ∨ v = [32]) ∨ ∃ part ∈ [b!"body", b!"header", b!"footer"], ∃ nd ∈ inside part kids, ∃ x, PrintedIn x nd ∧
        ∃ page, ∃ w ∈ wordsOf page x, WordPiece (EnglishBreak lower) w v := by
  obtain ⟨r, hr, h1, h2⟩ := (C82_success lib w).mp h0
  obtain ⟨doc, l, s, hmade, hp⟩ := hr
  obtain ⟨bs', hb', hl⟩ := hmade.loaded
  rw [hb] at hb'
  rw [← Option.some.inj hb', ht] at hl
  rw [h.engine, h.start, process_printing] at hp
  obtain ⟨q, hq, e⟩ := Option.map_eq_some_iff.mp hp
  rw [Prod.mk.injEq] at e
  obtain ⟨pl, hpl, hh⟩ := newEnUs_eq nd lower
  obtain ⟨c1, c2⟩ := C73_hyphenator (lower := lower) hpl
  simp only [hh, Option.getD_some] at c1 c2
  refine ⟨q.2.eng, ?_, fun v hv => ?_⟩
  · have hf : q.1.failed = false := by rw [← h1, ← e.1]
    rw [h2, ← e.1, hf]
    rfl
  · refine (C119_document (p := l.paper metric) (hyph := newEnUs nd lower) (r := q.1) (s' := q.2) misc hm as kids post hl c1 c2
      (by rw [viewOf, he] at hq; exact hq) hv).imp id ?_
    rintro ⟨part, hpt, node, hn, x, hx, page, wd, hwd, hpc⟩
    refine ⟨part, hpt, node, hn, x, hx, page, wd, hwd, ?_⟩
    have english : ∀ {t u}, PartsBreak (newEnUs nd lower) wd t u → EnglishBreak lower wd t u := by
      rintro t u ⟨i, i1, i2, rfl, rfl⟩
      exact newEnUs_break i1 i2
    cases hpc with
    | whole e => exact .whole e
    | first hb e => exact .first (english hb) e
    | second hb => exact .second (english hb)

/-! ### Examples -/

-- A program, a world and a file that meet the assumptions of `C119_program` (and with them, as in its proof, those of `C119_document`): those of `C118_false`.
example : ∃ (lib : Libraries Fpdf) (w : World) (metric : Font → Str → ℚ) (print : List Mark → Str) (kids : List Node) (bs : Str),
    Prints lib metric print ∧ lib.hyphenate = newEnUs (fun _ => false) id ∧ w.files (absPath w.wd (inputName w.args)) = some bs ∧
    lib.tokens bs = [] ++ ((Node.elem b!"document" [] kids).toks ++ []) ∧ (xpdfMain lib w).1 = .code 0 ∧ (xpdfMain lib w).2.files (outFile w) = some b!"|adoc-umen" := by
  obtain ⟨lib, w, metric, print, kids, bs, h1, h2, h3, h4, -, -, h5, h6, -⟩ := C118_false
  exact ⟨lib, w, metric, print, kids, bs, h1, h2, h3, by rw [h4, List.append_nil, List.nil_append], h5, h6⟩

-- A text in a box of a cell, inside of an unknown element, is printed, and so is a paragraph of a text; one between the elements of the body, or in an image, is not.
example : PrintedIn b!"in" (.elem b!"table" [] [.elem b!"tr" [] [.elem b!"td" [] [.elem b!"u" [] [.elem b!"box" [] [.chars b!"in"]]]]]) :=
  .table (ras := []) (cells := [.elem b!"td" [] [.elem b!"u" [] [.elem b!"box" [] [.chars b!"in"]]]]) (cas := []) (kids := [.elem b!"u" [] [.elem b!"box" [] [.chars b!"in"]]])
    (by simp) (by simp) (.inner (name := b!"u") (as := []) (ks := [.elem b!"box" [] [.chars b!"in"]]) (by simp) (.inl (by decide))
      (.box (as := []) (ks := [.chars b!"in"]) (by simp) (.chars (by simp))))
example : PrintedIn b!"a b" (.elem b!"text" [] [.elem b!"p" [] [.chars b!"a", .other, .chars b!" b"]]) := .text (.paragraph (as := []) (ks := [.chars b!"a", .other, .chars b!" b"]) (by simp) rfl)
example (x t : Str) : ¬ PrintedIn x (.chars t) ∧ ¬ PrintedIn x (.elem b!"image" [] [.chars t]) ∧ ¬ PrintedIn x (.elem b!"p" [] [.chars t]) := ⟨nofun, nofun, nofun⟩

end Verif.Props
