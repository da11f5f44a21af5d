import Verif.Proofs.Spelled
import Verif.Props.Printing
import Verif.Props.Words
/-
Property C118: how the words of the file stand in the PDF of the program, which hyphenates English (/repo/cmd/xpdf/main.go, /repo/hyphenation/en-us.go).
-/
namespace Verif.Props
open Verif.Go Verif.Model Verif.Spec Verif.Proofs Verif.Model.Tables

variable {lib : Libraries Fpdf} {w : World} {metric : Font → Str → ℚ} {print : List Mark → Str} {nd : Nat → Bool} {lower : Nat → Nat}

/-- C118, in part: if the program ends with exit code 0, the words of the body of the file that can be seen (`Visible`) are in the PDF, in this order, in one piece or broken
with a hyphen at a place where the English patterns allow it.  Missing: that nothing of a broken word is lost.  That does not hold: see `C118_false`.  It is the last byte that
is lost, and only if the patterns allow a break before it. -/
theorem C118_spelled_partial (h : Prints lib metric print) (he : lib.hyphenate = newEnUs nd lower) {bs : Str} (hb : w.files (absPath w.wd (inputName w.args)) = some bs)
    (misc : List Tok) (hm : misc.all isMisc = true) (as : List Attr) (kids : List Node) (post : List Tok)
    (ht : lib.tokens bs = misc ++ ((Node.elem b!"document" as kids).toks ++ post)) (hv : ∀ nd ∈ inside b!"body" kids, Visible lib.floats lib.ord nd)
    (h0 : (xpdfMain lib w).1 = .code 0) :
    ∃ e : Fpdf, (xpdfMain lib w).2.files (outFile w) = some (print e.out) ∧
      ∃ ts, Spelled (EnglishBreak lower) (wordsAll (inside b!"body" kids)) ts ∧ (ts.map Put.text).Sublist (putsOn e) := by
  obtain ⟨r, hr, h1, h2⟩ := (C82_success lib w).mp h0
  obtain ⟨doc, l, s, hmade, hp⟩ := hr
  obtain ⟨bs', hb', hl⟩ := hmade.loaded
  rw [hb] at hb'
  rw [← Option.some.inj hb', ht] at hl
  rw [h.engine, h.start, process_printing] at hp
  obtain ⟨q, hq, e⟩ := Option.map_eq_some_iff.mp hp
  rw [Prod.mk.injEq] at e
  obtain ⟨pl, hpl, hh⟩ := newEnUs_eq nd lower
  obtain ⟨c1, c2⟩ := C73_hyphenator (lower := lower) hpl
  simp only [hh, Option.getD_some] at c1 c2
  obtain ⟨ts, h3, h4⟩ := C91_words_partial (p := l.paper metric) (hyph := newEnUs nd lower) (r := q.1) (s' := q.2) misc hm as kids post hl hv c1 c2
    (by rw [viewOf, he] at hq; exact hq)
  refine ⟨q.2.eng, ?_, ts, written_spelled h3, h4⟩
  have hf : q.1.failed = false := by rw [← h1, ← e.1]
  rw [h2, ← e.1, hf]
  rfl

/-- C118: every word has its places, and only one set of them. -/
theorem C118_places (lower : Nat → Nat) (x : Str) (h3 : 3 ≤ x.length) (h100 : x.length ≤ 100) (hsp : 32 ∉ x) : ∃! cuts, EnglishCuts lower x cuts := by
  obtain ⟨pl, hpl, -⟩ := C10_enUs nd0
  obtain ⟨cuts, hc, -⟩ := C07_all nd0 lower enUsText pl hpl x h3 h100 hsp
  refine ⟨cuts, ⟨_, patFn_english hpl, hc⟩, ?_⟩
  rintro cuts' ⟨pats, hp, hc'⟩
  have : pats = patFn pl := by
    funext letters
    refine Option.ext fun weights => ?_
    rw [hp, patFn_english hpl]
  rw [this] at hc'
  exact C07_unique hc' hc

/-- C118: a word that the patterns do not allow to be broken before its last byte is kept, and so is every word with a character of several bytes. -/
theorem C118_kept {x t u : Str} (h : EnglishBreak lower x t u) (hk : (∀ cuts, EnglishCuts lower x cuts → x.length - 1 ∉ cuts) ∨ (decodeRunes x).length < x.length) :
    Lossless x t u := by
  obtain ⟨-, -, cuts, hc, k, -, -, rfl, rfl⟩ := h
  have : x.length - 1 ∉ cuts := by
    rcases hk with hk | hk
    · exact hk cuts hc
    · intro hm
      obtain ⟨_, _, hl⟩ := hc
      have := ((hl.2 _).mp hm).1
      omega
  rw [if_neg this]
  exact List.take_append_drop k x

/-! ### A word that loses its last letter -/

private def lostKids : List Node := [.elem b!"body" [] [.elem b!"text" [(b!"style", b!"h-align:block")] [.chars b!"a document"]]]

/-- Prints a bar for each page, and the texts. -/
private def lostPrint (out : List Mark) : Str := out.flatMap fun | .page => b!"|" | .text _ _ _ _ _ t => t | _ => []

private def lostLib (hyph : Str → List Str) : Libraries Fpdf where
  tokens := fun bs => if bs = b!"a document" then (Node.elem b!"document" [] lostKids).toks else []
  floats := { parseFloat := fun s => (parseInt s).map (fun n => (n : ℚ)), convertFloat := fun s => (parseInt s).map (fun n => (n : ℚ)) }
  ord := fun _ => ⟨id, fun _ => .refl _⟩
  sheetOrd := fun _ => ⟨id, fun _ => .refl _⟩
  toml := fun _ => some ⟨[], []⟩
  parse := fun _ => .font
  engine := fun l => printing lostPrint (l.paper fun _ s => s.length * 20)
  start := fun l => Fpdf.new (l.paper fun _ s => s.length * 20)
  image := fun _ => none
  hyphenate := hyph
  depth := 2

private def lostWorld : World where
  args := [b!"xpdf", b!"in/doc.xml"]
  wd := b!"/home"
  files := fun p => if p = b!"/home/in/doc.xml" then some b!"a document" else if p = b!"/home/fonts/fontdef.toml" then some [] else none
  writable := fun p => p = b!"/home/doc.pdf"

/-- The lines of the table that concern the word "document". -/
private def documentLines : List Str := [b!"1do", b!"c3ume", b!"1men", b!"3ment", b!"n1t"]

private theorem newEnUs_document : newEnUs nd0 id b!"document" = [b!"doc", b!"umen"] := by
  have hok := Verif.Proofs.EnUsTable.allOk
  have hload := (table_load (nd := nd0) enUsLines hok (fun _ _ _ _ _ => rfl)).1
  have hmem : ∀ l ∈ documentLines, l ∈ enUsLines := by
    have h1 : b!"1do" ∈ enUs09 := by decide +kernel
    have h2 : b!"c3ume" ∈ enUs08 := by decide +kernel
    have h3 : b!"1men" ∈ enUs24 ∧ b!"3ment" ∈ enUs24 := by decide +kernel
    have h4 : b!"n1t" ∈ enUs27 := by decide +kernel
    intro l hl
    simp only [documentLines, List.mem_cons, List.not_mem_nil, or_false] at hl
    unfold enUsLines
    rw [List.mem_flatten]
    rcases hl with rfl | rfl | rfl | rfl | rfl
    · exact ⟨enUs09, by simp [enUsChunks], h1⟩
    · exact ⟨enUs08, by simp [enUsChunks], h2⟩
    · exact ⟨enUs24, by simp [enUsChunks], h3.1⟩
    · exact ⟨enUs24, by simp [enUsChunks], h3.2⟩
    · exact ⟨enUs27, by simp [enUsChunks], h4⟩
  have := hyphenate_restrict (lower := id) hok Verif.Proofs.EnUsTable.idxAll hmem (by decide +kernel)
    (s := b!"document") (D := [46, 100, 111, 99, 117, 109, 101, 110, 116, 46]) (by decide +kernel) (by decide +kernel)
  unfold tableLookup at this
  unfold newEnUs
  rw [enUsText, hload, Option.bind_some, this]
  decide +kernel

/-- The hyphenator, with the result for this word at hand. -/
private def handy (s : Str) : List Str := if s = b!"document" then [b!"doc", b!"umen"] else newEnUs nd0 id s

private theorem handy_eq : newEnUs nd0 id = handy := by
  funext s
  unfold handy
  split
  · rename_i h; rw [h, newEnUs_document]
  · rfl

private theorem lost_main : (xpdfMain (lostLib handy) lostWorld).1 = .code 0 ∧ (xpdfMain (lostLib handy) lostWorld).2.files (outFile lostWorld) = some b!"|adoc-umen" := by decide +kernel

private theorem print_count (out : List Mark) (ts : List Str) (h : (ts.map Put.text).Sublist (out.filterMap fun
    | .text _ _ _ _ _ t => some (.text t) | .image _ src _ _ _ _ => some (.image src) | .page => some .page | _ => none)) : ts.flatten.count 116 ≤ (lostPrint out).count 116 := by
  induction out generalizing ts with
  | nil =>
    rw [List.filterMap_nil, List.sublist_nil, List.map_eq_nil_iff] at h
    rw [h]; simp
  | cons m out ih =>
    have hc : (lostPrint (m :: out)).count 116 = (lostPrint [m]).count 116 + (lostPrint out).count 116 := by simp [lostPrint, List.flatMap_cons]
    have skip : ∀ q : Put, (∀ t, q ≠ .text t) → ∀ l, (ts.map Put.text).Sublist (q :: l) → (ts.map Put.text).Sublist l := by
      intro q hq l hs
      generalize hx : ts.map Put.text = x at hs
      cases hs with
      | cons _ hs => exact hs
      | cons_cons _ hs =>
        cases ts with
        | nil => simp at hx
        | cons t ts => rw [List.map_cons, List.cons.injEq] at hx; exact absurd hx.1.symm (hq t)
    rw [hc]
    rw [List.filterMap_cons] at h
    cases m with
    | text =>
      cases ts with
      | nil => simp
      | cons t ts =>
        rw [List.map_cons] at h
        cases h with
        | cons _ h => exact (ih (t :: ts) h).trans (Nat.le_add_left ..)
        | cons_cons _ h =>
          rw [List.flatten_cons, List.count_append]
          refine Nat.add_le_add (le_of_eq ?_) (ih _ h)
          simp [lostPrint]
    | image => exact (ih _ (skip _ (fun _ => Put.noConfusion) _ h)).trans (Nat.le_add_left ..)
    | page => exact (ih _ (skip _ (fun _ => Put.noConfusion) _ h)).trans (Nat.le_add_left ..)
    | _ => exact (ih _ h).trans (Nat.le_add_left ..)

/-- C118 is false of the code: of the text "a document" the program makes "a doc-" and "umen", without an error. -/
theorem C118_false : ∃ (lib : Libraries Fpdf) (w : World) (metric : Font → Str → ℚ) (print : List Mark → Str) (kids : List Node) (bs : Str),
    Prints lib metric print ∧ lib.hyphenate = newEnUs (fun _ => false) id ∧ w.files (absPath w.wd (inputName w.args)) = some bs ∧
    lib.tokens bs = (Node.elem b!"document" [] kids).toks ∧ (∀ nd ∈ inside b!"body" kids, Visible lib.floats lib.ord nd) ∧
    wordsAll (inside b!"body" kids) = [b!"a", b!"document"] ∧ (xpdfMain lib w).1 = .code 0 ∧ (xpdfMain lib w).2.files (outFile w) = some b!"|adoc-umen" ∧
    ∀ e : Fpdf, (xpdfMain lib w).2.files (outFile w) = some (print e.out) →
      ¬ ∃ ts, Spelled Lossless (wordsAll (inside b!"body" kids)) ts ∧ (ts.map Put.text).Sublist (putsOn e) := by
  have hw : wordsAll (inside b!"body" lostKids) = [b!"a", b!"document"] := by decide +kernel
  refine ⟨lostLib handy, lostWorld, _, lostPrint, lostKids, b!"a document", ⟨fun _ => rfl, fun _ => rfl, le_refl 2⟩, handy_eq.symm, by decide +kernel, by decide +kernel,
    ?_, hw, lost_main.1, lost_main.2, ?_⟩
  · intro nd hn
    rw [show inside b!"body" lostKids = [.elem b!"text" [(b!"style", b!"h-align:block")] [.chars b!"a document"]] by rfl, List.mem_singleton] at hn
    rw [hn]
    refine .text fun nd hn => ?_
    rw [List.mem_singleton] at hn
    rw [hn]
    exact .chars (by unfold PlainText; decide +kernel)
  · rintro e he ⟨ts, h1, h2⟩
    rw [lost_main.2, Option.some.injEq] at he
    have h3 := print_count e.out ts h2
    rw [spelled_count 116 (by decide) (by decide) h1, hw, ← he] at h3
    exact absurd h3 (by decide)

-- The world of `C118_false` meets the assumptions of `C118_spelled_partial`; this is how the word is broken, and its places.
example : EnglishBreak id b!"document" b!"doc" b!"umen" := by
  have := newEnUs_break (nd := nd0) (lower := id) (w := b!"document") (i := 1) (by decide) (by rw [newEnUs_document]; decide)
  rw [newEnUs_document] at this
  exact this

-- A word that is kept.
private theorem newEnUs_program : newEnUs nd0 id b!"program" = [b!"pro", b!"gram"] := by
  have hok := Verif.Proofs.EnUsTable.allOk
  have hload := (table_load (nd := nd0) enUsLines hok (fun _ _ _ _ _ => rfl)).1
  have hmem : ∀ l ∈ [b!"pr2", b!"1gr"], l ∈ enUsLines := by
    have h1 : b!"pr2" ∈ enUs31 := by decide +kernel
    have h2 : b!"1gr" ∈ enUs16 := by decide +kernel
    intro l hl
    simp only [List.mem_cons, List.not_mem_nil, or_false] at hl
    unfold enUsLines
    rw [List.mem_flatten]
    rcases hl with rfl | rfl
    · exact ⟨enUs31, by simp [enUsChunks], h1⟩
    · exact ⟨enUs16, by simp [enUsChunks], h2⟩
  have := hyphenate_restrict (lower := id) hok Verif.Proofs.EnUsTable.idxAll hmem (by decide +kernel)
    (s := b!"program") (D := [46, 112, 114, 111, 103, 114, 97, 109, 46]) (by decide +kernel) (by decide +kernel)
  unfold tableLookup at this
  unfold newEnUs
  rw [enUsText, hload, Option.bind_some, this]
  decide +kernel

example : EnglishBreak id b!"program" b!"pro" b!"gram" ∧ Lossless b!"program" b!"pro" b!"gram" := by
  have := newEnUs_break (nd := nd0) (lower := id) (w := b!"program") (i := 1) (by decide) (by rw [newEnUs_program]; decide)
  rw [newEnUs_program] at this
  exact ⟨this, rfl⟩

end Verif.Props
