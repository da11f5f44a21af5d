import Verif.Proofs.Intact
import Verif.Props.Sources
/-
Property C120: the texts in the PDF are made of whole characters.
-/
namespace Verif.Props
open Verif.Go Verif.Model Verif.Spec Verif.Proofs Verif.Model.Tables

variable {fl : Floats} {ord sheetOrd : Nat → MapOrder} {p : Paper} {n : Nat} {r : PdfResult} {s' : PState Fpdf}
  {hyph : Str → List Str} {resolve : Str → Str} {images : Str → Option ImageDesc}

/-- C120, in part: with a hyphenator that keeps characters in one piece, all texts on the pages are valid UTF-8, if those of the file are. -/
theorem C120_document (misc : List Tok) (hm : misc.all isMisc = true) (as : List Attr) (kids : List Node) (post : List Tok) {doc : Document}
    (hl : load fl ord sheetOrd (misc ++ ((Node.elem b!"document" as kids).toks ++ post)) = some doc)
    (hw : ∀ w, (hyph w).flatten <:+: w) (he : (hyph []).length ≤ 1) (hh : ∀ w, validUtf8 w = true → ∀ q ∈ hyph w, validUtf8 q = true)
    (hu : ∀ part, ∀ nd ∈ inside part kids, ∀ x, PrintedIn x nd → validUtf8 x = true)
    (h : process (Fpdf.engine p) (ctxOf hyph resolve images doc) n (newProcessor (Fpdf.new p)) = some (r, s'))
    {v : Str} (hv : Put.text v ∈ putsOn s'.eng) : validUtf8 v = true := by
  rcases C119_document misc hm as kids post hl hw he h hv with h1 | ⟨part, -, nd, h1, x, h2, page, w, h3, h4⟩
  · rcases h1 with rfl | rfl <;> decide +kernel
  have hx := wordsOf_valid (hu part nd h1 x h2) w h3
  have flat : ∀ l : List Str, (∀ q ∈ l, validUtf8 q = true) → validUtf8 l.flatten = true := by
    intro l
    induction l with
    | nil => intro _; rfl
    | cons a l ih => intro hl; exact (valid_append (hl a (by simp))).mpr (ih fun q hq => hl q (by simp [hq]))
  cases h4 with
  | whole e =>
    rcases e with rfl | rfl
    · exact hx
    · exact valid_cons (by decide) hx
  | first hb e =>
    obtain ⟨i, -, -, rfl, -⟩ := hb
    have := (valid_append (b := [45]) (flat ((hyph w).take i) fun q hq => hh w hx q (List.mem_of_mem_take hq))).mpr (by decide +kernel)
    rcases e with rfl | rfl
    · exact this
    · exact valid_cons (by decide) this
  | second hb =>
    obtain ⟨i, -, -, -, rfl⟩ := hb
    exact flat _ fun q hq => hh w hx q (List.mem_of_mem_drop hq)

variable {lib : Libraries Fpdf} {w : World} {metric : Font → Str → ℚ} {print : List Mark → Str} {nd : Nat → Bool} {lower : Nat → Nat}

/-- C120, in part: if the program ends with exit code 0, all texts in the PDF are valid UTF-8 if those of the file are, but for the two parts of words that are broken inside a
character.  Missing: that there are no such words.  That does not hold: see `C120_false`. -/
theorem C120_program_partial (h : Prints lib metric print) (he : lib.hyphenate = newEnUs nd lower) {bs : Str} (hb : w.files (absPath w.wd (inputName w.args)) = some bs)
    (misc : List Tok) (hm : misc.all isMisc = true) (as : List Attr) (kids : List Node) (post : List Tok)
    (ht : lib.tokens bs = misc ++ ((Node.elem b!"document" as kids).toks ++ post)) (hu : ∀ part, ∀ nd ∈ inside part kids, ∀ x, PrintedIn x nd → validUtf8 x = true)
    (h0 : (xpdfMain lib w).1 = .code 0) :
    ∃ e : Fpdf, (xpdfMain lib w).2.files (outFile w) = some (print e.out) ∧ ∀ v, Put.text v ∈ putsOn e →
      validUtf8 v = true ∨ ∃ part ∈ [b!"body", b!"header", b!"footer"], ∃ nd ∈ inside part kids, ∃ x, PrintedIn x nd ∧ ∃ page, ∃ w ∈ wordsOf page x,
        ∃ t u, EnglishBreak lower w t u ∧ validUtf8 t = false ∧ (v = t ++ [45] ∨ v = 32 :: (t ++ [45]) ∨ v = u) := by
  obtain ⟨e, h1, h2⟩ := C119_program h he hb misc hm as kids post ht h0
  refine ⟨e, h1, fun v hv => ?_⟩
  rcases h2 v hv with h3 | ⟨part, hp, node, hn, x, hx, page, wd, hwd, hpc⟩
  · rcases h3 with rfl | rfl <;> exact .inl (by decide +kernel)
  · refine (piece_valid (wordsOf_valid (hu part node hn x hx) wd hwd) hpc).imp id fun h4 => ?_
    exact ⟨part, hp, node, hn, x, hx, page, wd, hwd, h4⟩

/-- C120: a word that is broken inside a character has a character of several bytes. -/
theorem C120_ascii {x t u : Str} (h : EnglishBreak lower x t u) (ht : validUtf8 t = false) : isAscii x = false := by
  obtain ⟨-, -, cuts, hc, k, -, -, rfl, -⟩ := h
  rw [Bool.eq_false_iff] at ht ⊢
  intro ha
  refine ht (valid_ascii ?_)
  rw [isAscii_iff] at ha ⊢
  exact fun c hc => ha c (List.mem_of_mem_take hc)

/-! ### A letter that is cut in half -/

private def cutKids : List Node := [.elem b!"body" [] [.elem b!"text" [(b!"style", b!"h-align:block")] [.chars b!"a résumé"]]]

/-- Prints a bar for each page, and the texts. -/
private def cutPrint (out : List Mark) : Str := out.flatMap fun | .page => b!"|" | .text _ _ _ _ _ t => t | _ => []

private def cutLib (hyph : Str → List Str) : Libraries Fpdf where
  tokens := fun bs => if bs = b!"a résumé" then (Node.elem b!"document" [] cutKids).toks else []
  floats := { parseFloat := fun s => (parseInt s).map (fun n => (n : ℚ)), convertFloat := fun s => (parseInt s).map (fun n => (n : ℚ)) }
  ord := fun _ => ⟨id, fun _ => .refl _⟩
  sheetOrd := fun _ => ⟨id, fun _ => .refl _⟩
  toml := fun _ => some ⟨[], []⟩
  parse := fun _ => .font
  engine := fun l => printing cutPrint (l.paper fun _ s => s.length * 20)
  start := fun l => Fpdf.new (l.paper fun _ s => s.length * 20)
  image := fun _ => none
  hyphenate := hyph
  depth := 2

private def cutWorld : World where
  args := [b!"xpdf", b!"in/doc.xml"]
  wd := b!"/home"
  files := fun p => if p = b!"/home/in/doc.xml" then some b!"a résumé" else if p = b!"/home/fonts/fontdef.toml" then some [] else none
  writable := fun p => p = b!"/home/doc.pdf"

/-- The two parts of the word: the letter "é" is the bytes 195 and 169. -/
private def cutParts : List Str := [[114, 195], [169, 115, 117, 109, 195, 169]]

private theorem newEnUs_resume : newEnUs nd0 id b!"résumé" = cutParts := by
  have hok := Verif.Proofs.EnUsTable.allOk
  have hload := (table_load (nd := nd0) enUsLines hok (fun _ _ _ _ _ => rfl)).1
  have hmem : ∀ l ∈ [b!"1su", b!"su2m"], l ∈ enUsLines := by
    have h1 : b!"1su" ∈ enUs37 := by decide +kernel
    have h2 : b!"su2m" ∈ enUs37 := by decide +kernel
    intro l hl
    simp only [List.mem_cons, List.not_mem_nil, or_false] at hl
    unfold enUsLines
    rw [List.mem_flatten]
    rcases hl with rfl | rfl
    · exact ⟨enUs37, by simp [enUsChunks], h1⟩
    · exact ⟨enUs37, by simp [enUsChunks], h2⟩
  have := hyphenate_restrict (lower := id) hok Verif.Proofs.EnUsTable.idxAll hmem (by decide +kernel)
    (s := b!"résumé") (D := [46, 114, 233, 115, 117, 109, 233, 46]) (by decide +kernel) (by decide +kernel)
  unfold tableLookup at this
  unfold newEnUs
  rw [enUsText, hload, Option.bind_some, this]
  decide +kernel

/-- The hyphenator, with the result for this word at hand. -/
private def cutHyph (s : Str) : List Str := if s = b!"résumé" then cutParts else newEnUs nd0 id s

private theorem cutHyph_eq : newEnUs nd0 id = cutHyph := by
  funext s
  unfold cutHyph
  split
  · rename_i h; rw [h, newEnUs_resume]
  · rfl

/-- What is printed: "|ar", one half of the letter "é", "-", the other half, "sumé". -/
private def cutText : Str := b!"|ar" ++ [195] ++ b!"-" ++ [169] ++ b!"sumé"

private theorem cut_main : (xpdfMain (cutLib cutHyph) cutWorld).1 = .code 0 ∧ (xpdfMain (cutLib cutHyph) cutWorld).2.files (outFile cutWorld) = some cutText := by decide +kernel

private theorem print_valid : ∀ out : List Mark, (∀ v, Put.text v ∈ (out.filterMap fun
    | .text _ _ _ _ _ t => some (.text t) | .image _ src _ _ _ _ => some (.image src) | .page => some .page | _ => none) → validUtf8 v = true) → validUtf8 (cutPrint out) = true
  | [], _ => rfl
  | m :: out, h => by
    have hc : cutPrint (m :: out) = cutPrint [m] ++ cutPrint out := by simp [cutPrint, List.flatMap_cons]
    rw [List.filterMap_cons] at h
    rw [hc]
    cases m with
    | text =>
      refine (valid_append ?_).mpr (print_valid out fun v hv => h v (List.mem_cons_of_mem _ hv))
      simpa [cutPrint] using h _ List.mem_cons_self
    | page => exact valid_cons (c := 124) (by decide) (print_valid out fun v hv => h v (List.mem_cons_of_mem _ hv))
    | image => exact print_valid out fun v hv => h v (List.mem_cons_of_mem _ hv)
    | _ => exact print_valid out h

private theorem cut_printed : ∀ part, ∀ nd ∈ inside part cutKids, ∀ x, PrintedIn x nd → x = b!"a résumé" := by
  intro part nd hn x hx
  have : nd = .elem b!"text" [(b!"style", b!"h-align:block")] [.chars b!"a résumé"] := by
    unfold inside cutKids at hn
    simp only [elems, List.filter_cons, List.filter_nil] at hn
    split at hn
    · simpa using hn
    · simp at hn
  rw [this] at hx
  cases hx with
  | text h =>
    cases h with
    | chars h => simpa using h
    | paragraph h => simp at h

/-- C120 is false of the code: of the text "a résumé" the program prints the letter "é" in two halves, on two lines, without an error. -/
theorem C120_false : ∃ (lib : Libraries Fpdf) (w : World) (metric : Font → Str → ℚ) (print : List Mark → Str) (kids : List Node) (bs : Str),
    Prints lib metric print ∧ lib.hyphenate = newEnUs (fun _ => false) id ∧ w.files (absPath w.wd (inputName w.args)) = some bs ∧
    lib.tokens bs = (Node.elem b!"document" [] kids).toks ∧ (∀ part, ∀ nd ∈ inside part kids, ∀ x, PrintedIn x nd → x = b!"a résumé") ∧
    validUtf8 b!"a résumé" = true ∧ (xpdfMain lib w).1 = .code 0 ∧
    (xpdfMain lib w).2.files (outFile w) = some (b!"|ar" ++ [195] ++ b!"-" ++ [169] ++ b!"sumé") ∧
    ∀ e : Fpdf, (xpdfMain lib w).2.files (outFile w) = some (print e.out) → ∃ v, Put.text v ∈ putsOn e ∧ validUtf8 v = false := by
  refine ⟨cutLib cutHyph, cutWorld, _, cutPrint, cutKids, b!"a résumé", ⟨fun _ => rfl, fun _ => rfl, le_refl 2⟩, cutHyph_eq.symm, by decide +kernel, by decide +kernel,
    cut_printed, by decide +kernel, cut_main.1, cut_main.2, ?_⟩
  intro e he
  rw [cut_main.2, Option.some.injEq] at he
  by_contra hc
  have h1 := print_valid e.out fun v hv => by
    by_contra hv'
    exact hc ⟨v, hv, by simpa using hv'⟩
  rw [← he] at h1
  exact absurd h1 (by decide +kernel)

-- The world of `C120_false` meets the assumptions of `C120_program_partial`; this is how the word is broken.
example : EnglishBreak id b!"résumé" [114, 195] [169, 115, 117, 109, 195, 169] ∧ validUtf8 [114, 195] = false ∧ isAscii b!"résumé" = false := by
  have := newEnUs_break (nd := nd0) (lower := id) (w := b!"résumé") (i := 1) (by decide) (by rw [newEnUs_resume]; decide)
  rw [newEnUs_resume] at this
  exact ⟨this, by decide +kernel, by decide +kernel⟩

-- A hyphenator that keeps characters in one piece: that which never breaks a word.
example : (∀ w : Str, [w].flatten <:+: w) ∧ [([] : Str)].length ≤ 1 ∧ ∀ w : Str, validUtf8 w = true → ∀ q ∈ [w], validUtf8 q = true :=
  ⟨fun w => by simp, by simp, fun w h q hq => by rw [List.mem_singleton.mp hq]; exact h⟩

end Verif.Props
