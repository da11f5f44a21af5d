import Verif.Proofs.PageCount
import Verif.Props.Content
/-
Property C74: the placeholder for the number of pages (/repo/process.go:48) reaches the library in one piece.
-/
namespace Verif.Props
open Verif.Go Verif.Model Verif.Model.Tables Verif.Proofs Verif.Spec

variable {E : Type} {eng : Engine E} {ctx : Ctx} {n : Nat}

/-- C74 for texts without block alignment: as many placeholders are written as the text has, whatever the hyphenator does. -/
theorem C74_unjustified_partial {c : Calls E} (hp : ∀ f e, eng.currentPage (eng.changeFont f e) = eng.currentPage e)
    {st : Styled} {iss : List Instr} {s s' : PState E} (hb : (st.mutatedStyles ctx.classes s.curr).align.h ≠ b!"block")
    (h : renderText eng ctx c st iss s = some ((), s')) : ∃ ps, Did eng c s ps s' ∧ occPuts ps = occText iss := by
  obtain ⟨ps, h1, h2⟩ := renderText_whole hp hb h
  exact ⟨ps, h2, occ_text (fun w => by simp) (fun w _ => by simp) h1⟩

/-- C74 for a whole document, as far as the hyphenator does not break words with the placeholder: the pages hold at least as many
placeholders as the body (more where header, footer or repeated rows hold some). -/
theorem C74_document_partial {p : Paper} {r : PdfResult} {s' : PState Fpdf} (hw : ∀ w, (ctx.hyphenate w).flatten <:+: w)
    (he : (ctx.hyphenate []).length ≤ 1) (hk : ∀ w, b!"{np}" <:+: w → (ctx.hyphenate w).length ≤ 1)
    (h : process (Fpdf.engine p) ctx n (newProcessor (Fpdf.new p)) = some (r, s')) :
    occPart ctx.header + occPart ctx.body ≤ occPuts (putsOn s'.eng) := by
  obtain ⟨hd, ds, ft, ⟨hq, h1, h2⟩, ⟨ps, h3, h4⟩, -, h5⟩ := C73_document hw he h
  have a1 := occ_part (m := meansOf ctx) hw hk (plainImages ctx) h1
  have a2 := occ_part (m := meansOf ctx) hw hk (plainImages ctx) h3
  have b1 := occ_filled h2
  have b2 := occ_filled h4
  rw [h5]
  simp only [occPuts, occPuts_append]
  omega

/-- The US English hyphenator of the repository breaks the placeholder. -/
theorem C74_broken : ∃ pl, parsePatterns (fun _ => false) enUsText = some pl ∧ hyphenate id pl b!"{np}" = some [b!"{n", b!"p}"] := by
  have hok := Verif.Proofs.EnUsTable.allOk
  have hload := (table_load (nd := fun _ => false) enUsLines hok (fun _ _ _ _ _ => rfl)).1
  refine ⟨_, hload, ?_⟩
  have hmem : ∀ l ∈ [b!"n1p4"], l ∈ enUsLines := by
    have h1 : b!"n1p4" ∈ enUs27 := by decide +kernel
    intro l hl
    rw [List.mem_singleton.mp hl]
    unfold enUsLines
    rw [List.mem_flatten]
    exact ⟨enUs27, by simp [enUsChunks], h1⟩
  have := hyphenate_restrict (lower := id) hok Verif.Proofs.EnUsTable.idxAll hmem (by decide +kernel)
    (s := b!"{np}") (D := [46, 123, 110, 112, 125, 46]) (by decide +kernel) (by decide +kernel)
  unfold tableLookup at this
  rw [this]
  decide +kernel

private def plain : Styled := ⟨[], []⟩

/-- The code of the hyphenator, with that one line of the table. -/
private def exHyphen (w : Str) : List Str := ((parsePatterns (fun _ => false) b!"n1p4").bind fun pl => hyphenate id pl w).getD []

private def exDoc (header : List Instr) (align : Str) (hyph : Str → List Str) : Ctx :=
  { classes := [], header := header, footer := [],
    body := [.text ⟨[[([4, 0], .str align)]], []⟩ [.textBlock b!"the document that altogether shows {np} pages"]],
    hyphenate := hyph, resolve := id, describe := fun _ => none }

private def puts (ctx : Ctx) : Option (List Put) :=
  (process (Fpdf.engine exPaper) ctx 2 (newProcessor (Fpdf.new exPaper))).map fun r => putsOn r.2.eng

/-- C74 as stated is false: in block text the placeholder is broken at the end of a line, and never replaced. -/
theorem C74_false : (puts (exDoc [] b!"block" exHyphen)).map occPuts = some 0 ∧
    (puts (exDoc [] b!"block" exHyphen)).map (fun ps => decide (.text b!"{n-" ∈ ps)) = some true ∧ occPart (exDoc [] b!"block" exHyphen).body = 1 := by
  decide +kernel

/-- Left aligned, or without that line in the table, it is not. -/
example : (puts (exDoc [] b!"left" exHyphen)).map occPuts = some 1 ∧ (puts (exDoc [] b!"block" exHyph)).map occPuts = some 1 := by
  decide +kernel

/-- In header and body. -/
example : (puts (exDoc [.text plain [.textBlock b!"page {cp} of {np}"]] b!"block" exHyph)).map occPuts = some 2 ∧
    (∀ w, (exHyph w).flatten <:+: w) ∧ (exHyph []).length ≤ 1 ∧ ∀ w, b!"{np}" <:+: w → (exHyph w).length ≤ 1 := by
  refine ⟨by decide +kernel, fun w => ?_, by decide, fun w h => ?_⟩
  · unfold exHyph
    split
    · rename_i h; rw [h]; decide
    · simp
  · unfold exHyph
    split
    · rename_i e; rw [e] at h; exact absurd h (by decide)
    · simp

end Verif.Props
