import Verif.Model.Main
import Verif.Proofs.Path
import Verif.Props.Alike
import Verif.Props.Process
/-
Properties C82, C83: what the program xpdf does with files, and its exit codes (/repo/cmd/xpdf/main.go).
-/
namespace Verif.Props
open Verif.Go Verif.Model Verif.Spec Verif.Proofs

variable {E : Type} (lib : Libraries E) (w : World)

/-- The file the output is written to. -/
def outFile (w : World) : Str := absPath w.wd (outputName w.args)

/-- The world with the output created. -/
def created (w : World) : World := { w with files := fun p => if p = outFile w then some [] else w.files p }

/-- The document was loaded from the input, the output could be created, the fonts were loaded, and the engine was made.  The last steps see the
files with the output created. -/
structure Made (lib : Libraries E) (w : World) (doc : Document) (l : Lib) : Prop where
  writable : w.writable (outFile w) = true
  loaded : ∃ bs, w.files (absPath w.wd (inputName w.args)) = some bs ∧ load lib.floats lib.ord lib.sheetOrd (lib.tokens bs) = some doc
  fonts : ∃ fs defs, (created w).files (absPath w.wd b!"fonts/fontdef.toml") = some fs ∧ lib.toml fs = some defs ∧
    newFpdf (created w).read lib.parse (loadRegistryFile w.wd b!"fonts/fontdef.toml" defs) doc.page = some l

/-- The processor's view of the document. -/
def viewOf (lib : Libraries E) (w : World) (doc : Document) : Ctx :=
  ctxOf lib.hyphenate (resolveFile w.wd) (fun src => ((created w).read src).bind lib.image) doc

/-- The engine was made and has processed the document to the end, with the result `r`. -/
def Processed (lib : Libraries E) (w : World) (r : PdfResult) : Prop :=
  ∃ doc l s, Made lib w doc l ∧ process (lib.engine l) (viewOf lib w doc) lib.depth (newProcessor (lib.start l)) = some (r, s)

/-- C82: the program changes no file but the output. -/
theorem C82_others (p : Str) (hp : p ≠ outFile w) : (xpdfMain lib w).2.files p = w.files p := by
  have hw : ∀ (w1 : World) bs, w1.wd = w.wd → (w1.write (outputName w.args) bs).files p = w1.files p := by
    intro w1 bs h1
    simp only [World.write, h1]
    exact if_neg hp
  unfold xpdfMain
  split
  · rfl
  · split
    · rfl
    · rename_i w1 hc
      unfold World.create at hc
      split at hc
      · simp only [Option.some.injEq] at hc
        subst hc
        split
        · exact hw w [] rfl
        · unfold runProcessor
          split
          · exact hw w [] rfl
          · split
            · exact hw w [] rfl
            · exact (hw (w.write (outputName w.args) []) _ rfl).trans (hw w [] rfl)
      · exact absurd hc (by simp)

/-- C82: if the input is not a document, or the output can not be created, the program ends with exit code 2 and changes nothing. -/
theorem C82_nothing (h : (∀ bs doc, w.files (absPath w.wd (inputName w.args)) = some bs → load lib.floats lib.ord lib.sheetOrd (lib.tokens bs) ≠ some doc) ∨
    w.writable (outFile w) = false) : xpdfMain lib w = (.code 2, w) := by
  unfold xpdfMain
  split
  · rfl
  · rename_i doc hl
    rcases h with h | h
    · unfold loadFile World.read at hl
      obtain ⟨bs, h1, h2⟩ := Option.bind_eq_some_iff.mp hl
      exact absurd h2 (h bs doc h1)
    · unfold World.create
      rw [show w.writable (absPath w.wd (outputName w.args)) = false from h]
      simp

theorem processed_main {r : PdfResult} (h : Processed lib w r) :
    xpdfMain lib w = (if r.failed then .code 4 else .code 0, { w with files := fun p => if p = outFile w then some r.written else w.files p }) := by
  obtain ⟨doc, l, s, ⟨hw, ⟨bs, h1, h2⟩, fs, defs, h3, h4, h5⟩, h6⟩ := h
  unfold xpdfMain
  have hl : loadFile lib w (inputName w.args) = some doc := by simp only [loadFile, World.read, h1, Option.bind_some, h2]
  have hc : w.create (outputName w.args) = some (created w) := by
    unfold World.create
    rw [show w.writable (absPath w.wd (outputName w.args)) = true from hw]
    rfl
  have hf : ((created w).read fontDefFile).bind lib.toml = some defs := by
    rw [show (created w).read fontDefFile = some fs from h3]
    exact h4
  simp only [hl, hc, hf]
  unfold runProcessor
  have h5' : newFpdf (created w).read lib.parse (loadRegistryFile (created w).wd fontDefFile defs) doc.page = some l := h5
  have h6' : process (lib.engine l) (processorOf lib (created w) doc) lib.depth (newProcessor (lib.start l)) = some (r, s) := h6
  simp only [h5', h6', Prod.mk.injEq, true_and]
  simp only [World.write, created, outFile]
  congr 1
  funext p
  by_cases h : p = absPath w.wd (outputName w.args) <;> simp [h]

private theorem main_cases :
    (xpdfMain lib w = (.code 2, w) ∧ (loadFile lib w (inputName w.args) = none ∨ w.writable (outFile w) = false)) ∨
    ((xpdfMain lib w = (.code 2, created w) ∨ xpdfMain lib w = (.code 3, created w) ∨ xpdfMain lib w = (.crash, created w)) ∧
      (∀ r, ¬ Processed lib w r)) ∨
    ∃ r, Processed lib w r := by
  by_cases hp : ∃ r, Processed lib w r
  · exact .inr (.inr hp)
  · have hp' : ∀ r, ¬ Processed lib w r := fun r hr => hp ⟨r, hr⟩
    unfold xpdfMain
    cases hl : loadFile lib w (inputName w.args) with
    | none => exact .inl ⟨rfl, .inl rfl⟩
    | some doc =>
      simp only
      cases hc : w.create (outputName w.args) with
      | none =>
        refine .inl ⟨rfl, .inr ?_⟩
        unfold World.create at hc
        split at hc
        · exact absurd hc (by simp)
        · rename_i h
          exact Bool.eq_false_iff.mpr h
      | some w1 =>
        have hcw : w1 = created w ∧ w.writable (outFile w) = true := by
          unfold World.create at hc
          split at hc
          · rename_i hw
            exact ⟨(Option.some.inj hc).symm, hw⟩
          · exact absurd hc (by simp)
        obtain ⟨rfl, hw⟩ := hcw
        refine .inr (.inl ⟨?_, hp'⟩)
        simp only
        cases hf : ((created w).read fontDefFile).bind lib.toml with
        | none => exact .inl rfl
        | some defs =>
          simp only
          unfold runProcessor
          cases hn : newFpdf (created w).read lib.parse (loadRegistryFile (created w).wd fontDefFile defs) doc.page with
          | none => exact .inr (.inl rfl)
          | some l =>
            simp only
            cases hr : process (lib.engine l) (processorOf lib (created w) doc) lib.depth (newProcessor (lib.start l)) with
            | none => exact .inr (.inr rfl)
            | some q =>
              obtain ⟨r, s⟩ := q
              exfalso
              unfold loadFile at hl
              obtain ⟨bs, h1, h2⟩ := Option.bind_eq_some_iff.mp hl
              obtain ⟨fs, h3, h4⟩ := Option.bind_eq_some_iff.mp hf
              exact hp ⟨r, doc, l, s, ⟨hw, ⟨bs, h1, h2⟩, fs, defs, h3, h4, hn⟩, hr⟩

/-- C82: exit code 0 means that all went well, and then the output is what the engine has written. -/
theorem C82_success : (xpdfMain lib w).1 = .code 0 ↔ ∃ r, Processed lib w r ∧ r.failed = false ∧ (xpdfMain lib w).2.files (outFile w) = some r.written := by
  constructor
  · intro h
    rcases main_cases lib w with ⟨h1, hn⟩ | ⟨h1 | h1 | h1, -⟩ | ⟨r, hr⟩
    iterate 4 (rw [h1] at h; exact absurd h (by simp))
    have hm := processed_main lib w hr
    rw [hm] at h ⊢
    refine ⟨r, hr, ?_, by simp⟩
    cases hb : r.failed with
    | false => rfl
    | true => rw [hb] at h; exact absurd h (by simp)
  · rintro ⟨r, hr, hb, -⟩
    rw [processed_main lib w hr, hb]
    rfl

/-- C82: no error is lost: with exit code 0 the engine had not failed at the end of the document. -/
theorem C82_no_error (h : (xpdfMain lib w).1 = .code 0) : ∃ doc l s, Made lib w doc l ∧
    ((callsAt (lib.engine l) (viewOf lib w doc) lib.depth).addPage (changeFont (lib.engine l) defaultStyle.font
      { newProcessor (lib.start l) with eng := (lib.engine l).setPageCountAlias b!"{np}" (lib.start l) })).bind (fun q =>
        processInstrs (lib.engine l) (viewOf lib w doc) (callsAt (lib.engine l) (viewOf lib w doc) lib.depth) doc.body q.2) = some ((), s) ∧
    (lib.engine l).failed s.eng = false := by
  obtain ⟨r, ⟨doc, l, s, hm, h6⟩, hb, -⟩ := (C82_success lib w).mp h
  obtain ⟨s1, h7, -, h8⟩ := C47_written h6
  refine ⟨doc, l, s1, hm, h8, ?_⟩
  cases hf : (lib.engine l).failed s1.eng with
  | false => rfl
  | true => rw [(h7 hf).1] at hb; exact absurd hb (by simp)

/-- C82: the exit code says how far the program came: 2 and nothing changed; 2 or 3 (or a crash) and the output is empty; 4 and the output is what
was written before the engine failed. -/
theorem C82_failure (h : (xpdfMain lib w).1 ≠ .code 0) :
    (xpdfMain lib w = (.code 2, w) ∧ (loadFile lib w (inputName w.args) = none ∨ w.writable (outFile w) = false)) ∨
    (((xpdfMain lib w).1 = .code 2 ∨ (xpdfMain lib w).1 = .code 3 ∨ (xpdfMain lib w).1 = .crash) ∧ (xpdfMain lib w).2.files (outFile w) = some []) ∨
    ((xpdfMain lib w).1 = .code 4 ∧ ∃ r, Processed lib w r ∧ r.failed = true ∧ (xpdfMain lib w).2.files (outFile w) = some r.written) := by
  have hce : (created w).files (outFile w) = some [] := if_pos rfl
  rcases main_cases lib w with ⟨h1, hn⟩ | ⟨h1 | h1 | h1, -⟩ | ⟨r, hr⟩
  · exact .inl ⟨h1, hn⟩
  · rw [h1]; exact .inr (.inl ⟨.inl rfl, hce⟩)
  · rw [h1]; exact .inr (.inl ⟨.inr (.inl rfl), hce⟩)
  · rw [h1]; exact .inr (.inl ⟨.inr (.inr rfl), hce⟩)
  · have hm := processed_main lib w hr
    cases hb : r.failed with
    | false => rw [hm, hb] at h; exact absurd rfl h
    | true =>
      rw [hm, hb]
      exact .inr (.inr ⟨rfl, r, hr, hb, if_pos rfl⟩)

/-- C82: the program does the same whatever the iteration orders of maps. -/
theorem C82_deterministic (o so : Nat → MapOrder) : xpdfMain { lib with ord := o, sheetOrd := so } w = xpdfMain lib w := by
  have hrun : ∀ (w1 : World) out {d d' : Document} fonts, LookAlike d d' →
      runProcessor { lib with ord := o, sheetOrd := so } w1 out d fonts = runProcessor lib w1 out d' fonts := by
    intro w1 out d d' fonts h
    unfold runProcessor
    simp only [h.page]
    have : ∀ l : Lib, process (lib.engine l) (processorOf { lib with ord := o, sheetOrd := so } w1 d) lib.depth =
        process (lib.engine l) (processorOf lib w1 d') lib.depth := fun l =>
      C72_process (lib.engine l) lib.hyphenate (resolveFile w1.wd) (fun src => (w1.read src).bind lib.image) h lib.depth
    simp only [this]
  unfold xpdfMain loadFile
  cases hr : w.read (inputName w.args) with
  | none => rfl
  | some bs =>
    simp only [Option.bind_some]
    rcases C72_load lib.floats o lib.ord so lib.sheetOrd (lib.tokens bs) with ⟨h, h'⟩ | ⟨d, d', h, h', hl⟩
    · rw [h, h']
    · rw [h, h']
      simp only [hrun _ _ _ hl]

/-! ### C83: what a run that fails leaves -/

/-- C83, in part: an earlier output is kept if the input is not a document or the output can not be written; an input that is not the output is kept
in any case. -/
theorem C83_kept_partial :
    ((loadFile lib w (inputName w.args) = none ∨ w.writable (outFile w) = false) → (xpdfMain lib w).2.files = w.files) ∧
    (absPath w.wd (inputName w.args) ≠ outFile w → (xpdfMain lib w).2.read (inputName w.args) = w.read (inputName w.args)) := by
  constructor
  · intro h
    rw [C82_nothing lib w]
    rcases h with h | h
    · left
      intro bs doc h1 h2
      unfold loadFile World.read at h
      rw [h1, Option.bind_some, h2] at h
      exact absurd h (by simp)
    · exact .inr h
  · intro h
    have hwd : (xpdfMain lib w).2.wd = w.wd := by
      rcases main_cases lib w with ⟨h1, hn⟩ | ⟨h1 | h1 | h1, -⟩ | ⟨r, hr⟩
      · rw [h1]
      · rw [h1]; simp only [created]
      · rw [h1]; simp only [created]
      · rw [h1]; simp only [created]
      rw [processed_main lib w hr]
    unfold World.read
    rw [hwd]
    exact C82_others lib w _ h

/-- C83 is false otherwise: whenever the file with the fonts is missing, an earlier output is lost. -/
theorem C83_lost (doc : Document) (hl : loadFile lib w (inputName w.args) = some doc) (hw : w.writable (outFile w) = true)
    (hf : absPath w.wd b!"fonts/fontdef.toml" ≠ outFile w) (hn : w.files (absPath w.wd b!"fonts/fontdef.toml") = none) :
    (xpdfMain lib w).1 = .code 2 ∧ (xpdfMain lib w).2.files (outFile w) = some [] := by
  have hc : w.create (outputName w.args) = some (created w) := by
    unfold World.create
    rw [show w.writable (absPath w.wd (outputName w.args)) = true from hw]
    rfl
  have hr : (created w).read fontDefFile = none := by
    unfold World.read created fontDefFile
    simp only
    rw [if_neg hf, hn]
  unfold xpdfMain
  simp only [hl, hc, hr, Option.bind_none]
  exact ⟨trivial, if_pos rfl⟩

/-- C83 is false otherwise: an input with the extension pdf in the working directory is its own output, and is overwritten. -/
theorem C83_input (prog name : Str) (hargs : w.args = [prog, name ++ b!".pdf"]) (hn : 47 ∉ name) (doc : Document)
    (hl : loadFile lib w (inputName w.args) = some doc) (hw : w.writable (outFile w) = true) :
    (xpdfMain lib w).2.files (absPath w.wd (inputName w.args)) = some [] ∨
    ∃ r, Processed lib w r ∧ (xpdfMain lib w).2.files (absPath w.wd (inputName w.args)) = some r.written := by
  have ho : outputName w.args = inputName w.args := by
    have h := base_ext (p := []) (b := name ++ b!".pdf") (.inl rfl) (by simp) (by simp [hn])
    rw [List.nil_append] at h
    rw [hargs]
    show trimSuffix (basePath (name ++ b!".pdf")) (extPath (name ++ b!".pdf")) ++ b!".pdf" = name ++ b!".pdf"
    rw [h.1, h.2, show fromDot (name ++ b!".pdf") = b!".pdf" from fromDot_ext (x := b!"pdf") (by decide), trimSuffix_append]
  rw [← ho]
  by_cases h0 : (xpdfMain lib w).1 = .code 0
  · obtain ⟨r, hr, -, hf⟩ := (C82_success lib w).mp h0
    exact .inr ⟨r, hr, hf⟩
  · rcases C82_failure lib w h0 with ⟨-, h | h⟩ | ⟨-, h⟩ | ⟨-, r, hr, -, h⟩
    · rw [hl] at h; exact absurd h (by simp)
    · rw [hw] at h; exact absurd h (by simp)
    · exact .inl h
    · exact .inr ⟨r, hr, h⟩

/-- C83, exactly: a run with an exit code other than 0 keeps an earlier output (that is not empty) if and only if the input is not a document, the
output can not be written, or the part of a PDF that an engine has written before it failed happens to be the earlier output. -/
theorem C83_iff (h : (xpdfMain lib w).1 ≠ .code 0) {o : Str} (ho : w.files (outFile w) = some o) (hne : o ≠ []) :
    (xpdfMain lib w).2.files = w.files ↔
      loadFile lib w (inputName w.args) = none ∨ w.writable (outFile w) = false ∨ ∃ r, Processed lib w r ∧ r.failed = true ∧ r.written = o := by
  constructor
  · intro hk
    rcases C82_failure lib w h with ⟨-, h1 | h1⟩ | ⟨-, h1⟩ | ⟨-, r, hr, hb, h1⟩
    · exact .inl h1
    · exact .inr (.inl h1)
    · rw [hk, ho, Option.some.injEq] at h1
      exact absurd h1 hne
    · rw [hk, ho, Option.some.injEq] at h1
      exact .inr (.inr ⟨r, hr, hb, h1.symm⟩)
  · rintro (h1 | h1 | ⟨r, hr, -, h1⟩)
    · exact (C83_kept_partial lib w).1 (.inl h1)
    · exact (C83_kept_partial lib w).1 (.inr h1)
    · rw [processed_main lib w hr]
      funext p
      show (if p = outFile w then some r.written else w.files p) = w.files p
      split
      · rename_i hp
        rw [hp, ho, h1]
      · rfl

/-! The program with the engine of the model and a file: it succeeds; it fails without the file with the fonts, and then the earlier output is gone. -/

private def exTokens : List Tok :=
  [.start b!"document" [], .start b!"body" [], .start b!"lf" [(b!"lines", b!"2")], .close b!"lf", .close b!"body", .close b!"document"]

private def exLib : Libraries Fpdf where
  tokens := fun bs => if bs = b!"a document" then exTokens else []
  floats := { parseFloat := fun s => (parseInt s).map (fun n => (n : ℚ)), convertFloat := fun s => (parseInt s).map (fun n => (n : ℚ)) }
  ord := fun _ => ⟨id, fun _ => .refl _⟩
  sheetOrd := fun _ => ⟨id, fun _ => .refl _⟩
  toml := fun _ => some ⟨[], []⟩
  parse := fun _ => .font
  engine := fun l => Fpdf.engine (l.paper fun _ s => s.length)
  start := fun l => Fpdf.new (l.paper fun _ s => s.length)
  image := fun _ => none
  hyphenate := fun s => [s]
  depth := 2

private def exWorld (fonts : Bool) : World where
  args := [b!"xpdf", b!"in/doc.xml"]
  wd := b!"/home"
  files := fun p => if p = b!"/home/in/doc.xml" then some b!"a document" else if p = b!"/home/doc.pdf" then some b!"earlier" else
    if p = b!"/home/fonts/fontdef.toml" ∧ fonts then some [] else none
  writable := fun p => p = b!"/home/doc.pdf"

example : (xpdfMain exLib (exWorld true)).1 = .code 0 ∧ (xpdfMain exLib (exWorld true)).2.files b!"/home/doc.pdf" ≠ some b!"earlier" := by decide +kernel
example : (xpdfMain exLib (exWorld false)).1 = .code 2 ∧ (xpdfMain exLib (exWorld false)).2.files b!"/home/doc.pdf" = some [] := by decide +kernel

end Verif.Props
