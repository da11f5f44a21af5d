import Verif.Proofs.Outside
import Verif.Props.Main
import Verif.Props.Fonts
/-
C113: which hyphenations, images and files the PDF depends on.
-/
namespace Verif.Props
open Verif.Go Verif.Model Verif.Spec Verif.Proofs

variable {E : Type}

/-- C113: of all hyphenations only those of the words of block texts matter, and of all images only those that are shown.  This holds for every
engine: it gets the same calls and gives the same result. -/
theorem C113_process (eng : Engine E) {ctx ctx' : Ctx} (h : SameOutside ctx ctx') (n : Nat) (e : E) :
    process eng ctx' n (newProcessor e) = process eng ctx n (newProcessor e) := process_same_outside h n e

/-- C113: in a document in which nothing asks for block alignment the hyphenator does not matter. -/
theorem C113_no_block (eng : Engine E) (ctx : Ctx) (h : ∀ i ∈ ctx.header ++ ctx.footer ++ ctx.body, ∀ t, ¬ BlockText ctx.classes t i)
    (hyph : Str → List Str) (n : Nat) (e : E) :
    process eng { ctx with hyphenate := hyph } n (newProcessor e) = process eng ctx n (newProcessor e) :=
  C113_process eng (ctx := ctx) (ctx' := { ctx with hyphenate := hyph }) ⟨rfl, rfl, rfl, rfl, fun i hi t ht => absurd ht (h i hi t), fun _ _ _ _ => rfl, fun _ _ _ _ => rfl⟩ n e

/-- C113: in a document without images the image files do not matter. -/
theorem C113_no_image (eng : Engine E) (ctx : Ctx) (h : ∀ i ∈ ctx.header ++ ctx.footer ++ ctx.body, ∀ src, ¬ ShowsImage src i)
    (resolve : Str → Str) (describe : Str → Option ImageDesc) (n : Nat) (e : E) :
    process eng { ctx with resolve := resolve, describe := describe } n (newProcessor e) = process eng ctx n (newProcessor e) :=
  C113_process eng (ctx := ctx) (ctx' := { ctx with resolve := resolve, describe := describe }) ⟨rfl, rfl, rfl, rfl, fun _ _ _ _ _ _ _ => rfl,
    fun i hi src hs => absurd hs (h i hi src), fun i hi src hs => absurd hs (h i hi src)⟩ n e

/-! ### The program -/

/-- The files the program reads: the input, the definitions of fonts, the files named there, relative to the directory of the definitions, and the
files of the images that are shown.  The definitions are read when the output has been created. -/
inductive Reads (lib : Libraries E) (w : World) : Str → Prop
  | input : Reads lib w (absPath w.wd (inputName w.args))
  | definitions : Reads lib w (absPath w.wd b!"fonts/fontdef.toml")
  | font {bs defs f s} : (created w).files (absPath w.wd b!"fonts/fontdef.toml") = some bs → lib.toml bs = some defs → f ∈ defs.fonts → s ∈ f.styles →
      Reads lib w (absPath w.wd (resolveFont (dirPath (absPath w.wd b!"fonts/fontdef.toml")) s.filePath))
  | image {doc i src} : loadFile lib w (inputName w.args) = some doc → i ∈ doc.header ++ doc.footer ++ doc.body → ShowsImage src i →
      Reads lib w (absPath w.wd (resolveFile w.wd src))

/-- Two worlds that look the same to the program: the same arguments and working directory, the output can be created in both or in none,
and the files the program reads are the same. -/
structure SameFiles (lib : Libraries E) (w w' : World) : Prop where
  args : w'.args = w.args
  wd : w'.wd = w.wd
  writable : w'.writable (outFile w) = w.writable (outFile w)
  files : ∀ p, Reads lib w p → w'.files p = w.files p

section
variable {lib : Libraries E} {w w' : World}

theorem eachLoop_same {σ ε : Type} {act act' : Descriptor → σ → σ × Option ε} : ∀ (fds : List Descriptor), (∀ fd ∈ fds, act' fd = act fd) → ∀ s,
    FontRegistry.eachLoop act' fds s = FontRegistry.eachLoop act fds s
  | [], _, _ => rfl
  | fd :: fds, h, s => by
    unfold FontRegistry.eachLoop
    rw [h fd (by simp)]
    cases act fd s with
    | mk s' o =>
      cases o with
      | some e => rfl
      | none => exact eachLoop_same fds (fun x hx => h x (List.mem_cons_of_mem _ hx)) s'

theorem newFpdf_same {read read' : Str → Option Str} {parse : Str → Parsed} {fonts : FontRegistry} {page : DocPage}
    (h : ∀ fd ∈ fonts.fonts, read' fd.filePath = read fd.filePath) : newFpdf read' parse fonts page = newFpdf read parse fonts page := by
  unfold newFpdf
  cases libNew (fpdfOrientation page.orientation) (fpdfFormat page.format) with
  | none => rfl
  | some l =>
    simp only
    have : fonts.each (addFont read' parse) l = fonts.each (addFont read parse) l := by
      refine eachLoop_same _ (fun fd hfd => ?_) l
      funext l
      unfold addFont
      rw [h fd hfd]
    rw [this]

/-- C113: the program ends the same way and makes the same PDF, if the files it reads are the same and the words of block texts are hyphenated in
the same way.  (If it ends before the output is created, it changes nothing in either world.) -/
theorem C113_files (h : SameFiles lib w w') (hyph : Str → List Str)
    (hh : ∀ doc, loadFile lib w (inputName w.args) = some doc → ∀ i ∈ doc.header ++ doc.footer ++ doc.body, ∀ t, BlockText doc.styleClasses t i →
      ∀ page, ∀ x ∈ piecesOf page t, hyph x = lib.hyphenate x) :
    (xpdfMain { lib with hyphenate := hyph } w').1 = (xpdfMain lib w).1 ∧
    ((xpdfMain { lib with hyphenate := hyph } w').2.files (outFile w) = (xpdfMain lib w).2.files (outFile w) ∨
      (xpdfMain { lib with hyphenate := hyph } w').2 = w' ∧ (xpdfMain lib w).2 = w) := by
  have hread : ∀ p, Reads lib w (absPath w.wd p) → w'.read p = w.read p := by
    intro p hp
    unfold World.read
    rw [h.wd]
    exact h.files _ hp
  have hload : loadFile { lib with hyphenate := hyph } w' (inputName w.args) = loadFile lib w (inputName w.args) := by
    unfold loadFile
    rw [hread _ .input]
  have hout : absPath w'.wd (outputName w.args) = outFile w := by rw [h.wd]; rfl
  have hcr : ∀ p, Reads lib w (absPath w.wd p) → (w'.write (outputName w.args) []).read p = (w.write (outputName w.args) []).read p := by
    intro p hp
    simp only [World.read, World.write, h.wd, h.files _ hp]
  have hwr : ∀ bs : Str, (w'.write (outputName w.args) bs).files (outFile w) = some bs ∧ (w.write (outputName w.args) bs).files (outFile w) = some bs := by
    intro bs
    exact ⟨by simp only [World.write, hout, if_true], by simp [World.write, outFile]⟩
  unfold xpdfMain
  rw [h.args, hload]
  cases hl : loadFile lib w (inputName w.args) with
  | none => exact ⟨rfl, Or.inr ⟨rfl, rfl⟩⟩
  | some doc =>
    simp only
    unfold World.create
    rw [hout, h.writable]
    by_cases hw : w.writable (outFile w) = true
    · rw [if_pos hw, if_pos (show w.writable (absPath w.wd (outputName w.args)) = true from hw)]
      simp only
      rw [show fontDefFile = b!"fonts/fontdef.toml" from rfl, hcr _ .definitions]
      cases hd : ((w.write (outputName w.args) []).read b!"fonts/fontdef.toml").bind lib.toml with
      | none => exact ⟨rfl, Or.inl ((hwr []).1.trans (hwr []).2.symm)⟩
      | some defs =>
        simp only
        obtain ⟨bs, hbs, hdefs⟩ := Option.bind_eq_some_iff.mp hd
        have hbs' : (created w).files (absPath w.wd b!"fonts/fontdef.toml") = some bs := hbs
        unfold runProcessor
        have hwd : ∀ v : World, (v.write (outputName w.args) []).wd = v.wd := fun _ => rfl
        rw [hwd, hwd, h.wd]
        have hnew : newFpdf (w'.write (outputName w.args) []).read lib.parse (loadRegistryFile w.wd b!"fonts/fontdef.toml" defs) doc.page =
            newFpdf (w.write (outputName w.args) []).read lib.parse (loadRegistryFile w.wd b!"fonts/fontdef.toml" defs) doc.page := by
          refine newFpdf_same fun fd hfd => ?_
          unfold loadRegistryFile at hfd
          rw [(C50_load _ defs).1] at hfd
          obtain ⟨f, hf, hs⟩ := List.mem_flatMap.mp hfd
          obtain ⟨s, hm, rfl⟩ := List.mem_map.mp hs
          exact hcr _ (.font hbs' hdefs hf hm)
        rw [hnew]
        cases newFpdf (w.write (outputName w.args) []).read lib.parse (loadRegistryFile w.wd b!"fonts/fontdef.toml" defs) doc.page with
        | none => exact ⟨rfl, Or.inl ((hwr []).1.trans (hwr []).2.symm)⟩
        | some l =>
          simp only
          have hs : SameOutside (processorOf lib (w.write (outputName w.args) []) doc)
              (processorOf { lib with hyphenate := hyph } (w'.write (outputName w.args) []) doc) := by
            refine ⟨rfl, rfl, rfl, rfl, hh doc hl, ?_, ?_⟩
            · intro i hi src hs
              show resolveFile w'.wd src = resolveFile w.wd src
              rw [h.wd]
            · intro i hi src hs
              show ((w'.write (outputName w.args) []).read (resolveFile w.wd src)).bind lib.image =
                ((w.write (outputName w.args) []).read (resolveFile w.wd src)).bind lib.image
              rw [hcr _ (.image hl hi hs)]
          rw [C113_process (lib.engine l) hs lib.depth (lib.start l)]
          cases process (lib.engine l) (processorOf lib (w.write (outputName w.args) []) doc) lib.depth (newProcessor (lib.start l)) with
          | none => exact ⟨rfl, Or.inl ((hwr []).1.trans (hwr []).2.symm)⟩
          | some q =>
            refine ⟨rfl, Or.inl ?_⟩
            simp only [World.write, h.wd]
            simp [outFile]
    · rw [if_neg hw, if_neg (show ¬ w.writable (absPath w.wd (outputName w.args)) = true from hw)]
      exact ⟨rfl, Or.inr ⟨rfl, rfl⟩⟩

end
/-! Cases: a block text of two words and another text; the hyphenators agree on the words of the block text, and only there they matter. -/

private def asks : Styled := ⟨[[([4, 0], .str b!"block")]], []⟩

private def exWords : Str := List.replicate 25 97 ++ 32 :: List.replicate 28 98

private def exLong : Str := List.replicate 30 122 ++ 32 :: List.replicate 30 122

private def inTwo (a : UInt8) (w : Str) : List Str := if w.head? = some a then [w.take 10, w.drop 10] else [w]

private def exDoc (hyph : Str → List Str) : Ctx := ⟨[], [], [], [.text asks [.textBlock exWords], .text ⟨[], []⟩ [.textBlock exLong]], hyph, id, fun _ => none⟩

private def outOf (ctx : Ctx) : Option (List Mark) := (process (Fpdf.engine exPaper) ctx 2 (newProcessor (Fpdf.new exPaper))).map (·.2.eng.out)

private theorem asks_block : AsksBlock [] asks := ⟨_, .inline (List.mem_singleton.mpr rfl), fun _ => rfl⟩

private theorem exDoc_same : SameOutside (exDoc (inTwo 98)) (exDoc fun w => if w.head? = some 122 then [w.take 5, w.drop 5] else inTwo 98 w) := by
  refine ⟨rfl, rfl, rfl, rfl, ?_, fun _ _ _ _ => rfl, fun _ _ _ _ => rfl⟩
  intro i hi t ht page w hw
  have hi : i = .text asks [.textBlock exWords] ∨ i = .text ⟨[], []⟩ [.textBlock exLong] := by
    simpa [instrsOf, exDoc] using hi
  rcases hi with rfl | rfl
  · cases ht with
    | text _ hj hs =>
      simp only [List.mem_singleton] at hj
      subst hj
      cases hs
      have e : piecesOf page exWords = piecesOf 1 exWords := by
        have h0 : ¬ b!"{cp}" <:+: exWords := by decide +kernel
        unfold piecesOf
        rw [replaceAll_none (by decide) h0, replaceAll_none (by decide) h0]
      rw [e] at hw
      have : ∀ w ∈ piecesOf 1 exWords, w.head? ≠ some 122 := by decide +kernel
      exact if_neg (this w hw)
  · cases ht with
    | text ha _ _ =>
      obtain ⟨m, hm, _⟩ := ha
      cases hm with
      | inline h => simp at h
      | own h => simp at h
      | selector h => simp at h

example : BlockText (exDoc (inTwo 98)).classes exWords (.text asks [.textBlock exWords]) := .text asks_block (List.mem_singleton.mpr rfl) .textBlock

example : outOf (exDoc fun w => if w.head? = some 122 then [w.take 5, w.drop 5] else inTwo 98 w) = outOf (exDoc (inTwo 98)) := by
  unfold outOf
  rw [C113_process _ exDoc_same]

example : outOf (exDoc (inTwo 98)) ≠ outOf (exDoc (inTwo 122)) ∧ outOf (exDoc (inTwo 98)) ≠ none := by decide +kernel

/-! The program with another file around; the file with the definitions of fonts matters. -/

private def plainTokens : List Tok :=
  [.start b!"document" [], .start b!"body" [], .start b!"lf" [(b!"lines", b!"2")], .close b!"lf", .close b!"body", .close b!"document"]

private def plainLib : Libraries Fpdf where
  tokens := fun bs => if bs = b!"a document" then plainTokens else []
  floats := { parseFloat := fun s => (parseInt s).map (fun n => (n : ℚ)), convertFloat := fun s => (parseInt s).map (fun n => (n : ℚ)) }
  ord := fun _ => ⟨id, fun _ => .refl _⟩
  sheetOrd := fun _ => ⟨id, fun _ => .refl _⟩
  toml := fun _ => some ⟨[], [⟨b!"Some", [⟨b!"bold", b!"some.ttf"⟩]⟩]⟩
  parse := fun _ => .font
  engine := fun l => Fpdf.engine (l.paper fun _ s => s.length)
  start := fun l => Fpdf.new (l.paper fun _ s => s.length)
  image := fun _ => none
  hyphenate := fun s => [s]
  depth := 2

private def plainWorld (defs font other : Option Str) : World where
  args := [b!"xpdf", b!"in/doc.xml"]
  wd := b!"/home"
  files := fun p => if p = b!"/home/in/doc.xml" then some b!"a document" else if p = b!"/home/fonts/fontdef.toml" then defs else
    if p = b!"/home/fonts/some.ttf" then font else other
  writable := fun p => p = b!"/home/doc.pdf"

private theorem plain_same (o o' : Option Str) : SameFiles plainLib (plainWorld (some []) (some []) o) (plainWorld (some []) (some []) o') := by
  refine ⟨rfl, rfl, rfl, ?_⟩
  intro p hp
  cases hp with
  | input => rfl
  | definitions => rfl
  | font hb hd hf hs =>
    simp only [plainLib, Option.some.injEq] at hd
    subst hd
    simp only [List.mem_singleton] at hf
    subst hf
    simp only [List.mem_singleton] at hs
    subst hs
    have e : absPath b!"/home" (resolveFont (dirPath (absPath b!"/home" b!"fonts/fontdef.toml")) b!"some.ttf") = b!"/home/fonts/some.ttf" := by
      decide +kernel
    show (plainWorld (some []) (some []) o').files (absPath b!"/home" (resolveFont (dirPath (absPath b!"/home" b!"fonts/fontdef.toml")) b!"some.ttf")) =
      (plainWorld (some []) (some []) o).files (absPath b!"/home" (resolveFont (dirPath (absPath b!"/home" b!"fonts/fontdef.toml")) b!"some.ttf"))
    rw [e]
    rfl
  | image hl hi hs =>
    exfalso
    rename_i doc i src
    have hr : (plainWorld (some []) (some []) o).read b!"in/doc.xml" = some b!"a document" := by
      have e : absPath b!"/home" b!"in/doc.xml" = b!"/home/in/doc.xml" := by decide +kernel
      show (plainWorld (some []) (some []) o).files (absPath b!"/home" b!"in/doc.xml") = _
      rw [e]
      rfl
    have hn : inputName (plainWorld (some []) (some []) o).args = b!"in/doc.xml" := rfl
    rw [hn] at hl
    unfold loadFile at hl
    rw [hr, Option.bind_some] at hl
    have e : (load plainLib.floats plainLib.ord plainLib.sheetOrd (plainLib.tokens b!"a document")).all
        (fun d => (d.header ++ d.footer ++ d.body).all fun | .lineFeed _ => true | _ => false) = true := by decide +kernel
    rw [hl] at e
    have := List.all_eq_true.mp (by simpa only [Option.all_some] using e) i hi
    cases hs <;> simp at this

example : (xpdfMain plainLib (plainWorld (some []) (some []) (some b!"any"))).1 = (xpdfMain plainLib (plainWorld (some []) (some []) none)).1 :=
  (C113_files (plain_same none (some b!"any")) plainLib.hyphenate fun _ _ _ _ _ _ _ _ _ => rfl).1

example : (xpdfMain plainLib (plainWorld (some []) (some []) none)).1 = .code 0 ∧ (xpdfMain plainLib (plainWorld none (some []) none)).1 = .code 2 ∧
    (xpdfMain plainLib (plainWorld (some []) none none)).1 = .code 3 := by decide +kernel

end Verif.Props
