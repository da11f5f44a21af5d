import Verif.Proofs.NewFpdf
import Mathlib.Tactic.Linarith
/-
Properties C75, C76: page size and fonts of the engine (/repo/engine/fpdf.go:14-115).
-/
namespace Verif.Props
open Verif.Go Verif.Model Verif.Proofs Verif.Spec

variable {read : Str → Option Str} {parse : Str → Parsed} {fonts : FontRegistry} {page : DocPage} {l : Lib}

/-- The library accepts what the engine asks for. -/
private theorem new_some (page : DocPage) : ∃ l, libNew (fpdfOrientation page.orientation) (fpdfFormat page.format) = some l ∧ l.fonts = [] ∧
    (page.orientation ≠ b!"landscape" → Near l.width (nominal page.format).1 ∧ Near l.height (nominal page.format).2) ∧
    (page.orientation = b!"landscape" → Near l.width (nominal page.format).2 ∧ Near l.height (nominal page.format).1) := by
  have size : ∃ w h : ℚ, libPageSize (fpdfFormat page.format) = some (w, h) ∧ Near (w * (127 / 360)) (nominal page.format).1 ∧
      Near (h * (127 / 360)) (nominal page.format).2 := by
    by_cases h1 : page.format = b!"a3"
    · rw [h1]; exact ⟨84189 / 100, 119055 / 100, by decide +kernel, by unfold Near; decide +kernel, by unfold Near; decide +kernel⟩
    by_cases h2 : page.format = b!"a4"
    · rw [h2]; exact ⟨59528 / 100, 84189 / 100, by decide +kernel, by unfold Near; decide +kernel, by unfold Near; decide +kernel⟩
    by_cases h3 : page.format = b!"a5"
    · rw [h3]; exact ⟨42094 / 100, 59528 / 100, by decide +kernel, by unfold Near; decide +kernel, by unfold Near; decide +kernel⟩
    by_cases h4 : page.format = b!"letter"
    · rw [h4]; exact ⟨612, 792, by decide +kernel, by unfold Near; decide +kernel, by unfold Near; decide +kernel⟩
    by_cases h5 : page.format = b!"legal"
    · rw [h5]; exact ⟨612, 1008, by decide +kernel, by unfold Near; decide +kernel, by unfold Near; decide +kernel⟩
    unfold fpdfFormat nominal
    simp only [if_neg h1, if_neg h2, if_neg h3, if_neg h4, if_neg h5]
    exact ⟨59528 / 100, 84189 / 100, by decide +kernel, by unfold Near; decide +kernel, by unfold Near; decide +kernel⟩
  obtain ⟨w, h, hs, hw, hh⟩ := size
  unfold libNew
  rw [hs]
  have hp : lowerAscii b!"P" = b!"p" := by decide
  have hl : lowerAscii b!"L" = b!"l" := by decide
  have he : lowerAscii [] = [] := by decide
  unfold fpdfOrientation
  by_cases o1 : page.orientation = b!"portrait"
  · rw [if_pos o1]
    simp only [hp, true_or, or_true, if_true]
    refine ⟨_, rfl, rfl, fun _ => ⟨hw, hh⟩, fun o => ?_⟩
    rw [o1] at o; exact absurd o (by decide)
  · rw [if_neg o1]
    by_cases o2 : page.orientation = b!"landscape"
    · rw [if_pos o2]
      simp only [hl, true_or, if_true]
      rw [if_neg (by decide)]
      exact ⟨_, rfl, rfl, fun o => absurd o2 o, fun _ => ⟨hh, hw⟩⟩
    · rw [if_neg o2]
      simp only [he, true_or, if_true]
      exact ⟨_, rfl, rfl, fun _ => ⟨hw, hh⟩, fun o => absurd o o2⟩

private theorem new_cases (page : DocPage) : ∃ l0, libNew (fpdfOrientation page.orientation) (fpdfFormat page.format) = some l0 ∧
    (page.orientation ≠ b!"landscape" → Near l0.width (nominal page.format).1 ∧ Near l0.height (nominal page.format).2) ∧
    (page.orientation = b!"landscape" → Near l0.width (nominal page.format).2 ∧ Near l0.height (nominal page.format).1) ∧
    match newFpdf read parse fonts page with
    | some l => l.width = l0.width ∧ l.height = l0.height ∧ l.margins = libMargins page.margins ∧
        (∀ k, k ∈ l.fonts ↔ ∃ d ∈ fonts.fonts, Loads read parse d ∧ k = libKey d.name (faceOf d.style)) ∧
        ∀ a d b, fonts.fonts = a ++ d :: b → ∃ bs, read d.filePath = some bs ∧
          (parse bs ≠ .refused ∨ ∃ e ∈ a, Loads read parse e ∧ libKey e.name (faceOf e.style) = libKey d.name (faceOf d.style))
    | none => ∃ a d b, fonts.fonts = a ++ d :: b ∧ (read d.filePath = none ∨ ∃ bs, read d.filePath = some bs ∧ parse bs = .refused ∧
          ∀ e ∈ a, Loads read parse e → libKey e.name (faceOf e.style) ≠ libKey d.name (faceOf d.style)) := by
  obtain ⟨l0, h1, h2, h3, h4⟩ := new_some page
  refine ⟨l0, h1, h3, h4, ?_⟩
  have := addFonts read parse fonts.fonts l0 [] (by simp [h2])
  unfold newFpdf FontRegistry.each
  rw [h1]
  simp only
  generalize FontRegistry.eachLoop (addFont read parse) fonts.fonts l0 = q at this ⊢
  match q, this with
  | (l', none), this =>
    obtain ⟨w, h, k, r⟩ := this
    exact ⟨w, h, rfl, by simpa using k, by simpa using r⟩
  | (_, some _), this => simpa using this

/-- C75: the page has the size of the declared format, upright unless the orientation is landscape, and the declared margins
(a negative one on the right is not taken). -/
theorem C75_page (h : newFpdf read parse fonts page = some l) :
    (page.orientation ≠ b!"landscape" → Near l.width (nominal page.format).1 ∧ Near l.height (nominal page.format).2) ∧
    (page.orientation = b!"landscape" → Near l.width (nominal page.format).2 ∧ Near l.height (nominal page.format).1) ∧
    (0 ≤ page.margins.right → l.margins = page.margins) := by
  obtain ⟨l0, -, h1, h2, h3⟩ := new_cases (read := read) (parse := parse) (fonts := fonts) page
  rw [h] at h3
  obtain ⟨e1, e2, e3, -⟩ := h3
  rw [e1, e2]
  refine ⟨h1, h2, fun h0 => ?_⟩
  rw [e3, libMargins, if_neg (not_lt.mpr h0)]

/-- C75: the area for texts: what the margins leave free, less two millimeters on the right. -/
theorem C75_area (h : newFpdf read parse fonts page = some l) (h0 : 0 ≤ page.margins.right) (metric : Font → Str → ℚ) (e : Fpdf) :
    let pa := (Fpdf.engine (l.paper metric)).printableArea e
    pa.x0 = page.margins.left ∧ pa.y0 = page.margins.top ∧ l.width - pa.x1 = page.margins.right + 2 ∧ l.height - pa.y1 = page.margins.bottom := by
  have hm := (C75_page h).2.2 h0
  simp only [Fpdf.engine, Lib.paper, hm, true_and]
  constructor <;> linarith

/-- C76: making the engine fails iff the file of a registered font cannot be read, or is refused by the library and no font of the
same name and face was loaded before. -/
theorem C76_loads (hn : ∀ d ∈ fonts.fonts, 35 ∉ d.name) : newFpdf read parse fonts page = none ↔
    ∃ a d b, fonts.fonts = a ++ d :: b ∧ (read d.filePath = none ∨ ∃ bs, read d.filePath = some bs ∧ parse bs = .refused ∧
      ∀ e ∈ a, Loads read parse e → ¬ SameFont e d) := by
  have same : ∀ e ∈ fonts.fonts, ∀ d ∈ fonts.fonts, libKey e.name (faceOf e.style) = libKey d.name (faceOf d.style) ↔ SameFont e d := by
    intro e he d hd
    rw [key_file, key_file]
    constructor
    · intro h
      obtain ⟨h1, h2⟩ := key_inj h
      exact ⟨(libFamily_eq _ _ (hn e he) (hn d hd)).mp h1, h2⟩
    · rintro ⟨h1, h2⟩
      rw [(libFamily_eq _ _ (hn e he) (hn d hd)).mpr h1, h2]
  obtain ⟨l0, -, -, -, h3⟩ := new_cases (read := read) (parse := parse) (fonts := fonts) page
  constructor
  · intro h
    rw [h] at h3
    obtain ⟨a, d, b, e, r⟩ := h3
    refine ⟨a, d, b, e, ?_⟩
    rcases r with r | ⟨bs, r1, r2, r3⟩
    · exact .inl r
    · exact .inr ⟨bs, r1, r2, fun x hx hl hs => r3 x hx hl ((same x (by rw [e]; simp [hx]) d (by rw [e]; simp)).mpr hs)⟩
  · rintro ⟨a, d, b, e, r⟩
    cases hl : newFpdf read parse fonts page with
    | none => rfl
    | some l =>
      rw [hl] at h3
      obtain ⟨bs, r1, r2⟩ := h3.2.2.2.2 a d b e
      exfalso
      rcases r with r | ⟨bs', q1, q2, q3⟩
      · rw [r] at r1; exact absurd r1 (by simp)
      · rw [q1] at r1
        obtain rfl := Option.some.inj r1
        rcases r2 with r2 | ⟨x, hx, hl, r2⟩
        · rw [q2] at r2; exact r2 rfl
        · exact q3 x hx hl ((same x (by rw [e]; simp [hx]) d (by rw [e]; simp)).mp r2)

/-- C76: a font is found iff a registered file that is a font supplies it - same family up to case, same weight and slope, any size and decoration - or its
family is one that every reader has. -/
theorem C76_found (h : newFpdf read parse fonts page = some l) (hn : ∀ d ∈ fonts.fonts, 35 ∉ d.name) (metric : Font → Str → ℚ) (f : Font) (hf : 35 ∉ f.family) :
    (l.paper metric).known f = true ↔ (∃ d ∈ fonts.fonts, Loads read parse d ∧ Supplies d f) ∨ Standard f.family := by
  obtain ⟨l0, -, -, -, h3⟩ := new_cases (read := read) (parse := parse) (fonts := fonts) page
  rw [h] at h3
  have hk := h3.2.2.2.1
  unfold Lib.paper libFinds
  simp only [decide_eq_true_eq]
  apply or_congr
  · rw [key_font, hk]
    constructor
    · rintro ⟨d, hd, hl, e⟩
      rw [key_file] at e
      obtain ⟨h1, h2⟩ := key_inj e
      exact ⟨d, hd, hl, (libFamily_eq _ _ (hn d hd) hf).mp h1.symm, h2.symm⟩
    · rintro ⟨d, hd, hl, h1, h2⟩
      exact ⟨d, hd, hl, by rw [key_file, (libFamily_eq _ _ (hn d hd) hf).mpr h1, h2]⟩
  · have core : ∀ name : Str, libFamily name = name → 35 ∉ name → (libFamily f.family = name ↔ SameName f.family name) := by
      intro name h1 h2
      rw [← libFamily_eq _ _ hf h2, h1]
    unfold Standard
    rw [← core b!"courier" (by decide) (by decide), ← core b!"helvetica" (by decide) (by decide), ← core b!"arial" (by decide) (by decide),
      ← core b!"times" (by decide) (by decide), ← core b!"symbol" (by decide) (by decide), ← core b!"zapfdingbats" (by decide) (by decide)]
    by_cases ha : libFamily f.family = b!"arial"
    · rw [if_pos ha, ha]; decide
    · rw [if_neg ha]
      simp only [libCore, List.mem_cons, List.not_mem_nil, or_false]
      tauto

/-! ### Examples -/

private def exFonts : FontRegistry := { monoFont := [], fonts := [⟨b!"Source Sans", b!"regular", b!"a.ttf"⟩, ⟨b!"Source Sans", b!"bold+italic", b!"b.ttf"⟩,
  ⟨b!"source sans", b!"", b!"bad.ttf"⟩, ⟨b!"Odd", b!"", b!"odd.ttf"⟩] }

private def exRead (f : Str) : Option Str := if f = b!"gone.ttf" then none else some f

private def exParse (bs : Str) : Parsed := if bs = b!"bad.ttf" then .refused else if bs = b!"odd.ttf" then .ignored else .font

private def exLib : Option Lib := newFpdf exRead exParse exFonts ⟨b!"landscape", b!"a5", ⟨10, 10, 20, 10⟩⟩

private def known (family style weight : Str) : Option Bool :=
  exLib.map fun l => (l.paper fun _ _ => 0).known ⟨family, 10, style, weight, b!"underline"⟩

/-- A page in A5, landscape. -/
example : exLib.map (fun l => (l.width, l.height, l.fonts)) =
    some (59528 / 100 * (127 / 360), 42094 / 100 * (127 / 360), [b!"source#20sans", b!"source#20sansBI"]) := by
  decide +kernel

/-- Fonts that are found and fonts that are not. -/
example : known b!"SOURCE sans" b!"italic" b!"bold" = some true ∧ known b!"Source Sans" b!"normal" b!"bold" = some false ∧
    known b!"Arial" b!"normal" b!"bold" = some true ∧ known b!"Arial Narrow" b!"normal" b!"normal" = some false ∧
    known b!"Odd" b!"normal" b!"normal" = some false := by
  decide +kernel

/-- A file that cannot be read, and one that is refused. -/
example : (newFpdf exRead (fun _ => .font) (exFonts.register ⟨b!"x", b!"bold", b!"gone.ttf"⟩) ⟨[], [], ⟨10, 10, 20, 10⟩⟩).isNone = true ∧
    (newFpdf exRead exParse (exFonts.register ⟨b!"x", b!"bold", b!"bad.ttf"⟩) ⟨[], [], ⟨10, 10, 20, 10⟩⟩).isNone = true := by
  decide +kernel

/-- The name of a format has to be written in lower case and without blanks: the page is A4 otherwise. -/
example : nominal b!"A3" = (210, 297) ∧ nominal b!" a3" = (210, 297) ∧ nominal b!"a3" = (297, 420) := by
  decide +kernel

end Verif.Props
