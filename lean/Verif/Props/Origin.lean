import Verif.Proofs.Origin
import Verif.Proofs.PageNumber
import Verif.Props.Style
import Verif.Props.TextLines
/-
C84: fonts, colors and line widths on the pages are the default ones or come from the document.
C85: a document that only asks for available fonts is made into a PDF.
-/
namespace Verif.Props
open Verif.Go Verif.Model Verif.Spec Verif.Proofs

/-! ### Settings and properties -/

theorem setAt_get (path : List Nat) (v : Leaf) (p : Prp) :
    (∃ w, ∀ s, p.get ((setAt path v s).getD s) = w) ∨ ∀ s, p.get ((setAt path v s).getD s) = p.get s := by
  unfold setAt
  split
  case h_21 => exact Or.inr fun _ => rfl
  all_goals
    cases p <;> simp only [Prp.get, Option.getD_some] <;> first | exact Or.inr fun _ => trivial | exact Or.inl ⟨_, fun _ => rfl⟩

/-- A setting gives a property a fixed value or leaves it alone. -/
theorem mutate_get (m : Mutator) (p : Prp) : (∃ v, Makes m p v) ∨ ∀ s, p.get (mutate m s) = p.get s := by
  induction m with
  | nil => exact Or.inr fun _ => rfl
  | cons f m ih =>
    have e : ∀ s, mutate (f :: m) s = mutate m ((setAt f.1 f.2 s).getD s) := fun _ => rfl
    rcases ih with ⟨v, hv⟩ | hn
    · exact Or.inl ⟨v, fun s => by rw [e]; exact hv _⟩
    · rcases setAt_get f.1 f.2 p with ⟨w, hw⟩ | hk
      · exact Or.inl ⟨w, fun s => by rw [e, hn]; exact hw s⟩
      · exact Or.inr fun s => by rw [e, hn]; exact hk s

variable {ctx : Ctx}

/-- All properties have an origin. -/
def Sourced (ctx : Ctx) (sty : Styles) : Prop := ∀ p : Prp, Origin ctx p (p.get sty)

/-- `st` is in the document. -/
def InDoc (ctx : Ctx) (st : Styled) : Prop := ∃ i ∈ ctx.header ++ ctx.footer ++ ctx.body, StyleIn st i

theorem sourced_mutate {st : Styled} (ho : InDoc ctx st) {m : Mutator} (hm : Setting ctx.classes st m) {sty : Styles} (hs : Sourced ctx sty) :
    Sourced ctx (mutate m sty) := by
  intro p
  obtain ⟨i, hi, hst⟩ := ho
  rcases mutate_get m p with ⟨v, hv⟩ | hk
  · rw [hv sty]
    exact Or.inr ⟨i, hi, st, m, hst, hm, hv⟩
  · rw [hk]; exact hs p

theorem sourced_inline {st : Styled} (ho : InDoc ctx st) : ∀ (ms : List Mutator), (∀ m ∈ ms, m ∈ st.mutators) → ∀ sty, Sourced ctx sty →
    Sourced ctx (ms.foldl (fun s m => mutate m s) sty)
  | [], _, _, hs => hs
  | m :: ms, hm, _, hs => sourced_inline ho ms (fun x hx => hm x (List.mem_cons_of_mem _ hx)) _ (sourced_mutate ho (.inline (hm m (by simp))) hs)

theorem sourced_classes {st : Styled} (ho : InDoc ctx st) : ∀ (use : List Str), (∀ n ∈ use, n ∈ st.classes) → ∀ sty, Sourced ctx sty →
    Sourced ctx (ctx.classes.mutate use sty)
  | [], _, _, hs => hs
  | n :: use, hm, sty, hs => by
    have hm' : ∀ n ∈ use, n ∈ st.classes := fun x hx => hm x (List.mem_cons_of_mem _ hx)
    simp only [Classes.mutate]
    cases hg : mapGet n ctx.classes with
    | none => exact sourced_classes ho use hm' _ hs
    | some c => exact sourced_classes ho use hm' _ (sourced_mutate ho (.own (hm n (by simp)) hg) hs)

theorem sourced_selected {st : Styled} (ho : InDoc ctx st) (sel : Str) : ∀ (use : List Str), (∀ n ∈ use, n ∈ st.classes) → ∀ sty, Sourced ctx sty →
    Sourced ctx (ctx.classes.mutateWithSelector sel use sty)
  | [], _, _, hs => hs
  | n :: use, hm, sty, hs => by
    have hm' : ∀ n ∈ use, n ∈ st.classes := fun x hx => hm x (List.mem_cons_of_mem _ hx)
    simp only [Classes.mutateWithSelector]
    cases hg : mapGet n ctx.classes with
    | none => exact sourced_selected ho sel use hm' _ hs
    | some c =>
      refine sourced_selected ho sel use hm' _ ?_
      unfold Class.mutateWithSelector
      split
      · rename_i m hsel
        exact sourced_mutate ho (.selector (hm n (by simp)) hg hsel) hs
      · exact sourced_mutate ho (.own (hm n (by simp)) hg) hs

theorem sourced_closed (ctx : Ctx) : Closed ctx.classes (InDoc ctx) (Sourced ctx) where
  plain st ho sty hs := by
    unfold Styled.mutatedStyles
    exact sourced_inline ho _ (fun _ h => h) _ (sourced_classes ho _ (fun _ h => h) _ hs)
  selected st ho sel sty hs := by
    unfold Styled.mutatedStylesWithSelector
    exact sourced_inline ho _ (fun _ h => h) _ (sourced_selected ho sel _ (fun _ h => h) _ hs)
  font a b ha hb p := by
    cases p
    case fontFamily => exact hb .fontFamily
    case fontPointSize => exact hb .fontPointSize
    case fontStyle => exact hb .fontStyle
    case fontWeight => exact hb .fontWeight
    case fontDecoration => exact hb .fontDecoration
    case border => exact ha .border
    case padding => exact ha .padding
    case margin => exact ha .margin
    case width => exact ha .width
    case height => exact ha .height
    case lineSpacing => exact ha .lineSpacing
    case offsetX => exact ha .offsetX
    case offsetY => exact ha .offsetY
    case columnWidth => exact ha .columnWidth
    case hAlign => exact ha .hAlign
    case vAlign => exact ha .vAlign
    case color => exact ha .color
    case textColor => exact ha .textColor
    case backgroundColor => exact ha .backgroundColor
    case lineWidth => exact ha .lineWidth

theorem sourced_font {sty : Styles} (h : Sourced ctx sty) : FontOrigin ctx sty.font :=
  ⟨h .fontFamily, h .fontPointSize, h .fontStyle, h .fontWeight, h .fontDecoration⟩

/-! ### The engine -/

/-- What stays true of the engine: its font, its color and everything on the pages have an origin, and it fails only if a font is missing. -/
def Traced (p : Paper) (ctx : Ctx) (e : Fpdf) : Prop :=
  FontOrigin ctx e.font ∧ Origin ctx .textColor (.rgb e.color) ∧ (∀ m ∈ e.out, MarkOrigin ctx m) ∧
  ((∀ f, FontOrigin ctx f → p.known f = true) → e.failed = false)

variable {p : Paper}

theorem traced_snoc {e e' : Fpdf} (h : Traced p ctx e) {m : Mark} (hm : MarkOrigin ctx m) (hf : e'.font = e.font) (hc : e'.color = e.color)
    (ho : e'.out = e.out ++ [m]) (hx : e'.failed = e.failed) : Traced p ctx e' := by
  refine ⟨hf ▸ h.1, hc ▸ h.2.1, ?_, hx ▸ h.2.2.2⟩
  intro x hx
  rw [ho] at hx
  rcases List.mem_append.mp hx with hx | hx
  · exact h.2.2.1 x hx
  · simp only [List.mem_singleton] at hx
    exact hx ▸ hm

theorem traced_turn {e : Fpdf} (h : Traced p ctx e) {f : Font} {c : RGB} (hf : FontOrigin ctx f) (hc : Origin ctx .textColor (.rgb c)) :
    ProgOk (Traced p ctx) (Traced p ctx) (Traced p ctx) (Fpdf.turn p f c e) := by
  refine ⟨⟨hf, hc, ?_, h.2.2.2⟩, fun e' h' => ⟨hf, hc, h'.2.2⟩⟩
  intro x hx
  rcases List.mem_append.mp hx with hx | hx
  · exact h.2.2.1 x hx
  · simp only [List.mem_singleton] at hx
    rw [hx]; trivial

theorem traced_addPage {e : Fpdf} (h : Traced p ctx e) : ProgOk (Traced p ctx) (Traced p ctx) (Traced p ctx) (Fpdf.addPage p e) := by
  unfold Fpdf.addPage
  split
  · exact ⟨h, fun e' h' => traced_turn h' h.1 h.2.1⟩
  · exact traced_turn h h.1 h.2.1

theorem traced_writeText {e : Fpdf} (t : Str) (h : Traced p ctx e) : ProgOk (Traced p ctx) (Traced p ctx) (Traced p ctx) (Fpdf.writeText p t e) := by
  unfold Fpdf.writeText
  split
  · refine progOk_andThen (D := Traced p ctx) (fun e' _ h' => ?_) (traced_addPage h)
    exact traced_snoc h' (m := .text e'.page e.x e'.y e'.font e'.color t) ⟨h'.1, h'.2.1⟩ rfl rfl rfl rfl
  · exact traced_snoc h (m := .text e.page e.x e.y e.font e.color t) ⟨h.1, h.2.1⟩ rfl rfl rfl rfl

theorem traced_font {e : Fpdf} (h : Traced p ctx e) {f : Font} (hf : FontOrigin ctx f) : Traced p ctx (Fpdf.changeFont p f e) := by
  refine ⟨hf, h.2.1, h.2.2.1, fun hk => ?_⟩
  show (e.failed || !p.known f) = false
  rw [h.2.2.2 hk, hk f hf]; rfl

theorem traced_draw {e : Fpdf} (h : Traced p ctx e) {sty : Styles} (hs : Sourced ctx sty) {x0 y0 x1 y1 : ℚ} {cmd : DrawCmd}
    (hc : cmd ∈ drawBox x0 y0 x1 y1 sty) : Traced p ctx (Fpdf.draw cmd e) := by
  have hm : ∀ n, MarkOrigin ctx (.draw n cmd) := by
    intro n
    simp only [drawBox, List.mem_cons, List.not_mem_nil, or_false] at hc
    rcases hc with rfl | rfl | rfl | rfl | rfl | rfl | rfl | rfl | rfl | rfl
    · exact hs .lineWidth
    · exact hs .color
    · exact hs .backgroundColor
    · trivial
    · trivial
    all_goals first | trivial | (unfold edge; split <;> trivial)
  cases cmd <;> exact traced_snoc h (hm e.page) rfl rfl rfl rfl

theorem traced_tracks {c : Calls Fpdf} (hw : ∀ t, Keep (fun s => Traced p ctx s.eng ∧ Sourced ctx s.curr) (c.writeText t))
    (ha : Keep (fun s => Traced p ctx s.eng ∧ Sourced ctx s.curr) c.addPage) :
    Tracks (Fpdf.engine p) (Sourced ctx) (fun s => Traced p ctx s.eng ∧ Sourced ctx s.curr) c where
  setX _ _ hs := ⟨⟨hs.1.1, hs.1.2.1, hs.1.2.2.1, hs.1.2.2.2⟩, hs.2⟩
  setY _ _ hs := ⟨⟨hs.1.1, hs.1.2.1, hs.1.2.2.1, hs.1.2.2.2⟩, hs.2⟩
  lineFeed _ s hs := ⟨traced_snoc hs.1 (m := .feed s.eng.page) trivial rfl rfl rfl rfl, hs.2⟩
  font _ hk _ hs := ⟨traced_font hs.1 (sourced_font hk), hs.2⟩
  changeFont _ hk _ hs := ⟨traced_font hs.1 (sourced_font hk), (sourced_closed ctx).font _ _ hs.2 hk⟩
  color _ hk _ hs := ⟨⟨hs.1.1, hk .textColor, hs.1.2.2.1, hs.1.2.2.2⟩, hs.2⟩
  image src x y w h s hs := ⟨traced_snoc hs.1 (m := .image s.eng.page src x y w h) trivial rfl rfl rfl rfl, hs.2⟩
  draw _ hk _ _ _ _ _ hc _ hs := ⟨traced_draw hs.1 hk hc, hs.2⟩
  curr _ hs := hs.2
  write := hw
  add := ha

theorem known_header (ctx : Ctx) : Known (InDoc ctx) ctx.header := fun i hi _ hst => ⟨i, by simp [hi], hst⟩
theorem known_footer (ctx : Ctx) : Known (InDoc ctx) ctx.footer := fun i hi _ hst => ⟨i, by simp [hi], hst⟩
theorem known_body (ctx : Ctx) : Known (InDoc ctx) ctx.body := fun i hi _ hst => ⟨i, by simp [hi], hst⟩

theorem traced_calls (n : Nat) : Tracks (Fpdf.engine p) (Sourced ctx) (fun s => Traced p ctx s.eng ∧ Sourced ctx s.curr) (callsAt (Fpdf.engine p) ctx n) := by
  induction n with
  | zero => exact traced_tracks (fun t => Le.none) Le.none
  | succ n ih =>
    refine traced_tracks (fun t => ?_) ?_
    · exact runWith_K (sourced_closed ctx) ih (known_header ctx) (known_footer ctx) _ fun e he => traced_writeText t he
    · exact runWith_K (sourced_closed ctx) ih (known_header ctx) (known_footer ctx) _ fun e he => traced_addPage he

theorem sourced_default (ctx : Ctx) : Sourced ctx defaultStyle := fun _ => Or.inl rfl

theorem traced_process {n : Nat} {r : PdfResult} {s' : PState Fpdf}
    (h : process (Fpdf.engine p) ctx n (newProcessor (Fpdf.new p)) = some (r, s')) :
    Traced p ctx s'.eng ∧ ((∀ f, FontOrigin ctx f → p.known f = true) → r.failed = false) := by
  have hc := traced_calls (p := p) (ctx := ctx) n
  have hc1 := traced_calls (p := p) (ctx := ctx) (n - 1)
  unfold process at h
  obtain ⟨_, s1, h1, h⟩ := bind_some h
  obtain ⟨_, s2, h2, h⟩ := bind_some h
  obtain ⟨_, s3, h3, h⟩ := bind_some h
  obtain ⟨_, s4, h4, h⟩ := bind_some h
  obtain ⟨_, s5, h5, h⟩ := bind_some h
  obtain ⟨fl, s6, h6, h⟩ := bind_some h
  have hs3 : Traced p ctx s3.eng ∧ Sourced ctx s3.curr := by
    simp only [upd, Option.some.injEq, Prod.mk.injEq, true_and] at h1
    simp only [MonadState.get, getThe, MonadStateOf.get, StateT.get, Pure.pure, Option.some.injEq, Prod.mk.injEq] at h2
    simp only [changeFontM, Option.some.injEq, Prod.mk.injEq, true_and] at h3
    obtain ⟨h2, rfl⟩ := h2
    subst h2 h1 h3
    refine ⟨⟨sourced_font (sourced_default ctx), Or.inl rfl, List.forall_mem_nil _, fun hk => ?_⟩, sourced_default ctx⟩
    show (false || !p.known defaultStyle.font) = false
    rw [hk _ (sourced_font (sourced_default ctx))]; rfl
  have hs4 := (hc.add s3 hs3 _ s4 h4).2
  have hs5 := (processInstrs_K (sourced_closed ctx) hc ctx.body (known_body ctx) s4 hs4 _ s5 h5).2
  simp only [ask, Option.some.injEq, Prod.mk.injEq] at h6
  obtain ⟨e6, rfl⟩ := h6
  split at h
  · rename_i hfl
    simp only [Pure.pure, StateT.pure, Option.some.injEq, Prod.mk.injEq] at h
    obtain ⟨_, rfl⟩ := h
    refine ⟨hs5.1, fun hk => ?_⟩
    have := hs5.1.2.2.2 hk
    rw [← e6] at hfl
    exact absurd hfl (by show ¬ s5.eng.failed = true; rw [this]; simp)
  · have hop : ∀ e, Traced p ctx e → ProgOk (Traced p ctx) (Traced p ctx) (Traced p ctx) (Fpdf.writePDF e) :=
      fun e he => ⟨he, fun e' he' => he'⟩
    have hs6 := (runWith_K (sourced_closed ctx) hc1 (known_header ctx) (known_footer ctx) (Fpdf.engine p).writePDF hop s5 hs5 r s' h).2
    refine ⟨hs6.1, fun hk => ?_⟩
    have e : r.failed = s'.eng.failed := by
      simp only [runWith, Fpdf.engine, Fpdf.writePDF, runProg] at h
      split at h
      · exact absurd h (by simp)
      · simp only [Option.some.injEq, Prod.mk.injEq] at h
        rw [← h.1, ← h.2]
    rw [e]
    exact hs6.1.2.2.2 hk

/-! ### C84 -/

/-- C84: whatever is on the pages of a processed document: family, size, style, weight and decoration of the font of a text, its color,
and line colors, fill colors and line widths of boxes are the default values, or some style in the header, the footer or the body gives
this value to this very property. -/
theorem C84_origin {n : Nat} {r : PdfResult} {s' : PState Fpdf} (h : process (Fpdf.engine p) ctx n (newProcessor (Fpdf.new p)) = some (r, s')) :
    ∀ m ∈ s'.eng.out, MarkOrigin ctx m := (traced_process h).1.2.2.1

/-- C84: in particular, without any style the texts are written in the default font and color. -/
theorem C84_default {n : Nat} {r : PdfResult} {s' : PState Fpdf} (h : process (Fpdf.engine p) ctx n (newProcessor (Fpdf.new p)) = some (r, s'))
    (hno : ∀ i ∈ ctx.header ++ ctx.footer ++ ctx.body, ∀ st, StyleIn st i → ∀ m, ¬ Setting ctx.classes st m) {page : Nat} {x y : ℚ} {f : Font} {c : RGB}
    {t : Str} (hm : .text page x y f c t ∈ s'.eng.out) : f = ⟨b!"Arial", 12, b!"normal", b!"normal", b!"normal"⟩ ∧ c = ⟨0, 0, 0⟩ := by
  have key : ∀ p v, Origin ctx p v → v = p.get defaultStyle := by
    rintro p v (h | ⟨i, hi, st, m, h1, h2, _⟩)
    · exact h
    · exact absurd h2 (hno i hi st h1 m)
  obtain ⟨hf, hc⟩ := C84_origin h _ hm
  have h1 := key _ _ hf.family
  have h2 := key _ _ hf.pointSize
  have h3 := key _ _ hf.style
  have h4 := key _ _ hf.weight
  have h5 := key _ _ hf.decoration
  have h6 := key _ _ hc
  obtain ⟨fam, ps, sty, wt, dec⟩ := f
  simp only [Prp.get, Leaf.str.injEq, Leaf.flt.injEq, Leaf.rgb.injEq] at h1 h2 h3 h4 h5 h6
  subst h1 h2 h3 h4 h5 h6
  exact ⟨rfl, rfl⟩

/-- C84: that a setting made from a style text gives a property a value means that the last declaration of the property in the text says so. -/
theorem C84_text {fl : Floats} {o : MapOrder} {text : Str} {m : Mutator} {ds : List (Str × Str)} (hd : Decls text ds)
    (hm : decodeMutator fl o text = some m) {p : Prp} {v : Leaf} (h : Makes m p v) : ∃ w, lastValue p.name ds = some w ∧ p.read fl w = some v := by
  cases hl : lastValue p.name ds with
  | some w =>
    obtain ⟨x, h1, h2⟩ := (C14_effect hd hm zeroStyles p).1 w hl
    exact ⟨w, rfl, by rw [h1, ← h2, h]⟩
  | none =>
    have e : ∀ s t, p.get s = p.get t := fun s t => by
      rw [← (C14_effect hd hm s p).2 hl, ← (C14_effect hd hm t p).2 hl, h, h]
    exfalso
    have := e zeroStyles { defaultStyle with
      box := ⟨⟨1, 1, 1, 1⟩, ⟨1, 1, 1, 1⟩, ⟨1, 1, 1, 1⟩⟩, dim := ⟨1, 1, 1, 1, 1⟩, color := ⟨white, white, white⟩ }
    revert this
    cases p <;> decide +kernel

/-! ### C85 -/

/-- C85: if all fonts are available that the document asks for, the document is made into a PDF without an error. -/
theorem C85_available {n : Nat} {r : PdfResult} {s' : PState Fpdf} (h : process (Fpdf.engine p) ctx n (newProcessor (Fpdf.new p)) = some (r, s'))
    (hk : ∀ f, FontOrigin ctx f → p.known f = true) : r.failed = false := (traced_process h).2 hk

/-! ### Examples -/

private def plain : Styled := ⟨[], []⟩

/-- A paper that knows two font families only. -/
private def fewFonts : Paper := { exPaper with known := fun f => f.family == b!"Arial" || f.family == b!"Courier" }

private def exDoc (family : Str) : Ctx :=
  { classes := [(b!"mono", ⟨[([0, 0], .str family), ([5, 1], .rgb ⟨9, 9, 9⟩)], [(b!"last-cell", [([5, 2], .rgb ⟨7, 7, 7⟩)])]⟩)],
    header := [.text plain [.textBlock b!"head"]], footer := [],
    body := [.text ⟨[[([0, 1], .flt 10)]], [b!"mono"]⟩ [.textBlock b!"a"], .box plain [.textBlock b!"b"],
      .table plain 0 [⟨plain, [⟨⟨[], [b!"mono"]⟩, 1, 1, [.textBlock b!"c"]⟩, ⟨⟨[], [b!"mono"]⟩, 1, 1, [.textBlock b!"d"]⟩]⟩]],
    hyphenate := exHyph, resolve := id, describe := fun _ => none }

private inductive Seen
  | text (family : Str) (size : ℚ) (color : RGB) (t : Str)
  | fill (color : RGB)
deriving DecidableEq

private def seen (family : Str) : Option (Bool × List Seen) :=
  (process (Fpdf.engine fewFonts) (exDoc family) 2 (newProcessor (Fpdf.new fewFonts))).map fun r => (r.1.failed, r.2.eng.out.filterMap fun
    | .text _ _ _ f c t => some (.text f.family f.pointSize c t)
    | .draw _ (.setFillColor c) => some (.fill c)
    | _ => none)

/-- C84: texts in class font and in default font, a box in the default color, a table whose last cell has the background of a selector. -/
example : seen b!"Courier" = some (false,
    [.text b!"Arial" 12 ⟨0, 0, 0⟩ b!"head", .text b!"Courier" 10 ⟨9, 9, 9⟩ b!"a", .fill ⟨255, 255, 255⟩, .text b!"Courier" 10 ⟨0, 0, 0⟩ b!"b",
      .fill ⟨255, 255, 255⟩, .text b!"Courier" 10 ⟨9, 9, 9⟩ b!"c", .fill ⟨7, 7, 7⟩, .text b!"Courier" 10 ⟨0, 0, 0⟩ b!"d"]) := by decide +kernel

/-- C85: with a family that is not available there is an error. -/
example : (seen b!"Gothic").map (·.1) = some true := by decide +kernel

private theorem mapGet_single {α : Type} {k k' : Str} {a b : α} (h : mapGet k [(k', a)] = some b) : a = b := by
  unfold mapGet at h
  split at h
  · exact Option.some.inj h
  · cases h

private theorem exDoc_inline {i : Instr} {st : Styled} {m : Mutator} {c : Str} (hi : i ∈ (exDoc c).header ++ (exDoc c).footer ++ (exDoc c).body)
    (hst : StyleIn st i) (hm : m ∈ st.mutators) : m = [([0, 1], .flt 10)] := by
  simp only [exDoc, List.append_nil, List.cons_append, List.nil_append, List.mem_cons, List.not_mem_nil, or_false] at hi
  rcases hi with rfl | rfl | rfl | rfl
  · cases hst with
    | text => cases hm
    | textIn h1 h2 => rw [List.mem_singleton] at h1; subst h1; cases h2
  · cases hst with
    | text => exact List.mem_singleton.mp hm
    | textIn h1 h2 => rw [List.mem_singleton] at h1; subst h1; cases h2
  · cases hst with
    | box => cases hm
    | boxIn h1 h2 => rw [List.mem_singleton] at h1; subst h1; cases h2
  · cases hst with
    | table => cases hm
    | row h1 => rw [List.mem_singleton] at h1; cases h1; cases hm
    | cell h1 h2 =>
      rw [List.mem_singleton] at h1; cases h1
      simp only [List.mem_cons, List.not_mem_nil, or_false] at h2
      rcases h2 with h2 | h2 <;> cases h2 <;> cases hm
    | cellIn h1 h2 h3 h4 =>
      rw [List.mem_singleton] at h1; cases h1
      simp only [List.mem_cons, List.not_mem_nil, or_false] at h2
      rcases h2 with h2 | h2 <;> cases h2 <;> (rw [List.mem_singleton] at h3; subst h3; cases h4)

/-- C85: the assumption holds of the document above with a family that is available. -/
example : ∀ f, FontOrigin (exDoc b!"Courier") f → fewFonts.known f = true := by
  intro f hf
  have key : f.family = b!"Arial" ∨ f.family = b!"Courier" := by
    rcases hf.family with h | ⟨i, hi, st, m, hst, hm, hv⟩
    · exact Or.inl (Leaf.str.inj h)
    · have h0 := hv zeroStyles
      have h1 := hv defaultStyle
      cases hm with
      | inline h =>
        obtain rfl := exDoc_inline hi hst h
        exact absurd (h0.trans h1.symm) (by decide)
      | own hn hg =>
        obtain rfl := mapGet_single hg
        exact Or.inr (Leaf.str.inj h0).symm
      | selector hn hg hs =>
        obtain rfl := mapGet_single hg
        obtain rfl := mapGet_single hs
        exact absurd (h0.trans h1.symm) (by decide)
  rcases key with h | h <;> simp [fewFonts, h]

end Verif.Props
