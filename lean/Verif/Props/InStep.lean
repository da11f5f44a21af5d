import Verif.Spec.InStep
import Verif.Props.Origin
import Verif.Props.Pages
/-
Property C89: between two instructions the engine has the current font and color (/repo/process.go).
-/
namespace Verif.Props
open Verif.Go Verif.Model Verif.Proofs Verif.Spec

variable {p : Paper} {ctx : Ctx} {n : Nat} {s s' : PState Fpdf}

/-! ### New pages -/

/-- A new page: font and color of the engine are those of before. -/
theorem addPage_font (h : (callsAt (Fpdf.engine p) ctx n).addPage s = some ((), s')) : s'.eng.font = s.eng.font ∧ s'.eng.color = s.eng.color := by
  cases n with
  | zero => exact absurd h (by simp [callsAt])
  | succ n =>
    simp only [callsAt, runWith, Fpdf.engine, Fpdf.addPage] at h
    split at h
    · simp only [runProg] at h
      split at h
      · exact absurd h (by simp)
      · simp only [Fpdf.turn, runProg] at h
        split at h
        · exact absurd h (by simp)
        · simp only [Option.some.injEq, Prod.mk.injEq, true_and] at h
          rw [← h]; exact ⟨rfl, rfl⟩
    · simp only [Fpdf.turn, runProg] at h
      split at h
      · exact absurd h (by simp)
      · simp only [Option.some.injEq, Prod.mk.injEq, true_and] at h
        rw [← h]; exact ⟨rfl, rfl⟩

/-! ### Header and footer that leave the font -/

/-- The style does not touch the font. -/
def LeavesFont (cs : Classes) (st : Styled) : Prop := ∀ m, Setting cs st m → ∀ sty, (mutate m sty).font = sty.font

private theorem leaves_inline {cs : Classes} {st : Styled} (ho : LeavesFont cs st) : ∀ (ms : List Mutator), (∀ m ∈ ms, m ∈ st.mutators) → ∀ sty,
    (ms.foldl (fun s m => mutate m s) sty).font = sty.font
  | [], _, _ => rfl
  | m :: ms, hm, sty => (leaves_inline ho ms (fun x hx => hm x (List.mem_cons_of_mem _ hx)) _).trans (ho m (.inline (hm m (by simp))) sty)

private theorem leaves_classes {cs : Classes} {st : Styled} (ho : LeavesFont cs st) : ∀ (use : List Str), (∀ n ∈ use, n ∈ st.classes) → ∀ sty,
    (cs.mutate use sty).font = sty.font
  | [], _, _ => rfl
  | n :: use, hm, sty => by
    have hm' : ∀ n ∈ use, n ∈ st.classes := fun x hx => hm x (List.mem_cons_of_mem _ hx)
    simp only [Classes.mutate]
    cases hg : mapGet n cs with
    | none => exact leaves_classes ho use hm' _
    | some c => exact (leaves_classes ho use hm' _).trans (ho _ (.own (hm n (by simp)) hg) _)

private theorem leaves_selected {cs : Classes} {st : Styled} (ho : LeavesFont cs st) (sel : Str) : ∀ (use : List Str), (∀ n ∈ use, n ∈ st.classes) → ∀ sty,
    (cs.mutateWithSelector sel use sty).font = sty.font
  | [], _, _ => rfl
  | n :: use, hm, sty => by
    have hm' : ∀ n ∈ use, n ∈ st.classes := fun x hx => hm x (List.mem_cons_of_mem _ hx)
    simp only [Classes.mutateWithSelector]
    cases hg : mapGet n cs with
    | none => exact leaves_selected ho sel use hm' _
    | some c =>
      refine (leaves_selected ho sel use hm' _).trans ?_
      unfold Class.mutateWithSelector
      split
      · rename_i m hsel
        exact ho _ (.selector (hm n (by simp)) hg hsel) _
      · exact ho _ (.own (hm n (by simp)) hg) _

theorem leaves_closed (cs : Classes) (f : Font) : Closed cs (LeavesFont cs) (fun sty => sty.font = f) where
  plain st ho sty hs := by
    unfold Styled.mutatedStyles
    exact (leaves_inline ho _ (fun _ h => h) _).trans ((leaves_classes ho _ (fun _ h => h) _).trans hs)
  selected st ho sel sty hs := by
    unfold Styled.mutatedStylesWithSelector
    exact (leaves_inline ho _ (fun _ h => h) _).trans ((leaves_selected ho sel _ (fun _ h => h) _).trans hs)
  font a b _ hb := hb

private theorem leaves_tracks {f : Font} {c : Calls Fpdf} (hw : ∀ t, Keep (fun s : PState Fpdf => True ∧ s.curr.font = f) (c.writeText t))
    (ha : Keep (fun s : PState Fpdf => True ∧ s.curr.font = f) c.addPage) :
    Tracks (Fpdf.engine p) (fun sty => sty.font = f) (fun s => (fun _ => True) s.eng ∧ s.curr.font = f) c where
  setX _ _ h := h
  setY _ _ h := h
  lineFeed _ _ h := h
  font _ _ _ h := h
  changeFont _ hk _ _ := ⟨trivial, hk⟩
  color _ _ _ h := h
  image _ _ _ _ _ _ h := h
  draw _ _ _ _ _ _ _ _ _ h := h
  curr _ h := h.2
  write := hw
  add := ha

private theorem progOk_any {α : Type} : ∀ (pr : Prog Fpdf α), ProgOk (fun _ => True) (fun _ => True) (fun _ => True) pr
  | .done _ _ => trivial
  | .header _ _ => ⟨trivial, fun _ _ => progOk_any _⟩
  | .footer _ _ => ⟨trivial, fun _ _ => progOk_any _⟩

theorem leaves_calls (hh : FontFree ctx.classes ctx.header) (hf : FontFree ctx.classes ctx.footer) (f : Font) (n : Nat) :
    Tracks (Fpdf.engine p) (fun sty => sty.font = f) (fun s => (fun _ => True) s.eng ∧ s.curr.font = f) (callsAt (Fpdf.engine p) ctx n) := by
  have hh' : Known (LeavesFont ctx.classes) ctx.header := fun i hi st hst m hm => hh i hi st hst m hm
  have hf' : Known (LeavesFont ctx.classes) ctx.footer := fun i hi st hst m hm => hf i hi st hst m hm
  induction n with
  | zero => exact leaves_tracks (fun t => Le.none) Le.none
  | succ n ih =>
    refine leaves_tracks (fun t => ?_) ?_
    · exact runWith_K (leaves_closed ctx.classes f) ih hh' hf' _ fun e _ => progOk_any _
    · exact runWith_K (leaves_closed ctx.classes f) ih hh' hf' _ fun e _ => progOk_any _

/-! ### Instructions -/

theorem fontOnly_instr {i : Instr} (hs : FontOnly s.curr)
    (h : processInstr (Fpdf.engine p) ctx (callsAt (Fpdf.engine p) ctx n) i s = some ((), s')) : FontOnly s'.curr := by
  refine C44_only_font_partial (eng := Fpdf.engine p) (ctx := ctx) [i] n hs ?_
  unfold processInstrs
  rw [bind_eq, h]
  rfl

/-- After styles are set back the engine is in step. -/
private theorem reset_step (h : resetStyles (Fpdf.engine p) s = some ((), s')) : InStep s' := by
  simp only [resetStyles, Option.some.injEq, Prod.mk.injEq, true_and] at h
  rw [← h]; exact ⟨rfl, rfl⟩

private theorem box_step {c : Calls Fpdf} {st : Styled} {iss : List Instr} {pa : Area}
    (h : renderTextBox (Fpdf.engine p) ctx c st iss pa s = some ((), s')) : InStep s' := by
  unfold renderTextBox at h
  obtain ⟨_, s1, _, h⟩ := bind_some h
  obtain ⟨_, s2, _, h⟩ := bind_some h
  obtain ⟨_, s3, _, h⟩ := bind_some h
  obtain ⟨_, s4, _, h⟩ := bind_some h
  obtain ⟨_, s5, _, h⟩ := bind_some h
  obtain ⟨_, s6, _, h⟩ := bind_some h
  by_cases hi : iss.length > 0
  · simp only [hi, if_true] at h
    obtain ⟨_, s7, _, h⟩ := bind_some h
    obtain ⟨_, s8, _, h⟩ := bind_some h
    exact reset_step h
  · simp only [hi, if_false] at h
    obtain ⟨_, s8, _, h⟩ := bind_some h
    exact reset_step h

/-- C89: after a text (unless it is empty), a box or a table the engine has the current font and color, whatever happened before and on whichever page
it is. -/
theorem C89_after {i : Instr} (hi : Resets i) (h : processInstr (Fpdf.engine p) ctx (callsAt (Fpdf.engine p) ctx n) i s = some ((), s')) : InStep s' := by
  cases i with
  | text st iss =>
    simp only [processInstr, renderText] at h
    rw [if_neg (by rw [List.length_eq_zero_iff]; exact hi)] at h
    obtain ⟨_, s1, _, h⟩ := bind_some h
    obtain ⟨_, s2, _, h⟩ := bind_some h
    obtain ⟨_, s3, _, h⟩ := bind_some h
    exact reset_step h
  | box st iss =>
    simp only [processInstr] at h
    obtain ⟨_, s1, _, h⟩ := bind_some h
    exact box_step h
  | table st rh rows =>
    simp only [processInstr, renderTable] at h
    obtain ⟨s1, s2, _, h⟩ := bind_some h
    cases ht : transformTable (textHeightFnc (Fpdf.engine p) ctx) ctx.classes (Page.mk ((Fpdf.engine p).printableArea s1.eng)) s1.curr st rows s1 with
    | none => rw [ht] at h; exact absurd h (by simp)
    | some q =>
      rw [ht] at h
      obtain ⟨_, s3, _, h⟩ := bind_some h
      by_cases hc : q.1.columnCount = 0
      · rw [if_pos hc] at h
        exact reset_step h
      · rw [if_neg hc] at h
        obtain ⟨_, s4, _, h⟩ := bind_some h
        obtain ⟨_, s5, _, h⟩ := bind_some h
        exact reset_step h
  | _ => exact absurd hi (by simp [Resets])

/-- C89: all other instructions but page breaks keep it so. -/
theorem C89_keeps {i : Instr} (hi : i ≠ .pageBreak) (hs : InStep s)
    (h : processInstr (Fpdf.engine p) ctx (callsAt (Fpdf.engine p) ctx n) i s = some ((), s')) : InStep s' := by
  by_cases hr : Resets i
  · exact C89_after hr h
  cases i with
  | font st =>
    simp only [processInstr] at h
    obtain ⟨_, s1, h1, h⟩ := bind_some h
    simp only [MonadState.get, getThe, MonadStateOf.get, StateT.get, Pure.pure, Option.some.injEq, Prod.mk.injEq] at h1
    obtain ⟨rfl, rfl⟩ := h1
    simp only [changeFontM, Option.some.injEq, Prod.mk.injEq, true_and] at h
    rw [← h]
    exact ⟨rfl, hs.color⟩
  | lineFeed k | setX x | setY y =>
    simp only [processInstr, upd, Option.some.injEq, Prod.mk.injEq, true_and] at h
    rw [← h]
    exact ⟨hs.font, hs.color⟩
  | text st iss =>
    have : iss = [] := by simpa [Resets] using hr
    subst this
    simp only [processInstr, renderText, List.length_nil, if_true, Pure.pure, StateT.pure, Option.some.injEq, Prod.mk.injEq, true_and] at h
    exact h ▸ hs
  | image st src =>
    simp only [processInstr, renderImage] at h
    obtain ⟨_, s1, h1, h⟩ := bind_some h
    simp only [ask, Option.some.injEq, Prod.mk.injEq] at h1
    obtain ⟨-, rfl⟩ := h1
    cases hd : ctx.describe (ctx.resolve src) with
    | none =>
      simp only [hd, Pure.pure, StateT.pure, Option.some.injEq, Prod.mk.injEq, true_and] at h
      exact h ▸ hs
    | some d =>
      simp only [hd, Option.some.injEq, Prod.mk.injEq, true_and] at h
      rw [← h]
      exact ⟨hs.font, hs.color⟩
  | grid st rows parts =>
    simp only [processInstr, renderGridM] at h
    cases hg : renderGrid id (rows.map (·.2)) with
    | panic => rw [hg] at h; exact absurd h (by simp)
    | _ =>
      simp only [hg, Pure.pure, StateT.pure, Option.some.injEq, Prod.mk.injEq, true_and] at h
      exact h ▸ hs
  | pageBreak => exact absurd rfl hi
  | box _ _ | table _ _ _ => exact absurd trivial hr
  | textBlock _ | paragraph _ _ | lineBreak | tableRow _ | tableCell _ | gridRow _ | gridPart _ =>
    simp only [processInstr, Pure.pure, StateT.pure, Option.some.injEq, Prod.mk.injEq, true_and] at h
    exact h ▸ hs

private theorem addPage_step (hh : FontFree ctx.classes ctx.header) (hf : FontFree ctx.classes ctx.footer) (ho : FontOnly s.curr) (hs : InStep s)
    (h : (callsAt (Fpdf.engine p) ctx n).addPage s = some ((), s')) : InStep s' := by
  obtain ⟨h1, h2⟩ := addPage_font h
  have h3 : s'.curr.font = s.curr.font := ((leaves_calls (p := p) hh hf s.curr.font n).add s ⟨trivial, rfl⟩ _ _ h).2.2
  have h4 : FontOnly s'.curr := fontOnly_instr (i := .pageBreak) (p := p) (n := n) (ctx := ctx) ho h
  refine ⟨by rw [h1, h3, hs.font], ?_⟩
  rw [h2, hs.color]
  obtain ⟨f, hf⟩ := ho
  obtain ⟨g, hg⟩ := h4
  rw [hf, hg]

private theorem instrs_step (hh : FontFree ctx.classes ctx.header) (hf : FontFree ctx.classes ctx.footer) : ∀ (iss : List Instr) {s s' : PState Fpdf},
    FontOnly s.curr → InStep s → processInstrs (Fpdf.engine p) ctx (callsAt (Fpdf.engine p) ctx n) iss s = some ((), s') → InStep s'
  | [], s, s', _, hs, h => by
    simp only [processInstrs, Pure.pure, StateT.pure, Option.some.injEq, Prod.mk.injEq, true_and] at h
    exact h ▸ hs
  | i :: iss, s, s', ho, hs, h => by
    unfold processInstrs at h
    obtain ⟨_, s1, h1, h⟩ := bind_some h
    refine instrs_step hh hf iss (fontOnly_instr ho h1) ?_ h
    by_cases hi : i = .pageBreak
    · subst hi
      exact addPage_step hh hf ho hs h1
    · exact C89_keeps hi hs h1

/-- C89: in a document whose header and footer do not touch the font the engine has the current font and color before and after each instruction of
the body.  Missing: with any header and footer (false, see `C89_header`). -/
theorem C89_between_partial (hh : FontFree ctx.classes ctx.header) (hf : FontFree ctx.classes ctx.footer) {pre : List Instr}
    (h : Reached p ctx n pre s) : InStep s := by
  obtain ⟨_, s0, h0, h1⟩ := h
  have ho : FontOnly (defaultStyle) := ⟨defaultStyle.font, rfl⟩
  exact instrs_step hh hf pre (fontOnly_instr (i := .pageBreak) (s := ⟨_, defaultStyle, false⟩) ho h0)
    (addPage_step (s := ⟨_, defaultStyle, false⟩) hh hf ho ⟨rfl, rfl⟩ h0) h1

/-- C89: with any header and footer it is so from a text, a box or a table on, as long as there is no page break. -/
theorem C89_since {i : Instr} (hi : Resets i) : ∀ (iss : List Instr), .pageBreak ∉ iss → ∀ {s s' : PState Fpdf},
    processInstrs (Fpdf.engine p) ctx (callsAt (Fpdf.engine p) ctx n) (i :: iss) s = some ((), s') → InStep s' := by
  have key : ∀ (iss : List Instr), .pageBreak ∉ iss → ∀ {s s' : PState Fpdf}, InStep s →
      processInstrs (Fpdf.engine p) ctx (callsAt (Fpdf.engine p) ctx n) iss s = some ((), s') → InStep s' := by
    intro iss
    induction iss with
    | nil =>
      intro _ s s' hs h
      simp only [processInstrs, Pure.pure, StateT.pure, Option.some.injEq, Prod.mk.injEq, true_and] at h
      exact h ▸ hs
    | cons j iss ih =>
      intro hb s s' hs h
      unfold processInstrs at h
      obtain ⟨_, s1, h1, h⟩ := bind_some h
      simp only [List.mem_cons, not_or] at hb
      exact ih hb.2 (C89_keeps (fun e => hb.1 e.symm) hs h1) h
  intro iss hb s s' h
  unfold processInstrs at h
  obtain ⟨_, s1, h1, h⟩ := bind_some h
  exact key iss hb (C89_after hi h1) h

/-- All the states are there: in a document that can be processed there is one before and after each instruction. -/
theorem C89_reached {r : PdfResult} (h : process (Fpdf.engine p) ctx n (newProcessor (Fpdf.new p)) = some (r, s')) {pre post : List Instr}
    (hb : ctx.body = pre ++ post) : ∃ s, Reached p ctx n pre s := by
  obtain ⟨s1, _, _, h1⟩ := C47_written h
  obtain ⟨q, hq1, hq2⟩ := Option.bind_eq_some_iff.mp h1
  rw [hb, C54_in_order, bind_eq] at hq2
  obtain ⟨q', h3, _⟩ := Option.bind_eq_some_iff.mp hq2
  exact ⟨q'.2, ⟨post, hb⟩, q.2, hq1, h3⟩

/-! ### What it is good for -/

/-- C89: line feeds are as high as lines in the current font. -/
theorem C89_feed (hs : InStep s) (k : ℚ) (h : processInstr (Fpdf.engine p) ctx (callsAt (Fpdf.engine p) ctx n) (.lineFeed k) s = some ((), s')) :
    s'.eng.y = s.eng.y + k * lineHeight s.curr.font := by
  simp only [processInstr, upd, Option.some.injEq, Prod.mk.injEq, true_and] at h
  rw [← h]
  show s.eng.y + Fpdf.fontHeight s.eng * k = _
  rw [Fpdf.fontHeight, hs.font, lineHeight]
  ring

/-- C89: a box without contents and without a given height is as high as a line in the current font (not in its own), plus padding. -/
theorem C89_empty_box (hs : InStep s) {st : Styled} (h : processInstr (Fpdf.engine p) ctx (callsAt (Fpdf.engine p) ctx n) (.box st []) s = some ((), s'))
    (hh : (st.mutatedStyles ctx.classes s.curr).dim.height ≤ 0) :
    let sty := st.mutatedStyles ctx.classes s.curr
    s.eng.y + lineHeight s.curr.font < p.height - p.margins.bottom → 0 ≤ s.eng.y + sty.dim.offsetY + lineHeight s.curr.font + sty.box.padding.top + sty.box.padding.bottom →
    s'.eng.y = s.eng.y + sty.dim.offsetY + lineHeight s.curr.font + sty.box.padding.top + sty.box.padding.bottom := by
  intro sty hfit hpos
  simp only [processInstr] at h
  obtain ⟨pa, s1, h1, h⟩ := bind_some h
  simp only [ask, Option.some.injEq, Prod.mk.injEq] at h1
  obtain ⟨-, rfl⟩ := h1
  obtain ⟨height, s1, s2, x0, y0, x1, y1, s3, s4, g1, g2, g3, g4, g5, g6, g7, g8, g9, g10, g11, g12⟩ := C56_geometry_partial (positions_fpdf p) h
  have hl : (Fpdf.engine p).fontHeight s.eng = lineHeight s.curr.font := by
    show s.eng.font.pointSize * (127 / 360) = _
    rw [hs.font, lineHeight]
  rcases g1 with ⟨hx, _⟩ | ⟨_, hx, _⟩ | ⟨_, _, he, rfl⟩
  · exact absurd hx (not_lt.mpr hh)
  · exact absurd rfl hx
  · rw [hl] at he
    subst he
    have e2 : s2 = s1 := g3 (by
      rintro ⟨_, hge⟩
      exact absurd hge (not_le.mpr hfit))
    subst e2
    simp only [Prod.mk.injEq] at g4
    have e : y1 = s2.eng.y + sty.dim.offsetY + lineHeight s2.curr.font + sty.box.padding.top + sty.box.padding.bottom := by
      have : y0 = s2.eng.y + sty.dim.offsetY := g4.2
      rw [← this]
      linarith [g6]
    rw [← e]
    exact g12 (e ▸ hpos)

/-! ### Header and footer with fonts of their own -/

private def plain : Styled := ⟨[], []⟩
private def size (q : ℚ) : Styled := ⟨[[([0, 1], .flt q)]], []⟩
private def red : Styled := ⟨[[([5, 1], .rgb ⟨255, 0, 0⟩)]], []⟩

private def exDoc (header : List Instr) : Ctx :=
  { classes := [], header := header, footer := [.text red [.textBlock b!"foot"]],
    body := [.lineFeed 3, .text plain [.textBlock b!"a"], .font (size 10), .pageBreak, .lineFeed 1, .box plain [], .text plain [.textBlock b!"b"]],
    hyphenate := exHyph, resolve := id, describe := fun _ => none }

private structure Sizes where
  engine : ℚ
  current : ℚ
deriving DecidableEq

/-- Sizes of the font of the engine and of the current one after the first `k` instructions. -/
private def sizes (ctx : Ctx) (k : Nat) : Option Sizes :=
  (((callsAt (Fpdf.engine exPaper) ctx 2).addPage (changeFont (Fpdf.engine exPaper) defaultStyle.font (newProcessor (Fpdf.new exPaper)))).bind fun r =>
    processInstrs (Fpdf.engine exPaper) ctx (callsAt (Fpdf.engine exPaper) ctx 2) (ctx.body.take k) r.2).map
    fun r => ⟨r.2.eng.font.pointSize, r.2.curr.font.pointSize⟩

/-- A header with a font of its own: the first line feeds, before the first text, are in the default font of 12 points, but the text after them
is in the font of the header, and so again after the page break. -/
theorem C89_header : ∃ (ctx : Ctx) (s : PState Fpdf), Reached exPaper ctx 2 [] s ∧ ¬ InStep s ∧ s.eng.font.pointSize = 12 ∧ s.curr.font.pointSize = 20 := by
  let ctx := exDoc [.text (size 20) [.textBlock b!"head"]]
  have h : ((callsAt (Fpdf.engine exPaper) ctx 2).addPage
      { eng := Fpdf.changeFont exPaper defaultStyle.font { Fpdf.new exPaper with pageCountAlias := b!"{np}" }, curr := defaultStyle, prevent := false }).map
      (fun r => (r.2.eng.font.pointSize, r.2.curr.font.pointSize)) = some (12, 20) := by decide +kernel
  obtain ⟨q, hq, he⟩ := Option.map_eq_some_iff.mp h
  simp only [Prod.mk.injEq] at he
  refine ⟨ctx, q.2, ⟨⟨ctx.body, rfl⟩, q.2, hq, rfl⟩, fun hs => ?_, he.1, he.2⟩
  have := hs.font
  rw [this] at he
  rw [he.1] at he
  exact absurd he.2 (by norm_num)

/-- The hypotheses of `C89_between_partial`: header and footer with a color, but without a font. -/
example : FontFree [] [.text red [.textBlock b!"foot"], .lineFeed 1] := by
  intro i hi st hst m hm sty
  simp only [List.mem_cons, List.not_mem_nil, or_false] at hi
  rcases hi with rfl | rfl
  · cases hst with
    | text =>
      cases hm with
      | inline h =>
        simp only [red, List.mem_singleton] at h
        subst h
        rfl
      | own h => simp [red] at h
      | selector h => simp [red] at h
    | textIn h h' =>
      simp only [List.mem_singleton] at h
      subst h
      cases h'
  · cases hst

/-- With such a header the fonts are the same at all times. -/
example : (List.range 8).map (sizes (exDoc [.text red [.textBlock b!"head"]])) =
    [some ⟨12, 12⟩, some ⟨12, 12⟩, some ⟨12, 12⟩, some ⟨10, 10⟩, some ⟨10, 10⟩, some ⟨10, 10⟩, some ⟨10, 10⟩, some ⟨10, 10⟩] := by decide +kernel

/-- With a font in the header they differ before the first text, and after a page break until the next box. -/
example : (List.range 8).map (sizes (exDoc [.text (size 20) [.textBlock b!"head"]])) =
    [some ⟨12, 20⟩, some ⟨12, 20⟩, some ⟨20, 20⟩, some ⟨10, 10⟩, some ⟨10, 20⟩, some ⟨10, 20⟩, some ⟨20, 20⟩, some ⟨20, 20⟩] := by decide +kernel

end Verif.Props
