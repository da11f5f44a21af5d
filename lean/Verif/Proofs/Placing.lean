import Verif.Proofs.Matters
import Verif.Proofs.Sim
/-
An engine that sees no colors, borders and line widths, and does everything else as the engine of the model.
(Used for C109.)
-/
namespace Verif.Proofs
open Verif.Go Verif.Model Verif.Spec

/-- The state of the engine, with the places of things instead of marks. -/
structure Plan where
  page : Nat
  x : ℚ
  y : ℚ
  font : Font
  inHeaderFooter : Bool
  failed : Bool
  pageCountAlias : Str
  line : ℚ
  out : List Place

/-- What the plan shows of a state. -/
def planOf (e : Fpdf) : Plan :=
  ⟨e.page, e.x, e.y, e.font, e.inHeaderFooter, e.failed, e.pageCountAlias, (e.out.foldl placeStep (0, [])).1, placed e.out⟩

namespace Plan

def setX (p : Paper) (x : ℚ) (e : Plan) : Plan := { e with x := if x ≥ 0 then x else p.width + x }

def setY (p : Paper) (y : ℚ) (e : Plan) : Plan := setX p e.x { e with y := if y ≥ 0 then y else p.height + y }

def fontHeight (e : Plan) : ℚ := e.font.pointSize * (127 / 360)

def turn (p : Paper) (f : Font) (e : Plan) : Prog Plan Unit :=
  .header { e with page := e.page + 1, x := p.margins.left, y := p.margins.top, font := f, inHeaderFooter := true, out := e.out ++ [.page] }
    fun e' => .done { e' with font := f, inHeaderFooter := false } ()

def addPage (p : Paper) (e : Plan) : Prog Plan Unit :=
  if e.page > 0 then .footer { e with inHeaderFooter := true } fun e' => turn p e.font { e' with inHeaderFooter := false }
  else turn p e.font e

def put (p : Paper) (t : Str) (e : Plan) : Plan :=
  { e with out := e.out ++ [.text e.page e.x e.y e.font t], x := e.x + p.metric e.font t }

def writeText (p : Paper) (t : Str) (e : Plan) : Prog Plan Unit :=
  if e.y + fontHeight e > p.height - p.margins.bottom ∧ !e.inHeaderFooter then
    Fpdf.andThen (addPage p e) fun e' _ => .done (put p t { e' with x := e.x }) ()
  else .done (put p t e) ()

def writePDF (e : Plan) : Prog Plan PdfResult :=
  .footer { e with inHeaderFooter := true } fun e' => .done { e' with inHeaderFooter := false } { written := [], failed := e'.failed }

def draw (c : DrawCmd) (e : Plan) : Plan :=
  let r := placeStep (e.line, e.out) (.draw e.page c)
  let e := { e with line := r.1, out := r.2 }
  match c with
  | .moveTo x y => { e with x := x, y := y }
  | .lineTo x y => { e with x := x, y := y }
  | _ => e

def engine (p : Paper) : Engine Plan where
  failed e := e.failed
  writePDF := writePDF
  setPageCountAlias a e := { e with pageCountAlias := a }
  currentPage e := e.page
  addPage := addPage p
  setX := setX p
  setY := setY p
  getXY e := (e.x, e.y)
  lineFeed lines e := { e with x := p.margins.left, y := e.y + fontHeight e * lines, out := e.out ++ [.feed e.page] }
  changeFont f e := { e with font := f, failed := e.failed || !p.known f }
  printableArea _ := ⟨p.margins.left, p.margins.top, p.width - p.margins.right - 2, p.height - p.margins.bottom⟩
  pageHeight _ := p.height
  putImage src x y w h e := { e with out := e.out ++ [.image e.page src x y w h] }
  setTextColor _ e := e
  fontHeight := fontHeight
  textWidth t e := p.metric e.font t
  writeText := writeText p
  margins _ := p.margins
  draw := draw

end Plan

/-! ### What it sees -/

theorem placeStep_box (lw : ℚ) (ps : List Place) (n : Nat) (x0 y0 x1 y1 : ℚ) (sty : Styles) :
    ((drawBox x0 y0 x1 y1 sty).map (Mark.draw n)).foldl placeStep (lw, ps) = (0, ps ++ [.box n x0 y0 (x1 - x0) (y1 - y0)]) := by
  have he : ∀ b x y (acc : ℚ × List Place), placeStep acc (.draw n (edge b x y)) = acc := by
    intro b x y acc
    unfold edge
    split <;> rfl
  simp only [drawBox, List.map_cons, List.map_nil, List.foldl_cons, List.foldl_nil, he]
  simp only [placeStep, Prod.mk.injEq, true_and]
  congr 2
  congr 1 <;> ring

theorem draw_box (p : Paper) (x0 y0 x1 y1 : ℚ) (sty : Styles) (e : Plan) : (drawBox x0 y0 x1 y1 sty).foldl (fun e c => (Plan.engine p).draw c e) e =
    { e with x := x0, y := y0, line := 0, out := e.out ++ [.box e.page x0 y0 (x1 - x0) (y1 - y0)] } := by
  have hp : ∀ (cs : List DrawCmd) (e : Plan), (cs.foldl (fun e c => Plan.draw c e) e).page = e.page ∧
      ((cs.foldl (fun e c => Plan.draw c e) e).line, (cs.foldl (fun e c => Plan.draw c e) e).out) =
        (cs.map (Mark.draw e.page)).foldl placeStep (e.line, e.out) ∧
      (cs.foldl (fun e c => Plan.draw c e) e).font = e.font ∧
      (cs.foldl (fun e c => Plan.draw c e) e).inHeaderFooter = e.inHeaderFooter ∧
      (cs.foldl (fun e c => Plan.draw c e) e).failed = e.failed ∧
      (cs.foldl (fun e c => Plan.draw c e) e).pageCountAlias = e.pageCountAlias := by
    intro cs
    induction cs with
    | nil => intro e; simp
    | cons c cs ih =>
      intro e
      obtain ⟨h1, h2, h3, h4, h5, h6⟩ := ih (Plan.draw c e)
      have hq : (Plan.draw c e).page = e.page ∧ ((Plan.draw c e).line, (Plan.draw c e).out) = placeStep (e.line, e.out) (.draw e.page c) ∧
        (Plan.draw c e).font = e.font ∧ (Plan.draw c e).inHeaderFooter = e.inHeaderFooter ∧ (Plan.draw c e).failed = e.failed ∧
        (Plan.draw c e).pageCountAlias = e.pageCountAlias := by cases c <;> exact ⟨rfl, rfl, rfl, rfl, rfl, rfl⟩
      obtain ⟨q1, q2, q3, q4, q5, q6⟩ := hq
      simp only [List.foldl_cons, List.map_cons]
      exact ⟨h1.trans q1, by rw [h2, q1, q2], h3.trans q3, h4.trans q4, h5.trans q5, h6.trans q6⟩
  obtain ⟨h1, h2, h3, h4, h5, h6⟩ := hp (drawBox x0 y0 x1 y1 sty) e
  rw [placeStep_box] at h2
  have hx : ((drawBox x0 y0 x1 y1 sty).foldl (fun e c => Plan.draw c e) e).x = x0 ∧
      ((drawBox x0 y0 x1 y1 sty).foldl (fun e c => Plan.draw c e) e).y = y0 := by
    simp only [drawBox, List.foldl_cons, List.foldl_nil]
    have hd : ∀ e : Plan, (Plan.draw .drawPath e).x = e.x ∧ (Plan.draw .drawPath e).y = e.y := fun e => ⟨rfl, rfl⟩
    have hm : ∀ (b : Int) (e : Plan), (Plan.draw (edge b x0 y0) e).x = x0 ∧ (Plan.draw (edge b x0 y0) e).y = y0 := by
      intro b e
      unfold edge
      split <;> exact ⟨rfl, rfl⟩
    rw [(hd _).1, (hd _).2]
    exact hm _ _
  show (drawBox x0 y0 x1 y1 sty).foldl (fun e c => Plan.draw c e) e = _
  revert h1 h2 h3 h4 h5 h6 hx
  generalize (drawBox x0 y0 x1 y1 sty).foldl (fun e c => Plan.draw c e) e = r
  intro h1 h2 h3 h4 h5 h6 hx
  obtain ⟨_, _, _, _, _, _, _, _, _⟩ := r
  simp only [Prod.mk.injEq] at h1 h2 h3 h4 h5 h6 hx
  simp only [h1, h2.1, h2.2, h3, h4, h5, h6, hx.1, hx.2]

theorem sees_places (p : Paper) : Sees (Plan.engine p) places where
  places h := h
  paragraph h := by simp only [places, matters, Bool.and_eq_true] at h; exact h.1
  row := by intro p; cases p <;> decide
  cell := rfl
  color _ _ := rfl
  draw _ _ x0 y0 x1 y1 := by
    funext s
    simp only [drawBoxM, draw_box]

/-! ### It does the same -/

theorem planOf_add {e : Fpdf} {out : List Mark} {m : Mark} (h : out = e.out ++ [m]) :
    out.foldl placeStep (0, []) = placeStep ((planOf e).line, (planOf e).out) m := by
  rw [h, List.foldl_append]; rfl

/-- Related programs: the second does the same in the plan. -/
inductive Planned {α : Type} : Prog Fpdf α → Prog Plan α → Prop
  | done (e : Fpdf) (a : α) : Planned (.done e a) (.done (planOf e) a)
  | header {e : Fpdf} {k k'} : (∀ e, Planned (k e) (k' (planOf e))) → Planned (.header e k) (.header (planOf e) k')
  | footer {e : Fpdf} {k k'} : (∀ e, Planned (k e) (k' (planOf e))) → Planned (.footer e k) (.footer (planOf e) k')

theorem turn_planned (p : Paper) (f : Font) (c : RGB) (e : Fpdf) : Planned (Fpdf.turn p f c e) (Plan.turn p f (planOf e)) := by
  have : ({ planOf e with page := e.page + 1, x := p.margins.left, y := p.margins.top, font := f, inHeaderFooter := true,
                          out := placed e.out ++ [.page] } : Plan) =
      planOf { e with page := e.page + 1, x := p.margins.left, y := p.margins.top, font := f, color := c, inHeaderFooter := true,
                      out := e.out ++ [.page] } := by
    simp only [planOf, placed, List.foldl_append, List.foldl_cons, List.foldl_nil]; rfl
  have h := Planned.header (e := { e with page := e.page + 1, x := p.margins.left, y := p.margins.top, font := f, color := c, inHeaderFooter := true,
                                          out := e.out ++ [.page] })
    (k := fun e' => .done { e' with font := f, color := c, inHeaderFooter := false } ())
    (k' := fun e' => .done { e' with font := f, inHeaderFooter := false } ()) fun e => .done _ ()
  rw [← this] at h
  exact h

theorem addPage_planned (p : Paper) (e : Fpdf) : Planned (Fpdf.addPage p e) (Plan.addPage p (planOf e)) := by
  unfold Fpdf.addPage Plan.addPage
  show Planned _ (if e.page > 0 then _ else _)
  split
  · exact .footer fun e' => turn_planned p _ _ _
  · exact turn_planned p _ _ _

theorem andThen_planned {α β : Type} {pr : Prog Fpdf α} {pr' : Prog Plan α} (h : Planned pr pr') {k : Fpdf → α → Prog Fpdf β}
    {k' : Plan → α → Prog Plan β} (hk : ∀ e a, Planned (k e a) (k' (planOf e) a)) : Planned (Fpdf.andThen pr k) (Fpdf.andThen pr' k') := by
  induction h with
  | done e a => exact hk e a
  | header _ ih => exact .header ih
  | footer _ ih => exact .footer ih

theorem planOf_put (p : Paper) (t : Str) (e : Fpdf) : planOf (Fpdf.put p t e) = Plan.put p t (planOf e) := by
  simp only [planOf, placed, Fpdf.put, List.foldl_append, List.foldl_cons, List.foldl_nil]; rfl

theorem writeText_planned (p : Paper) (t : Str) (e : Fpdf) : Planned (Fpdf.writeText p t e) (Plan.writeText p t (planOf e)) := by
  unfold Fpdf.writeText Plan.writeText
  show Planned _ (if e.y + Fpdf.fontHeight e > p.height - p.margins.bottom ∧ !e.inHeaderFooter then _ else _)
  split
  · refine andThen_planned (addPage_planned p e) fun e' _ => ?_
    have := planOf_put p t { e' with x := e.x }
    rw [show Plan.put p t { planOf e' with x := (planOf e).x } = _ from this.symm]
    exact .done _ _
  · rw [← planOf_put]; exact .done _ _

theorem writePDF_planned (e : Fpdf) : Planned (Fpdf.writePDF e) (Plan.writePDF (planOf e)) := .footer fun _ => .done _ _

theorem planOf_draw (c : DrawCmd) (e : Fpdf) : planOf (Fpdf.draw c e) = Plan.draw c (planOf e) := by
  cases c <;> simp only [planOf, placed, Fpdf.draw, List.foldl_append, List.foldl_cons, List.foldl_nil] <;> rfl

theorem planned_two {α : Type} {pr : Prog Fpdf α} {pr' : Prog Plan α} (h : Planned pr pr') : ProgTwo (fun e b => b = planOf e) pr pr' := by
  induction h with
  | done e a => exact ⟨rfl, rfl⟩
  | header _ ih => exact ⟨rfl, fun e b hb => hb ▸ ih e⟩
  | footer _ ih => exact ⟨rfl, fun e b hb => hb ▸ ih e⟩

theorem planned_back {α : Type} {pr : Prog Fpdf α} {pr' : Prog Plan α} (h : Planned pr pr') : ProgTwo (fun b e => b = planOf e) pr' pr := by
  induction h with
  | done e a => exact ⟨rfl, rfl⟩
  | header _ ih => exact ⟨rfl, fun b e hb => hb ▸ ih e⟩
  | footer _ ih => exact ⟨rfl, fun b e hb => hb ▸ ih e⟩

theorem two_plan (p : Paper) {c : Calls Fpdf} {c' : Calls Plan} (hw : ∀ t, Sim (fun e b => b = planOf e) (c.writeText t) (c'.writeText t))
    (ha : Sim (fun e b => b = planOf e) c.addPage c'.addPage) :
    Two (Fpdf.engine p) (Plan.engine p) (fun e b => b = planOf e) (fun _ => True) c c' where
  getXY := by rintro e _ rfl; rfl
  area := by rintro e _ rfl; rfl
  height := by rintro e _ rfl; rfl
  margins := by rintro e _ rfl; rfl
  fontHeight := by rintro e _ rfl; rfl
  textWidth := by rintro t e _ rfl; rfl
  norm := by rintro t e _ _ rfl; rfl
  setX := by rintro x e _ rfl; rfl
  setY := by rintro x e _ rfl; rfl
  lineFeed := by
    rintro n e _ rfl
    show _ = planOf (Fpdf.lineFeed p n e)
    simp only [planOf, placed, Fpdf.lineFeed, List.foldl_append, List.foldl_cons, List.foldl_nil]; rfl
  font := by rintro f e _ rfl; rfl
  color := by rintro f e _ rfl; rfl
  image := by
    rintro src x y w h e _ rfl
    simp only [Fpdf.engine, planOf, placed, List.foldl_append, List.foldl_cons, List.foldl_nil]; rfl
  draw := by rintro cmd e _ rfl; exact (planOf_draw cmd e).symm
  write := hw
  add := ha

theorem two_back (p : Paper) {c : Calls Plan} {c' : Calls Fpdf} (hw : ∀ t, Sim (fun b e => b = planOf e) (c.writeText t) (c'.writeText t))
    (ha : Sim (fun b e => b = planOf e) c.addPage c'.addPage) :
    Two (Plan.engine p) (Fpdf.engine p) (fun b e => b = planOf e) (fun _ => True) c c' := by
  have h := two_plan p (c := ⟨fun _ => none, fun _ _ => none⟩) (c' := ⟨fun _ => none, fun _ _ => none⟩) (fun _ => Sim.none) Sim.none
  exact {
    getXY := fun b e hb => (h.getXY e b hb).symm
    area := fun b e hb => (h.area e b hb).symm
    height := fun b e hb => (h.height e b hb).symm
    margins := fun b e hb => (h.margins e b hb).symm
    fontHeight := fun b e hb => (h.fontHeight e b hb).symm
    textWidth := fun t b e hb => (h.textWidth t e b hb).symm
    norm := fun t b e ht hb => (h.norm t e b ht hb).symm
    setX := fun x b e hb => h.setX x e b hb
    setY := fun x b e hb => h.setY x e b hb
    lineFeed := fun x b e hb => h.lineFeed x e b hb
    font := fun x b e hb => h.font x e b hb
    color := fun x b e hb => h.color x e b hb
    image := fun src x y w h' b e hb => h.image src x y w h' e b hb
    draw := fun x b e hb => h.draw x e b hb
    write := hw
    add := ha }

theorem textsOk_true (iss : List Instr) : TextsOk (fun _ => True) iss := fun _ _ _ _ => trivial

/-- The whole process with two engines. -/
theorem process_sim {E E' : Type} {eng : Engine E} {eng' : Engine E'} {Q : E → E' → Prop} {T : Str → Prop} {ctx : Ctx}
    (h : ∀ n, Two eng eng' Q T (callsAt eng ctx n) (callsAt eng' ctx n)) (hh : TextsOk T ctx.header) (hf : TextsOk T ctx.footer)
    (hb : TextsOk T ctx.body) (hal : ∀ a e e', Q e e' → Q (eng.setPageCountAlias a e) (eng'.setPageCountAlias a e'))
    (hfa : ∀ e e', Q e e' → eng'.failed e' = eng.failed e) (hp : ∀ e e', Q e e' → ProgTwo Q (eng.writePDF e) (eng'.writePDF e')) (n : Nat) :
    Sim Q (process eng ctx n) (process eng' ctx n) := by
  unfold process
  refine (Sim.upd (hal _)).bind fun _ => Sim.get fun s u hs => ?_
  rw [hs.2.1]
  refine (changeFontM_sim (h n) _).bind fun _ => (h n).add.bind fun _ => (processInstrs_sim (h n) hb).bind fun _ => (Sim.ask hfa).bind fun failed => ?_
  exact Sim.ite (fun _ => Sim.pure _) fun _ => runWith_sim (h (n - 1)) hh hf hp

theorem process_plan (p : Paper) (ctx : Ctx) (n : Nat) :
    Sim (fun e b => b = planOf e) (process (Fpdf.engine p) ctx n) (process (Plan.engine p) ctx n) :=
  process_sim (T := fun _ => True) (callsAt_two (ctx := ctx) (fun _ _ => two_plan p) (textsOk_true _) (textsOk_true _)
    (fun e _ hb => hb ▸ planned_two (addPage_planned p e)) (fun t e _ hb => hb ▸ planned_two (writeText_planned p t e)))
    (textsOk_true _) (textsOk_true _) (textsOk_true _) (by rintro a e _ rfl; rfl) (by rintro e _ rfl; rfl)
    (fun e _ hb => hb ▸ planned_two (writePDF_planned e)) n

theorem process_back (p : Paper) (ctx : Ctx) (n : Nat) :
    Sim (fun b e => b = planOf e) (process (Plan.engine p) ctx n) (process (Fpdf.engine p) ctx n) :=
  process_sim (T := fun _ => True) (callsAt_two (ctx := ctx) (fun _ _ => two_back p) (textsOk_true _) (textsOk_true _)
    (fun _ e hb => hb ▸ planned_back (addPage_planned p e)) (fun t _ e hb => hb ▸ planned_back (writeText_planned p t e)))
    (textsOk_true _) (textsOk_true _) (textsOk_true _) (by rintro a _ e rfl; rfl) (by rintro _ e rfl; rfl)
    (fun _ e hb => hb ▸ planned_back (writePDF_planned e)) n

end Verif.Proofs
