import Verif.Proofs.Sim
import Verif.Proofs.Agree
import Verif.Proofs.Words
import Verif.Props.Locality
import Verif.Props.InStep
/-
Property C108: documents put together at a page break come out one after the other (/repo/process.go, /repo/engine/fpdf.go).
-/
namespace Verif.Props
open Verif.Go Verif.Model Verif.Proofs Verif.Spec

variable {p : Paper} {ctx : Ctx} {n k j : Nat}

/-! ### The same, some pages later -/

/-- `e'` is what `e` is, but after `k` pages more, with the marks `pre` on them. -/
def Later (k : Nat) (pre : List Mark) (e e' : Fpdf) : Prop :=
  0 < e.page ∧ e' = { e with page := e.page + k, out := pre ++ e.out.map (later k) }

variable {pre : List Mark} {e e' : Fpdf}

private theorem Later.setX (x : ℚ) (h : Later k pre e e') : Later k pre (Fpdf.setX p x e) (Fpdf.setX p x e') := by
  obtain ⟨h0, rfl⟩ := h; exact ⟨h0, rfl⟩

private theorem Later.setY (y : ℚ) (h : Later k pre e e') : Later k pre (Fpdf.setY p y e) (Fpdf.setY p y e') := by
  obtain ⟨h0, rfl⟩ := h; exact ⟨h0, rfl⟩

private theorem Later.lineFeed (l : ℚ) (h : Later k pre e e') : Later k pre (Fpdf.lineFeed p l e) (Fpdf.lineFeed p l e') := by
  obtain ⟨h0, rfl⟩ := h
  exact ⟨h0, by simp [Fpdf.lineFeed, Fpdf.fontHeight, later]⟩

private theorem Later.image (src : Str) (x y w h : ℚ) (hl : Later k pre e e') :
    Later k pre ((Fpdf.engine p).putImage src x y w h e) ((Fpdf.engine p).putImage src x y w h e') := by
  obtain ⟨h0, rfl⟩ := hl
  exact ⟨h0, by simp [Fpdf.engine, later]⟩

private theorem Later.draw (c : DrawCmd) (h : Later k pre e e') : Later k pre (Fpdf.draw c e) (Fpdf.draw c e') := by
  obtain ⟨h0, rfl⟩ := h
  cases c <;> exact ⟨h0, by simp [Fpdf.draw, later]⟩

private theorem Later.put (t : Str) (h : Later k pre e e') : Later k pre (Fpdf.put p t e) (Fpdf.put p t e') := by
  obtain ⟨h0, rfl⟩ := h
  exact ⟨h0, by simp [Fpdf.put, later]⟩

private theorem Later.page (f : Font) (c : RGB) (h : Later k pre e e') :
    Later k pre { e with page := e.page + 1, x := p.margins.left, y := p.margins.top, font := f, color := c, inHeaderFooter := true, out := e.out ++ [.page] }
      { e' with page := e'.page + 1, x := p.margins.left, y := p.margins.top, font := f, color := c, inHeaderFooter := true, out := e'.out ++ [.page] } := by
  obtain ⟨h0, rfl⟩ := h
  exact ⟨by simp, by simp [later]; omega⟩

/-- Both ways: what one does, the other one does. -/
private def Both (k : Nat) (pre : List Mark) {α : Type} (pr pr' : Prog Fpdf α) : Prop :=
  ProgTwo (Later k pre) pr pr' ∧ ProgTwo (fun a b => Later k pre b a) pr' pr

private theorem both_turn (f : Font) (c : RGB) {e e' : Fpdf} (h : Later k pre
    { e with page := e.page + 1, x := p.margins.left, y := p.margins.top, font := f, color := c, inHeaderFooter := true, out := e.out ++ [.page] }
    { e' with page := e'.page + 1, x := p.margins.left, y := p.margins.top, font := f, color := c, inHeaderFooter := true, out := e'.out ++ [.page] }) :
    Both k pre (Fpdf.turn p f c e) (Fpdf.turn p f c e') := by
  refine ⟨⟨h, ?_⟩, ⟨h, ?_⟩⟩
  · rintro e1 e1' ⟨h0, rfl⟩
    exact ⟨⟨h0, rfl⟩, rfl⟩
  · rintro e1' e1 ⟨h0, rfl⟩
    exact ⟨⟨h0, rfl⟩, rfl⟩

private theorem both_addPage (h : Later k pre e e') : Both k pre (Fpdf.addPage p e) (Fpdf.addPage p e') := by
  obtain ⟨h0, rfl⟩ := h
  have h2 : e.page + k > 0 := by omega
  unfold Fpdf.addPage
  rw [if_pos h0, if_pos h2]
  refine ⟨⟨⟨h0, rfl⟩, ?_⟩, ⟨⟨h0, rfl⟩, ?_⟩⟩
  · intro a b hab
    refine (both_turn e.font e.color (Later.page e.font e.color ?_)).1
    obtain ⟨h0, rfl⟩ := hab
    exact ⟨h0, rfl⟩
  · intro b a hab
    refine (both_turn e.font e.color (Later.page e.font e.color ?_)).2
    obtain ⟨h0, rfl⟩ := hab
    exact ⟨h0, rfl⟩

private theorem andThen_two {E E' : Type} {α β : Type} {Q : E → E' → Prop} {f : E → α → Prog E β} {f' : E' → α → Prog E' β}
    (hf : ∀ e e' a, Q e e' → ProgTwo Q (f e a) (f' e' a)) : ∀ (pr : Prog E α) (pr' : Prog E' α), ProgTwo Q pr pr' →
    ProgTwo Q (Fpdf.andThen pr f) (Fpdf.andThen pr' f') := by
  intro pr
  induction pr with
  | done e a =>
    rintro (⟨e', a'⟩ | ⟨e', k'⟩ | ⟨e', k'⟩) hp
    · obtain ⟨h1, h2⟩ := hp
      subst h2
      exact hf _ _ _ h1
    · exact hp.elim
    · exact hp.elim
  | header e k ih =>
    rintro (⟨e', a'⟩ | ⟨e', k'⟩ | ⟨e', k'⟩) hp
    · exact hp.elim
    · exact ⟨hp.1, fun e1 e1' h1 => ih _ _ (hp.2 _ _ h1)⟩
    · exact hp.elim
  | footer e k ih =>
    rintro (⟨e', a'⟩ | ⟨e', k'⟩ | ⟨e', k'⟩) hp
    · exact hp.elim
    · exact hp.elim
    · exact ⟨hp.1, fun e1 e1' h1 => ih _ _ (hp.2 _ _ h1)⟩

private theorem both_writeText (t : Str) (h : Later k pre e e') : Both k pre (Fpdf.writeText p t e) (Fpdf.writeText p t e') := by
  have e1 : e'.y = e.y ∧ e'.x = e.x ∧ e'.inHeaderFooter = e.inHeaderFooter ∧ Fpdf.fontHeight e' = Fpdf.fontHeight e := by
    rw [h.2]; exact ⟨rfl, rfl, rfl, rfl⟩
  have hx : ∀ a b, Later k pre a b → Later k pre (Fpdf.put p t { a with x := e.x }) (Fpdf.put p t { b with x := e.x }) := by
    intro a b hab
    refine Later.put t ?_
    obtain ⟨h0, rfl⟩ := hab
    exact ⟨h0, rfl⟩
  unfold Fpdf.writeText
  rw [e1.1, e1.2.1, e1.2.2.1, e1.2.2.2]
  split
  · refine ⟨andThen_two ?_ _ _ (both_addPage h).1, andThen_two ?_ _ _ (both_addPage h).2⟩
    · exact fun a b _ hab => ⟨hx a b hab, rfl⟩
    · exact fun b a _ hab => ⟨hx a b hab, rfl⟩
  · exact ⟨⟨Later.put t h, rfl⟩, ⟨Later.put t h, rfl⟩⟩

private theorem both_writePDF (h : Later k pre e e') : Both k pre (Fpdf.writePDF e) (Fpdf.writePDF e') := by
  have h3 : Later k pre { e with inHeaderFooter := true } { e' with inHeaderFooter := true } := by
    obtain ⟨h0, rfl⟩ := h; exact ⟨h0, rfl⟩
  refine ⟨⟨h3, ?_⟩, ⟨h3, ?_⟩⟩
  · rintro a b ⟨h0, rfl⟩
    exact ⟨⟨h0, rfl⟩, rfl⟩
  · rintro b a ⟨h0, rfl⟩
    exact ⟨⟨h0, rfl⟩, rfl⟩

/-! ### The processor, some pages later -/

/-- The texts for which it does not matter where the numbering starts. -/
private def Fine (j k : Nat) (t : Str) : Prop := j = k ∨ ¬ b!"{cp}" <:+: t

private theorem norm_later {t : Str} (ht : Fine j k t) (h : Later k pre e e') : norm (Fpdf.engine p) e' t = norm (numberedFrom j p) e t := by
  rcases ht with rfl | ht
  · obtain ⟨_, rfl⟩ := h
    show whitespaceRectified (replaceAll _ (itoa ((e.page + j : Nat) : Int)) t) = whitespaceRectified (replaceAll _ (itoa ((e.page : Int) + j)) t)
    rw [Nat.cast_add]
  · show whitespaceRectified (replaceAll _ _ t) = whitespaceRectified (replaceAll _ _ t)
    rw [replaceAll_none (by decide) ht, replaceAll_none (by decide) ht]

private theorem two_later {c c' : Calls Fpdf} (hw : ∀ t, Sim (Later k pre) (c.writeText t) (c'.writeText t)) (ha : Sim (Later k pre) c.addPage c'.addPage) :
    Two (numberedFrom j p) (Fpdf.engine p) (Later k pre) (Fine j k) c c' where
  getXY := by rintro a b ⟨_, rfl⟩; rfl
  area := by rintro a b ⟨_, rfl⟩; rfl
  height := by rintro a b ⟨_, rfl⟩; rfl
  margins := by rintro a b ⟨_, rfl⟩; rfl
  fontHeight := by rintro a b ⟨_, rfl⟩; rfl
  textWidth := by rintro t a b ⟨_, rfl⟩; rfl
  norm := fun t a b ht h => norm_later ht h
  setX := fun x a b h => Later.setX x h
  setY := fun x a b h => Later.setY x h
  lineFeed := fun x a b h => Later.lineFeed x h
  font := by rintro f a b ⟨h0, rfl⟩; exact ⟨h0, rfl⟩
  color := by rintro f a b ⟨h0, rfl⟩; exact ⟨h0, rfl⟩
  image := fun src x y w h a b hl => Later.image (p := p) src x y w h hl
  draw := fun c a b h => Later.draw c h
  write := hw
  add := ha

private theorem two_earlier {c c' : Calls Fpdf} (hw : ∀ t, Sim (fun b a => Later k pre a b) (c.writeText t) (c'.writeText t))
    (ha : Sim (fun b a => Later k pre a b) c.addPage c'.addPage) :
    Two (Fpdf.engine p) (numberedFrom j p) (fun b a => Later k pre a b) (Fine j k) c c' where
  getXY := by rintro a b ⟨_, rfl⟩; rfl
  area := by rintro a b ⟨_, rfl⟩; rfl
  height := by rintro a b ⟨_, rfl⟩; rfl
  margins := by rintro a b ⟨_, rfl⟩; rfl
  fontHeight := by rintro a b ⟨_, rfl⟩; rfl
  textWidth := by rintro t a b ⟨_, rfl⟩; rfl
  norm := fun t a b ht h => (norm_later ht h).symm
  setX := fun x a b h => Later.setX x h
  setY := fun x a b h => Later.setY x h
  lineFeed := fun x a b h => Later.lineFeed x h
  font := by rintro f a b ⟨h0, rfl⟩; exact ⟨h0, rfl⟩
  color := by rintro f a b ⟨h0, rfl⟩; exact ⟨h0, rfl⟩
  image := fun src x y w h a b hl => Later.image (p := p) src x y w h hl
  draw := fun c a b h => Later.draw c h
  write := hw
  add := ha

private theorem calls_later (hh : TextsOk (Fine j k) ctx.header) (hf : TextsOk (Fine j k) ctx.footer) (n : Nat) :
    Two (numberedFrom j p) (Fpdf.engine p) (Later k pre) (Fine j k) (callsAt (numberedFrom j p) ctx n) (callsAt (Fpdf.engine p) ctx n) :=
  callsAt_two (fun _ _ => two_later) hh hf (fun _ _ h => (both_addPage h).1) (fun t _ _ h => (both_writeText t h).1) n

private theorem calls_earlier (hh : TextsOk (Fine j k) ctx.header) (hf : TextsOk (Fine j k) ctx.footer) (n : Nat) :
    Two (Fpdf.engine p) (numberedFrom j p) (fun b a => Later k pre a b) (Fine j k) (callsAt (Fpdf.engine p) ctx n) (callsAt (numberedFrom j p) ctx n) :=
  callsAt_two (fun _ _ => two_earlier) hh hf (fun _ _ h => (both_addPage h).2) (fun t _ _ h => (both_writeText t h).2) n

/-! ### What process does -/

/-- The body from some instruction on, and the end. -/
private def rest (eng : Engine Fpdf) (ctx : Ctx) (n : Nat) (body : List Instr) : M Fpdf PdfResult := do
  processInstrs eng ctx (callsAt eng ctx n) body
  let failed ← ask eng.failed
  if failed then pure { written := [], failed := true }
  else runWith eng ctx (callsAt eng ctx (n - 1)) eng.writePDF

/-- The state in which the first page is started. -/
private def start (p : Paper) : PState Fpdf :=
  { eng := Fpdf.changeFont p defaultStyle.font { Fpdf.new p with pageCountAlias := b!"{np}" }, curr := defaultStyle, prevent := false }

private theorem process_start (body : List Instr) : process (numberedFrom j p) { ctx with body := body } n (newProcessor (Fpdf.new p)) =
    ((callsAt (numberedFrom j p) ctx n).addPage >>= fun _ => rest (numberedFrom j p) ctx n body) (start p) := by
  unfold process rest
  simp only [callsAt_body, processInstrs_body, runWith_body]
  rfl

private theorem numberedFrom_zero (p : Paper) : numberedFrom 0 p = Fpdf.engine p := by
  unfold numberedFrom
  simp only [Nat.cast_zero, add_zero]
  rfl

private theorem rest_sim (hh : TextsOk (Fine j k) ctx.header) (hf : TextsOk (Fine j k) ctx.footer) {body : List Instr} (hb : TextsOk (Fine j k) body) :
    Sim (Later k pre) (rest (numberedFrom j p) ctx n body) (rest (Fpdf.engine p) ctx n body) := by
  unfold rest
  refine (processInstrs_sim (calls_later hh hf n) hb).bind fun _ => (Sim.ask (by rintro a b ⟨_, rfl⟩; rfl)).bind fun f => Sim.ite (fun _ => Sim.pure _) fun _ => ?_
  exact runWith_sim (calls_later hh hf (n - 1)) hh hf fun _ _ h => (both_writePDF h).1

private theorem rest_sim' (hh : TextsOk (Fine j k) ctx.header) (hf : TextsOk (Fine j k) ctx.footer) {body : List Instr} (hb : TextsOk (Fine j k) body) :
    Sim (fun b a => Later k pre a b) (rest (Fpdf.engine p) ctx n body) (rest (numberedFrom j p) ctx n body) := by
  unfold rest
  refine (processInstrs_sim (calls_earlier hh hf n) hb).bind fun _ => (Sim.ask (by rintro a b ⟨_, rfl⟩; rfl)).bind fun f => Sim.ite (fun _ => Sim.pure _) fun _ => ?_
  exact runWith_sim (calls_earlier hh hf (n - 1)) hh hf fun _ _ h => (both_writePDF h).2

/-! ### What stays -/

/-- From page `k` on there are no fewer pages, what is on them stays, and so does the placeholder for the number of pages. -/
private def Going (k : Nat) (pre : List Mark) (a b : Fpdf) : Prop := a = b ∧ k < a.page ∧ a.pageCountAlias = b!"{np}" ∧ pre <+: a.out

private theorem going_two {c : Calls Fpdf} (hw : ∀ t, Sim (Going k pre) (c.writeText t) (c.writeText t)) (ha : Sim (Going k pre) c.addPage c.addPage) :
    Two (Fpdf.engine p) (Fpdf.engine p) (Going k pre) (fun _ => True) c c where
  getXY := by rintro a b ⟨rfl, _⟩; rfl
  area := by rintro a b ⟨rfl, _⟩; rfl
  height := by rintro a b ⟨rfl, _⟩; rfl
  margins := by rintro a b ⟨rfl, _⟩; rfl
  fontHeight := by rintro a b ⟨rfl, _⟩; rfl
  textWidth := by rintro t a b ⟨rfl, _⟩; rfl
  norm := by rintro t a b _ ⟨rfl, _⟩; rfl
  setX := by rintro x a b ⟨rfl, h⟩; exact ⟨rfl, h⟩
  setY := by rintro x a b ⟨rfl, h⟩; exact ⟨rfl, h⟩
  lineFeed := by rintro x a b ⟨rfl, h1, h2, h3⟩; exact ⟨rfl, h1, h2, h3.trans (List.prefix_append _ _)⟩
  font := by rintro x a b ⟨rfl, h⟩; exact ⟨rfl, h⟩
  color := by rintro x a b ⟨rfl, h⟩; exact ⟨rfl, h⟩
  image := by rintro src x y w h a b ⟨rfl, h1, h2, h3⟩; exact ⟨rfl, h1, h2, h3.trans (List.prefix_append _ _)⟩
  draw := by rintro x a b ⟨rfl, h1, h2, h3⟩; cases x <;> exact ⟨rfl, h1, h2, h3.trans (List.prefix_append _ _)⟩
  write := hw
  add := ha

private theorem going_turn (f : Font) (c : RGB) {e e' : Fpdf} (h : e = e' ∧ k ≤ e.page ∧ e.pageCountAlias = b!"{np}" ∧ pre <+: e.out) :
    ProgTwo (Going k pre) (Fpdf.turn p f c e) (Fpdf.turn p f c e') := by
  obtain ⟨rfl, h1, h2, h3⟩ := h
  refine ⟨⟨rfl, Nat.lt_succ_of_le h1, h2, h3.trans (List.prefix_append _ _)⟩, ?_⟩
  rintro a b ⟨rfl, h⟩
  exact ⟨⟨rfl, h⟩, rfl⟩

private theorem going_addPage {e e' : Fpdf} (h : Going k pre e e') : ProgTwo (Going k pre) (Fpdf.addPage p e) (Fpdf.addPage p e') := by
  obtain ⟨rfl, h1, h2⟩ := h
  unfold Fpdf.addPage
  rw [if_pos (by omega)]
  refine ⟨⟨rfl, h1, h2⟩, ?_⟩
  rintro a b ⟨rfl, h1, h2⟩
  exact going_turn _ _ ⟨rfl, h1.le, h2⟩

private theorem all_texts (iss : List Instr) : TextsOk (fun _ => True) iss := fun _ _ _ _ => trivial

private theorem going_calls (ctx : Ctx) : ∀ n, Two (Fpdf.engine p) (Fpdf.engine p) (Going k pre) (fun _ => True) (callsAt (Fpdf.engine p) ctx n)
    (callsAt (Fpdf.engine p) ctx n)
  | 0 => going_two (fun _ => Sim.none) Sim.none
  | n + 1 => by
    refine going_two (fun t => runWith_sim (going_calls ctx n) (all_texts _) (all_texts _) ?_)
      (runWith_sim (going_calls ctx n) (all_texts _) (all_texts _) fun a b h => going_addPage h)
    rintro a b ⟨rfl, h⟩
    show ProgTwo (Going k pre) (Fpdf.writeText p t a) (Fpdf.writeText p t a)
    unfold Fpdf.writeText
    split
    · refine andThen_two ?_ _ _ (going_addPage ⟨rfl, h⟩)
      rintro c d _ ⟨rfl, h1, h2, h3⟩
      exact ⟨⟨rfl, h1, h2, h3.trans (List.prefix_append _ _)⟩, rfl⟩
    · exact ⟨⟨rfl, h.1, h.2.1, h.2.2.trans (List.prefix_append _ _)⟩, rfl⟩

/-- A state without error comes from states without error. -/
private def Well (e : Fpdf) : Prop := e.failed = false

private theorem well_font {f : Font} {e : Fpdf} (h : Well (Fpdf.changeFont p f e)) : Well e := by
  have h : (e.failed || !p.known f) = false := h
  rw [Bool.or_eq_false_iff] at h
  exact h.1

private theorem well_back {c : Calls Fpdf} (hw : ∀ t, Ag Well (c.writeText t) (c.writeText t)) (ha : Ag Well c.addPage c.addPage) :
    Back (Fpdf.engine p) Well c c where
  setX _ _ h := h
  setY _ _ h := h
  lineFeed _ _ h := h
  font _ _ h := well_font h
  color _ _ h := h
  image _ _ _ _ _ _ h := h
  draw c _ h := by cases c <;> exact h
  write := hw
  add := ha

private theorem progWell_addPage (e : Fpdf) : ProgBack Well e (Fpdf.addPage p e) := by
  unfold Fpdf.addPage
  split
  · exact ⟨id, fun e2 => ⟨id, fun e3 => id⟩⟩
  · exact ⟨id, fun e3 => id⟩

private theorem progWell_writeText (t : Str) (e : Fpdf) : ProgBack Well e (Fpdf.writeText p t e) := by
  unfold Fpdf.writeText
  split
  · unfold Fpdf.addPage
    split
    · exact ⟨id, fun e2 => ⟨id, fun e3 => id⟩⟩
    · exact ⟨id, fun e3 => id⟩
  · exact id

private theorem well_calls (ctx : Ctx) : ∀ n, Back (Fpdf.engine p) Well (callsAt (Fpdf.engine p) ctx n) (callsAt (Fpdf.engine p) ctx n)
  | 0 => well_back (fun _ => Ag.none) Ag.none
  | n + 1 => well_back
    (fun t s a s' hr hg => runProg_ag (callback_ag (well_calls ctx n) _) (callback_ag (well_calls ctx n) _) _ s.eng (progWell_writeText t _) s a s' hr hg)
    (fun s a s' hr hg => runProg_ag (callback_ag (well_calls ctx n) _) (callback_ag (well_calls ctx n) _) _ s.eng (progWell_addPage _) s a s' hr hg)

/-! ### Before and after the page break -/

/-- The footer of a page. -/
private def foot (p : Paper) (ctx : Ctx) (n : Nat) (s : PState Fpdf) : Option (Unit × PState Fpdf) :=
  callback (Fpdf.engine p) ctx (callsAt (Fpdf.engine p) ctx n) ctx.footer { s with eng := { s.eng with inHeaderFooter := true } }

variable {s1 s2 s3 s' : PState Fpdf} {r : PdfResult} {A B : List Instr}

private theorem rest_eq (hA : processInstrs (Fpdf.engine p) ctx (callsAt (Fpdf.engine p) ctx (n + 1)) A s1 = some ((), s2)) :
    (rest (Fpdf.engine p) ctx (n + 1) A s1 = some (r, s') ∧ r.failed = false) ↔ ∃ s3, foot p ctx n s2 = some ((), s3) ∧ s3.eng.failed = false ∧
      r = { written := [], failed := false } ∧ s' = { s3 with eng := { s3.eng with inHeaderFooter := false } } := by
  have e1 : rest (Fpdf.engine p) ctx (n + 1) A s1 = if s2.eng.failed = true then some ({ written := [], failed := true }, s2)
      else match foot p ctx n s2 with
      | none => none
      | some ((), s3) => some ({ written := [], failed := s3.eng.failed }, { s3 with eng := { s3.eng with inHeaderFooter := false } }) := by
    unfold rest
    rw [bind_eq, hA]
    show (if s2.eng.failed = true then (pure _ : M Fpdf PdfResult) else _) s2 = _
    split
    · rfl
    · show runProg _ _ (Fpdf.writePDF s2.eng) s2 = _
      unfold Fpdf.writePDF
      simp only [runProg, foot, Nat.add_sub_cancel]
      cases callback (Fpdf.engine p) ctx (callsAt (Fpdf.engine p) ctx n) ctx.footer { s2 with eng := { s2.eng with inHeaderFooter := true } } with
      | none => rfl
      | some q => rfl
  rw [e1]
  constructor
  · rintro ⟨h, hr⟩
    split at h
    · simp only [Option.some.injEq, Prod.mk.injEq] at h
      rw [← h.1] at hr
      exact absurd hr (by simp)
    · cases hf : foot p ctx n s2 with
      | none => rw [hf] at h; exact absurd h (by simp)
      | some q =>
        rw [hf] at h
        simp only [Option.some.injEq, Prod.mk.injEq] at h
        have hr' : q.2.eng.failed = false := by rw [← h.1] at hr; exact hr
        exact ⟨q.2, rfl, hr', by rw [← h.1, hr'], h.2.symm⟩
  · rintro ⟨s3, h1, h2, h3, h4⟩
    have h5 : s2.eng.failed = false := (callback_ag (well_calls (p := p) ctx n) ctx.footer _ _ _ h1 h2).2
    rw [if_neg (by rw [h5]; simp), h1, h3, h4]
    simp only [h2, and_self]

private theorem add_eq (h0 : 0 < s2.eng.page) : (callsAt (Fpdf.engine p) ctx (n + 1)).addPage s2 = (foot p ctx n s2).bind fun q =>
    runProg (callback (Fpdf.engine p) ctx (callsAt (Fpdf.engine p) ctx n) ctx.header) (callback (Fpdf.engine p) ctx (callsAt (Fpdf.engine p) ctx n) ctx.footer)
      (Fpdf.turn p s2.eng.font s2.eng.color { q.2.eng with inHeaderFooter := false }) q.2 := by
  show runProg _ _ (Fpdf.addPage p s2.eng) s2 = _
  unfold Fpdf.addPage
  rw [if_pos h0]
  simp only [runProg, foot]
  cases callback (Fpdf.engine p) ctx (callsAt (Fpdf.engine p) ctx n) ctx.footer { s2 with eng := { s2.eng with inHeaderFooter := true } } with
  | none => rfl
  | some q => rfl

/-- The parts of a document with a page break. -/
private theorem process_joined : process (Fpdf.engine p) { ctx with body := A ++ .pageBreak :: B } n (newProcessor (Fpdf.new p)) =
    ((callsAt (Fpdf.engine p) ctx n).addPage (start p)).bind fun q => (processInstrs (Fpdf.engine p) ctx (callsAt (Fpdf.engine p) ctx n) A q.2).bind fun q =>
      ((callsAt (Fpdf.engine p) ctx n).addPage >>= fun _ => rest (Fpdf.engine p) ctx n B) q.2 := by
  have h := process_start (j := 0) (p := p) (ctx := ctx) (n := n) (A ++ .pageBreak :: B)
  rw [numberedFrom_zero] at h
  rw [h, bind_eq]
  congr 1
  funext q
  unfold rest
  rw [bind_eq, C54_in_order, bind_eq]
  cases processInstrs (Fpdf.engine p) ctx (callsAt (Fpdf.engine p) ctx n) A q.2 with
  | none => rfl
  | some q1 =>
    simp only [Option.bind_some, processInstrs, processInstr]
    rw [bind_eq, bind_eq]
    cases (callsAt (Fpdf.engine p) ctx n).addPage q1.2 with
    | none => rfl
    | some q2 =>
      simp only [Option.bind_some]
      rw [bind_eq]

private theorem process_alone : process (Fpdf.engine p) { ctx with body := A } n (newProcessor (Fpdf.new p)) =
    ((callsAt (Fpdf.engine p) ctx n).addPage (start p)).bind fun q => rest (Fpdf.engine p) ctx n A q.2 := by
  have h := process_start (j := 0) (p := p) (ctx := ctx) (n := n) A
  rw [numberedFrom_zero] at h
  rw [h, bind_eq]

private theorem start_going (h1 : (callsAt (Fpdf.engine p) ctx (n + 1)).addPage (start p) = some ((), s1))
    (h2 : processInstrs (Fpdf.engine p) ctx (callsAt (Fpdf.engine p) ctx (n + 1)) A s1 = some ((), s2)) : Going 0 [] s2.eng s2.eng := by
  have e1 : PRel (Going 0 []) s1 s1 := by
    have ht : ProgTwo (Going 0 []) (Fpdf.turn p (start p).eng.font (start p).eng.color (start p).eng)
        (Fpdf.turn p (start p).eng.font (start p).eng.color (start p).eng) := going_turn _ _ ⟨rfl, le_refl _, rfl, List.nil_prefix⟩
    obtain ⟨u, g1, g2⟩ := runProg_sim (callback_sim (ctx := ctx) (going_calls (k := 0) (pre := []) (p := p) ctx n) (all_texts ctx.header))
      (callback_sim (ctx := ctx) (going_calls (k := 0) (pre := []) (p := p) ctx n) (all_texts ctx.footer)) _ _ ht (start p) (start p) rfl rfl () s1 h1
    have : some ((), u) = some ((), s1) := g1.symm.trans h1
    simp only [Option.some.injEq, Prod.mk.injEq, true_and] at this
    exact this ▸ g2
  obtain ⟨u, g1, g2⟩ := processInstrs_sim (ctx := ctx) (going_calls (k := 0) (pre := []) (p := p) ctx (n + 1)) (all_texts A) s1 s1 e1 () s2 h2
  have : some ((), u) = some ((), s2) := g1.symm.trans h2
  simp only [Option.some.injEq, Prod.mk.injEq, true_and] at this
  exact this ▸ g2.1

/-- How a document goes on after the page break, and how the second part does on its own. -/
private theorem go_on (hh : TextsOk (Fine j s3.eng.page) ctx.header) (hf : TextsOk (Fine j s3.eng.page) ctx.footer) (hb : TextsOk (Fine j s3.eng.page) B)
    (hft : foot p ctx n s2 = some ((), s3)) (h0 : 0 < s2.eng.page) (hfont : s2.eng.font = defaultStyle.font) (hcol : s2.eng.color = ⟨0, 0, 0⟩)
    (hcurr : s3.curr = defaultStyle) (hnp : s3.eng.pageCountAlias = b!"{np}") (hw : s3.eng.failed = (start p).eng.failed) :
    (∀ s, ((callsAt (numberedFrom j p) ctx (n + 1)).addPage >>= fun _ => rest (numberedFrom j p) ctx (n + 1) B) (start p) = some (r, s) →
      ∃ s', ((callsAt (Fpdf.engine p) ctx (n + 1)).addPage >>= fun _ => rest (Fpdf.engine p) ctx (n + 1) B) s2 = some (r, s') ∧
        Later s3.eng.page s3.eng.out s.eng s'.eng) ∧
    (∀ s', ((callsAt (Fpdf.engine p) ctx (n + 1)).addPage >>= fun _ => rest (Fpdf.engine p) ctx (n + 1) B) s2 = some (r, s') →
      ∃ s, ((callsAt (numberedFrom j p) ctx (n + 1)).addPage >>= fun _ => rest (numberedFrom j p) ctx (n + 1) B) (start p) = some (r, s) ∧
        Later s3.eng.page s3.eng.out s.eng s'.eng) := by
  have hp : s3.prevent = false := by
    unfold foot at hft
    rw [callback_eq] at hft
    obtain ⟨q, _, he⟩ := Option.map_eq_some_iff.mp hft
    simp only [Prod.mk.injEq, true_and] at he
    rw [← he]
  have hcol' : (start p).eng.color = ⟨0, 0, 0⟩ := rfl
  have hturn : Both s3.eng.page s3.eng.out (Fpdf.turn p defaultStyle.font ⟨0, 0, 0⟩ (start p).eng)
      (Fpdf.turn p defaultStyle.font ⟨0, 0, 0⟩ { s3.eng with inHeaderFooter := false }) := by
    refine both_turn _ _ ⟨by simp, ?_⟩
    simp only [hnp, hw]
    simp [start, Fpdf.changeFont, Fpdf.new, later, Nat.add_comm]
  have e1 : (callsAt (numberedFrom j p) ctx (n + 1)).addPage (start p) = runProg (callback (numberedFrom j p) ctx (callsAt (numberedFrom j p) ctx n) ctx.header)
      (callback (numberedFrom j p) ctx (callsAt (numberedFrom j p) ctx n) ctx.footer) (Fpdf.turn p defaultStyle.font ⟨0, 0, 0⟩ (start p).eng) (start p) := rfl
  have e2 := add_eq (p := p) (ctx := ctx) (n := n) h0
  rw [hft, hfont, hcol] at e2
  simp only [Option.bind_some] at e2
  constructor
  · intro s h
    obtain ⟨_, t1, g1, g2⟩ := bind_some h
    rw [e1] at g1
    obtain ⟨u1, g3, g4⟩ := runProg_sim (callback_sim (ctx := ctx) (calls_later hh hf n) hh) (callback_sim (ctx := ctx) (calls_later hh hf n) hf) _ _
      hturn.1 (start p) s3 hcurr hp () t1 g1
    obtain ⟨u2, g5, g6⟩ := rest_sim (n := n + 1) hh hf hb t1 u1 g4 r s g2
    exact ⟨u2, by rw [bind_eq, e2, g3]; exact g5, g6.1⟩
  · intro s' h
    obtain ⟨_, t1, g1, g2⟩ := bind_some h
    rw [e2] at g1
    obtain ⟨u1, g3, g4⟩ := runProg_sim (callback_sim (ctx := ctx) (calls_earlier hh hf n) hh) (callback_sim (ctx := ctx) (calls_earlier hh hf n) hf) _ _
      hturn.2 s3 (start p) hcurr.symm hp.symm () t1 g1
    obtain ⟨u2, g5, g6⟩ := rest_sim' (n := n + 1) hh hf hb t1 u1 g4 r s' g2
    exact ⟨u2, by rw [bind_eq, e1, g3]; exact g5, g6.1⟩

/-- The parts of a document before a page break. -/
private theorem parts {r : PdfResult} {sA : PState Fpdf} (hA : process (Fpdf.engine p) { ctx with body := A } (n + 1) (newProcessor (Fpdf.new p)) = some (r, sA))
    (hr : r.failed = false) : ∃ s1 s2 s3, (callsAt (Fpdf.engine p) ctx (n + 1)).addPage (start p) = some ((), s1) ∧
      processInstrs (Fpdf.engine p) ctx (callsAt (Fpdf.engine p) ctx (n + 1)) A s1 = some ((), s2) ∧ foot p ctx n s2 = some ((), s3) ∧
      s3.eng.failed = false ∧ sA = { s3 with eng := { s3.eng with inHeaderFooter := false } } := by
  rw [process_alone] at hA
  obtain ⟨q1, h1, h2⟩ := Option.bind_eq_some_iff.mp hA
  have h2' := h2
  unfold rest at h2'
  obtain ⟨_, s2, h3, _⟩ := bind_some h2'
  obtain ⟨s3, h4, h5, _, h6⟩ := (rest_eq h3).mp ⟨h2, hr⟩
  exact ⟨q1.2, s2, s3, h1, h3, h4, h5, h6⟩

private theorem foot_font (hh : FontFree ctx.classes ctx.header) (hf : FontFree ctx.classes ctx.footer) (h : foot p ctx n s2 = some ((), s3)) :
    s3.curr.font = s2.curr.font := by
  have hk : Known (LeavesFont ctx.classes) ctx.footer := fun i hi st hst m hm => hf i hi st hst m hm
  unfold foot at h
  rw [callback_eq] at h
  obtain ⟨q, hq, he⟩ := Option.map_eq_some_iff.mp h
  have key := processInstrs_K (leaves_closed ctx.classes s2.curr.font) (leaves_calls (p := p) hh hf s2.curr.font n) ctx.footer hk
  have := (key { s2 with eng := { s2.eng with inHeaderFooter := true }, prevent := true } ⟨trivial, rfl⟩ q.1 q.2 hq).2.2
  simp only [Prod.mk.injEq, true_and] at he
  rw [← he]
  exact this

private theorem fontOnly_color {sty : Styles} (h : FontOnly sty) : sty.color.text = ⟨0, 0, 0⟩ := by
  obtain ⟨f, rfl⟩ := h
  show defaultStyle.color.text = _
  decide +kernel

private theorem joined (hh : FontFree ctx.classes ctx.header) (hf : FontFree ctx.classes ctx.footer) {rA : PdfResult} {sA : PState Fpdf}
    (hA : process (Fpdf.engine p) { ctx with body := A } n (newProcessor (Fpdf.new p)) = some (rA, sA)) (hr : rA.failed = false)
    (hd : sA.curr.font = defaultStyle.font) (th : TextsOk (Fine j sA.eng.page) ctx.header) (tf : TextsOk (Fine j sA.eng.page) ctx.footer)
    (tb : TextsOk (Fine j sA.eng.page) B) (pages : Nat) (out : List Mark) :
    ComesOut (Fpdf.engine p) p ctx n (A ++ .pageBreak :: B) pages out ↔ ∃ pagesB outB, ComesOut (numberedFrom j p) p ctx n B pagesB outB ∧
      pages = sA.eng.page + pagesB ∧ out = sA.eng.out ++ outB.map (later sA.eng.page) := by
  cases n with
  | zero =>
    rw [process_alone] at hA
    exact absurd hA (by simp [callsAt])
  | succ n =>
    have hA' := hA
    obtain ⟨s1, s2, s3, h1, h2, h3, h4, rfl⟩ := parts hA hr
    obtain ⟨_, g1, g2, _⟩ := start_going h1 h2
    -- the styles
    have o3 : FontOnly s3.curr := by
      have := C44_process_partial hA'
      exact this
    have c3 : s3.curr = defaultStyle := by
      obtain ⟨f, hf⟩ := o3
      have hd : s3.curr.font = defaultStyle.font := hd
      rw [hf] at hd ⊢
      have : f = defaultStyle.font := hd
      rw [this]
    have hre : Reached p { ctx with body := A } (n + 1) A s2 := by
      refine ⟨⟨[], by simp⟩, s1, ?_, ?_⟩
      · rw [callsAt_body]; exact h1
      · rw [callsAt_body, processInstrs_body]; exact h2
    have hin : InStep s2 := C89_between_partial (ctx := { ctx with body := A }) hh hf hre
    have o2 : FontOnly s2.curr := by
      have o1 : FontOnly s1.curr := fontOnly_instr (i := .pageBreak) (p := p) (n := n + 1) (ctx := ctx) (s := start p) ⟨_, rfl⟩ h1
      exact C44_only_font_partial A (n + 1) o1 h2
    have f2 := foot_font hh hf h3
    have hfont : s2.eng.font = defaultStyle.font := hin.font.trans (f2.symm.trans (congrArg Styles.font c3))
    have hcol : s2.eng.color = ⟨0, 0, 0⟩ := by
      rw [hin.color, fontOnly_color o2]
    have hnp : s3.eng.pageCountAlias = b!"{np}" := by
      obtain ⟨u, e1, e2⟩ := callback_sim (ctx := ctx) (going_calls (k := 0) (pre := []) (p := p) ctx n) (all_texts ctx.footer) _
        { s2 with eng := { s2.eng with inHeaderFooter := true } } ⟨⟨rfl, g1, g2, List.nil_prefix⟩, rfl, rfl⟩ () s3 h3
      exact e2.1.2.2.1
    have hw0 : (start p).eng.failed = false := by
      have w2 : Well s2.eng := (callback_ag (well_calls (p := p) ctx n) ctx.footer _ _ _ h3 h4).2
      have w1 : Well s1.eng := (processInstrs_ag (well_calls (p := p) ctx (n + 1)) A _ _ _ h2 w2).2
      exact ((well_calls (p := p) ctx (n + 1)).add _ _ _ h1 w1).2
    obtain ⟨k1, k2⟩ := go_on (s3 := s3) (r := { written := [], failed := false }) (B := B) th tf tb h3 g1 hfont hcol c3 hnp (h4.trans hw0.symm)
    have eAB : process (Fpdf.engine p) { ctx with body := A ++ .pageBreak :: B } (n + 1) (newProcessor (Fpdf.new p)) =
        ((callsAt (Fpdf.engine p) ctx (n + 1)).addPage >>= fun _ => rest (Fpdf.engine p) ctx (n + 1) B) s2 := by
      rw [process_joined, h1]
      simp only [Option.bind_some]
      rw [h2]
      rfl
    have hres : ∀ (eng : Engine Fpdf) (s s' : PState Fpdf) (r : PdfResult), eng.writePDF = Fpdf.writePDF →
        ((callsAt eng ctx (n + 1)).addPage >>= fun _ => rest eng ctx (n + 1) B) s = some (r, s') → r.failed = false → r = { written := [], failed := false } := by
      intro eng s s' r he h hr
      obtain ⟨_, t1, _, h⟩ := bind_some h
      unfold rest at h
      obtain ⟨_, t2, _, h⟩ := bind_some h
      obtain ⟨b, t3, _, h⟩ := bind_some h
      cases b with
      | true =>
        simp only [if_true, Pure.pure, StateT.pure, Option.some.injEq, Prod.mk.injEq] at h
        rw [← h.1] at hr
        exact absurd hr (by simp)
      | false =>
        simp only [Bool.false_eq_true, if_false, runWith, he, Fpdf.writePDF, runProg] at h
        split at h
        · exact absurd h (by simp)
        · simp only [Option.some.injEq, Prod.mk.injEq] at h
          rw [← h.1] at hr ⊢
          simp only at hr ⊢
          rw [hr]
    constructor
    · rintro ⟨r, s, h, hr, rfl, rfl⟩
      rw [eAB] at h
      have := hres _ _ _ _ rfl h hr
      subst this
      obtain ⟨t, h5, h6, h7⟩ := k2 s h
      refine ⟨t.eng.page, t.eng.out, ⟨{ written := [], failed := false }, t, ?_, rfl, rfl, rfl⟩, ?_, ?_⟩
      · rw [process_start]; exact h5
      · rw [h7]; exact Nat.add_comm _ _
      · rw [h7]
    · rintro ⟨pB, oB, ⟨r, s, h, hr, rfl, rfl⟩, rfl, rfl⟩
      rw [process_start] at h
      have := hres _ _ _ _ rfl h hr
      subst this
      obtain ⟨t, h5, h6, h7⟩ := k1 s h
      exact ⟨{ written := [], failed := false }, t, eAB.trans h5, rfl, by rw [h7]; exact Nat.add_comm _ _, by rw [h7]⟩

/-! ### The theorems -/

/-- C108: whatever comes after a page break, what is before it comes out as a document of its own would, on pages of its own, and first. -/
theorem C108_first {pages : Nat} {out : List Mark} (h : ComesOut (Fpdf.engine p) p ctx n (A ++ .pageBreak :: B) pages out) :
    ∃ pagesA outA, ComesOut (Fpdf.engine p) p ctx n A pagesA outA ∧ pagesA < pages ∧ outA <+: out := by
  cases n with
  | zero =>
    obtain ⟨r, s, h, _⟩ := h
    rw [process_joined] at h
    exact absurd h (by simp [callsAt])
  | succ n =>
    obtain ⟨r, s, h, hr, rfl, rfl⟩ := h
    rw [process_joined] at h
    obtain ⟨q1, h1, h⟩ := Option.bind_eq_some_iff.mp h
    obtain ⟨q2, h2, h⟩ := Option.bind_eq_some_iff.mp h
    obtain ⟨_, s4, h3, h4⟩ := bind_some h
    obtain ⟨_, g1, g2, _⟩ := start_going h1 h2
    have h3' := h3
    rw [add_eq g1] at h3
    obtain ⟨q3, h5, h6⟩ := Option.bind_eq_some_iff.mp h3
    -- no error so far
    have w4 : Well s4.eng := by
      have h4' := h4
      unfold rest at h4'
      obtain ⟨_, t2, h7, _⟩ := bind_some h4'
      obtain ⟨t3, h8, h9, _⟩ := (rest_eq h7).mp ⟨h4, hr⟩
      have w2 : Well t2.eng := (callback_ag (well_calls (p := p) ctx n) ctx.footer _ _ _ h8 h9).2
      exact (processInstrs_ag (well_calls (p := p) ctx (n + 1)) B _ _ _ h7 w2).2
    have w3 : Well q3.2.eng := (runProg_ag (callback_ag (well_calls ctx n) _) (callback_ag (well_calls ctx n) _) (Fpdf.turn p q2.2.eng.font q2.2.eng.color
      { q3.2.eng with inHeaderFooter := false }) q3.2.eng ⟨id, fun _ => id⟩ _ _ _ h6 w4).2
    -- what is on the pages
    have np3 : q3.2.eng.pageCountAlias = b!"{np}" := by
      obtain ⟨u, _, e2⟩ := callback_sim (ctx := ctx) (going_calls (k := 0) (pre := []) (p := p) ctx n) (all_texts ctx.footer) _
        { q2.2 with eng := { q2.2.eng with inHeaderFooter := true } } ⟨⟨rfl, g1, g2, List.nil_prefix⟩, rfl, rfl⟩ () q3.2 h5
      exact e2.1.2.2.1
    have g4 : PRel (Going q3.2.eng.page q3.2.eng.out) s4 s4 := by
      obtain ⟨u, e1, e2⟩ := runProg_sim (callback_sim (ctx := ctx) (going_calls (k := q3.2.eng.page) (pre := q3.2.eng.out) (p := p) ctx n) (all_texts ctx.header))
        (callback_sim (ctx := ctx) (going_calls (k := q3.2.eng.page) (pre := q3.2.eng.out) (p := p) ctx n) (all_texts ctx.footer)) _ _
        (going_turn (p := p) (e := { q3.2.eng with inHeaderFooter := false }) q2.2.eng.font q2.2.eng.color ⟨rfl, le_refl _, np3, List.prefix_refl _⟩) q3.2 q3.2 rfl rfl () s4 h6
      have : some ((), u) = some ((), s4) := e1.symm.trans h6
      simp only [Option.some.injEq, Prod.mk.injEq, true_and] at this
      exact this ▸ e2
    have g5 : Sim (Going q3.2.eng.page q3.2.eng.out) (rest (Fpdf.engine p) ctx (n + 1) B) (rest (Fpdf.engine p) ctx (n + 1) B) := by
      unfold rest
      refine (processInstrs_sim (going_calls ctx (n + 1)) (all_texts B)).bind fun _ => (Sim.ask (by rintro a b ⟨rfl, _⟩; rfl)).bind fun f =>
        Sim.ite (fun _ => Sim.pure _) fun _ => runWith_sim (going_calls ctx n) (all_texts _) (all_texts _) ?_
      rintro a b ⟨rfl, ha⟩
      refine ⟨⟨rfl, ha⟩, ?_⟩
      rintro c d ⟨rfl, hc⟩
      exact ⟨⟨rfl, hc⟩, rfl⟩
    obtain ⟨u, _, e2⟩ := g5 s4 s4 g4 r s h4
    refine ⟨q3.2.eng.page, q3.2.eng.out, ⟨{ written := [], failed := false }, { q3.2 with eng := { q3.2.eng with inHeaderFooter := false } }, ?_, rfl, rfl, rfl⟩,
      e2.1.2.1, e2.1.2.2.2⟩
    rw [process_alone, h1]
    exact ((rest_eq h2).mpr ⟨q3.2, h5, w3, rfl, rfl⟩).1

/-- C108: a document that consists of two parts with a page break in between comes out as the two parts do, one after the other: the second one with
its pages numbered on.  Header and footer do not touch the font, and after the first part the current font is the default one. -/
theorem C108_joined (hh : FontFree ctx.classes ctx.header) (hf : FontFree ctx.classes ctx.footer) {rA : PdfResult} {sA : PState Fpdf}
    (hA : process (Fpdf.engine p) { ctx with body := A } n (newProcessor (Fpdf.new p)) = some (rA, sA)) (hr : rA.failed = false)
    (hd : sA.curr.font = defaultStyle.font) (B : List Instr) (pages : Nat) (out : List Mark) :
    ComesOut (Fpdf.engine p) p ctx n (A ++ .pageBreak :: B) pages out ↔ ∃ pagesB outB, ComesOut (numberedFrom sA.eng.page p) p ctx n B pagesB outB ∧
      pages = sA.eng.page + pagesB ∧ out = sA.eng.out ++ outB.map (later sA.eng.page) :=
  joined hh hf hA hr hd (fun _ _ _ _ => .inl rfl) (fun _ _ _ _ => .inl rfl) (fun _ _ _ _ => .inl rfl) pages out

/-- C108: if no text shows the number of its page, both parts come out just as they do on their own. -/
theorem C108_plain (hh : FontFree ctx.classes ctx.header) (hf : FontFree ctx.classes ctx.footer) {rA : PdfResult} {sA : PState Fpdf}
    (hA : process (Fpdf.engine p) { ctx with body := A } n (newProcessor (Fpdf.new p)) = some (rA, sA)) (hr : rA.failed = false)
    (hd : sA.curr.font = defaultStyle.font) (nh : NoPageNumber ctx.header) (nf : NoPageNumber ctx.footer) (nb : NoPageNumber B) (pages : Nat) (out : List Mark) :
    ComesOut (Fpdf.engine p) p ctx n (A ++ .pageBreak :: B) pages out ↔ ∃ pagesB outB, ComesOut (Fpdf.engine p) p ctx n B pagesB outB ∧
      pages = sA.eng.page + pagesB ∧ out = sA.eng.out ++ outB.map (later sA.eng.page) := by
  have := joined (j := 0) hh hf hA hr hd (fun i hi t ht => .inr (nh i hi t ht)) (fun i hi t ht => .inr (nf i hi t ht)) (fun i hi t ht => .inr (nb i hi t ht)) pages out
  rwa [numberedFrom_zero] at this

/-- A document that does not touch the font ends with the default font. -/
theorem font_kept (hh : FontFree ctx.classes ctx.header) (hf : FontFree ctx.classes ctx.footer) (ha : FontFree ctx.classes A) {rA : PdfResult} {sA : PState Fpdf}
    (hA : process (Fpdf.engine p) { ctx with body := A } n (newProcessor (Fpdf.new p)) = some (rA, sA)) (hr : rA.failed = false) :
    sA.curr.font = defaultStyle.font := by
  cases n with
  | zero =>
    rw [process_alone] at hA
    exact absurd hA (by simp [callsAt])
  | succ n =>
    obtain ⟨s1, s2, s3, h1, h2, h3, _, rfl⟩ := parts hA hr
    have hk : Known (LeavesFont ctx.classes) A := fun i hi st hst m hm => ha i hi st hst m hm
    have hc := leaves_calls (p := p) hh hf defaultStyle.font (n + 1)
    have f1 : s1.curr.font = defaultStyle.font := (hc.add (start p) ⟨trivial, rfl⟩ _ _ h1).2.2
    have f2 : s2.curr.font = defaultStyle.font := (processInstrs_K (leaves_closed ctx.classes defaultStyle.font) hc A hk s1 ⟨trivial, f1⟩ _ _ h2).2.2
    exact (foot_font hh hf h3).trans f2

private theorem hasText_chapters (P : List Instr → Prop) (hn : ∀ a b, P a → P b → P (a ++ .pageBreak :: b)) : ∀ (A : List Instr) (Bs : List (List Instr)),
    (∀ X ∈ A :: Bs, P X) → P (chapters A Bs)
  | A, [], h => h A (by simp)
  | A, B :: Bs, h => hn _ _ (h A (by simp)) (hasText_chapters P hn B Bs fun X hX => h X (List.mem_cons_of_mem _ hX))

/-- C108: a document of chapters, each one on a new page, comes out as its chapters do, boundTogether together.  No style of it touches the font, and no text
of it shows the number of its page. -/
theorem C108_chapters (hh : FontFree ctx.classes ctx.header) (hf : FontFree ctx.classes ctx.footer) (nh : NoPageNumber ctx.header) (nf : NoPageNumber ctx.footer) :
    ∀ (A : List Instr) (Bs : List (List Instr)), (∀ X ∈ A :: Bs, FontFree ctx.classes X ∧ NoPageNumber X) → ∀ pages out,
    ComesOut (Fpdf.engine p) p ctx n (chapters A Bs) pages out ↔
      ∃ rs, List.Forall₂ (fun X (r : Nat × List Mark) => ComesOut (Fpdf.engine p) p ctx n X r.1 r.2) (A :: Bs) rs ∧ boundTogether rs = (pages, out)
  | A, [], _, pages, out => by
    constructor
    · intro h
      exact ⟨[(pages, out)], .cons h .nil, by simp [boundTogether]⟩
    · rintro ⟨rs, h, hb⟩
      cases h with
      | cons h1 h2 =>
        cases h2
        simp only [boundTogether, List.map_nil, List.append_nil, Nat.add_zero, Prod.mk.injEq] at hb
        rw [← hb.1, ← hb.2]
        exact h1
  | A, B :: Bs, hX, pages, out => by
    have hX' : ∀ X ∈ B :: Bs, FontFree ctx.classes X ∧ NoPageNumber X := fun X h => hX X (List.mem_cons_of_mem _ h)
    have hA := hX A (by simp)
    have nb : NoPageNumber (chapters B Bs) := by
      refine hasText_chapters NoPageNumber (fun a b ha hb i hi t ht => ?_) B Bs fun X h => (hX' X h).2
      rcases List.mem_append.mp hi with hi | hi
      · exact ha i hi t ht
      · rcases List.mem_cons.mp hi with rfl | hi
        · cases ht
        · exact hb i hi t ht
    have ih := C108_chapters hh hf nh nf B Bs hX'
    constructor
    · intro h
      obtain ⟨pA, oA, hcA, _⟩ := C108_first (B := chapters B Bs) h
      obtain ⟨rA, sA, h1, h2, rfl, rfl⟩ := hcA
      obtain ⟨pB, oB, h3, rfl, rfl⟩ := (C108_plain hh hf h1 h2 (font_kept hh hf hA.1 h1 h2) nh nf nb _ _).mp h
      obtain ⟨rs, h4, h5⟩ := (ih _ _).mp h3
      exact ⟨(sA.eng.page, sA.eng.out) :: rs, .cons ⟨rA, sA, h1, h2, rfl, rfl⟩ h4, by simp only [boundTogether, h5]⟩
    · rintro ⟨rs, h, hb⟩
      cases h with
      | @cons _ r _ rs hcA h2 =>
        obtain ⟨rA, sA, h3, h4, e1, e2⟩ := hcA
        have hB := (ih (boundTogether rs).1 (boundTogether rs).2).mpr ⟨rs, h2, rfl⟩
        refine (C108_plain hh hf h3 h4 (font_kept hh hf hA.1 h3 h4) nh nf nb _ _).mpr ⟨_, _, hB, ?_, ?_⟩
        · rw [e1]; exact (congrArg Prod.fst hb).symm
        · rw [e1, e2]; exact (congrArg Prod.snd hb).symm

/-! ### Examples -/

private def plain : Styled := ⟨[], []⟩

/-- A line with the number of the page at the top of each page, a line at the bottom. -/
private def exCtx : Ctx :=
  { classes := [], header := [.setY 2, .text plain [.textBlock b!"page {cp}"]], footer := [.setY 95, .text plain [.textBlock b!"end"]], body := [],
    hyphenate := exHyph, resolve := id, describe := fun _ => none }

private theorem exFree : FontFree exCtx.classes exCtx.header ∧ FontFree exCtx.classes exCtx.footer := by
  constructor
  · intro i hi st hst m hm sty
    simp only [exCtx, List.mem_cons, List.not_mem_nil, or_false] at hi
    rcases hi with rfl | rfl
    · cases hst
    · cases hst with
      | text => cases hm with
        | inline h => exact absurd h (by simp [plain])
        | own h _ => exact absurd h (by simp [plain])
        | selector h _ _ => exact absurd h (by simp [plain])
      | textIn h1 h2 =>
        simp only [List.mem_singleton] at h1
        subst h1
        cases h2
  · intro i hi st hst m hm sty
    simp only [exCtx, List.mem_cons, List.not_mem_nil, or_false] at hi
    rcases hi with rfl | rfl
    · cases hst
    · cases hst with
      | text => cases hm with
        | inline h => exact absurd h (by simp [plain])
        | own h _ => exact absurd h (by simp [plain])
        | selector h _ _ => exact absurd h (by simp [plain])
      | textIn h1 h2 =>
        simp only [List.mem_singleton] at h1
        subst h1
        cases h2

private structure SeenText where
  page : Nat
  size : ℚ
  text : Str
deriving DecidableEq

private structure JoinedOutcome where
  failed : Bool
  pages : Nat
  font : Font
  texts : List SeenText
deriving DecidableEq

private def run (eng : Engine Fpdf) (body : List Instr) : Option JoinedOutcome :=
  (process eng { exCtx with body := body } 2 (newProcessor (Fpdf.new exPaper))).map fun x => ⟨x.1.failed, x.2.eng.page, x.2.curr.font,
    x.2.eng.out.filterMap fun | .text n _ _ f _ t => some ⟨n, f.pointSize, t⟩ | _ => none⟩

private def first : List Instr := [.text plain [.textBlock b!"one"], .pageBreak, .text plain [.textBlock b!"two"]]
private def second : List Instr := [.text ⟨[[([0, 1], .flt 20)]], []⟩ [.textBlock b!"three"]]

/-- Two pages, one page in a larger font (as page 3), and both together. -/
example : run (Fpdf.engine exPaper) first = some ⟨false, 2, defaultStyle.font, [⟨1, 12, b!"page"⟩, ⟨1, 12, b!" 1"⟩, ⟨1, 12, b!"one"⟩, ⟨1, 12, b!"end"⟩,
    ⟨2, 12, b!"page"⟩, ⟨2, 12, b!" 2"⟩, ⟨2, 12, b!"two"⟩, ⟨2, 12, b!"end"⟩]⟩ := by
  decide +kernel

example : run (numberedFrom 2 exPaper) second = some ⟨false, 1, { defaultStyle.font with pointSize := 20 },
    [⟨1, 12, b!"page"⟩, ⟨1, 12, b!" 3"⟩, ⟨1, 20, b!"three"⟩, ⟨1, 20, b!"end"⟩]⟩ := by
  decide +kernel

example : run (Fpdf.engine exPaper) (first ++ .pageBreak :: second) = some ⟨false, 3, { defaultStyle.font with pointSize := 20 },
    [⟨1, 12, b!"page"⟩, ⟨1, 12, b!" 1"⟩, ⟨1, 12, b!"one"⟩, ⟨1, 12, b!"end"⟩, ⟨2, 12, b!"page"⟩, ⟨2, 12, b!" 2"⟩, ⟨2, 12, b!"two"⟩, ⟨2, 12, b!"end"⟩,
     ⟨3, 12, b!"page"⟩, ⟨3, 12, b!" 3"⟩, ⟨3, 20, b!"three"⟩, ⟨3, 20, b!"end"⟩]⟩ := by
  decide +kernel

/-- The hypotheses of `C108_joined` hold here. -/
example : FontFree exCtx.classes exCtx.header ∧ FontFree exCtx.classes exCtx.footer ∧ ∃ rA sA,
    process (Fpdf.engine exPaper) { exCtx with body := first } 2 (newProcessor (Fpdf.new exPaper)) = some (rA, sA) ∧ rA.failed = false ∧
    sA.curr.font = defaultStyle.font := by
  refine ⟨exFree.1, exFree.2, ?_⟩
  have h : (process (Fpdf.engine exPaper) { exCtx with body := first } 2 (newProcessor (Fpdf.new exPaper))).map (fun x => (x.1.failed, x.2.curr.font)) =
      some (false, defaultStyle.font) := by decide +kernel
  obtain ⟨q, h1, h2⟩ := Option.map_eq_some_iff.mp h
  simp only [Prod.mk.injEq] at h2
  exact ⟨q.1, q.2, h1, h2.1, h2.2⟩

private theorem line_free (w : Str) : FontFree [] [.text plain [.textBlock w]] := by
  intro i hi st hst m hm sty
  simp only [List.mem_singleton] at hi
  subst hi
  cases hst with
  | text => cases hm with
    | inline h => exact absurd h (by simp [plain])
    | own h _ => exact absurd h (by simp [plain])
    | selector h _ _ => exact absurd h (by simp [plain])
  | textIn h1 h2 =>
    simp only [List.mem_singleton] at h1
    subst h1
    cases h2

private theorem line_plain {w : Str} (hw : ¬ b!"{cp}" <:+: w) : NoPageNumber [.text plain [.textBlock w]] := by
  intro i hi t ht
  simp only [List.mem_singleton] at hi
  subst hi
  cases ht with
  | text h1 h2 =>
    simp only [List.mem_singleton] at h1
    subst h1
    cases h2
    exact hw

/-- The hypotheses of `C108_chapters` hold for three chapters of a line each, with no header and a line as footer. -/
example (pages : Nat) (out : List Mark) : ComesOut (Fpdf.engine exPaper) exPaper { exCtx with header := [], footer := [.text plain [.textBlock b!"end"]] } 2
      (chapters [.text plain [.textBlock b!"one"]] [[.text plain [.textBlock b!"two"]], [.text plain [.textBlock b!"three"]]]) pages out ↔
    ∃ rs, List.Forall₂ (fun X (r : Nat × List Mark) => ComesOut (Fpdf.engine exPaper) exPaper
        { exCtx with header := [], footer := [.text plain [.textBlock b!"end"]] } 2 X r.1 r.2)
      [[.text plain [.textBlock b!"one"]], [.text plain [.textBlock b!"two"]], [.text plain [.textBlock b!"three"]]] rs ∧ boundTogether rs = (pages, out) := by
  refine C108_chapters ?_ ?_ ?_ ?_ _ _ ?_ pages out
  · intro i hi; exact absurd hi (by simp)
  · exact line_free _
  · intro i hi; exact absurd hi (by simp)
  · exact line_plain (by decide)
  · intro X hX
    simp only [List.mem_cons, List.not_mem_nil, or_false] at hX
    rcases hX with rfl | rfl | rfl
    · exact ⟨line_free _, line_plain (by decide)⟩
    · exact ⟨line_free _, line_plain (by decide)⟩
    · exact ⟨line_free _, line_plain (by decide)⟩

/-- C108: the condition on the font is needed: the other way round, the texts of the second part are written in the font of the first one. -/
theorem C108_font : run (Fpdf.engine exPaper) (second ++ .pageBreak :: first) = some ⟨false, 3, { defaultStyle.font with pointSize := 20 },
    [⟨1, 12, b!"page"⟩, ⟨1, 12, b!" 1"⟩, ⟨1, 20, b!"three"⟩, ⟨1, 20, b!"end"⟩, ⟨2, 20, b!"page"⟩, ⟨2, 20, b!" 2"⟩, ⟨2, 20, b!"one"⟩, ⟨2, 20, b!"end"⟩,
     ⟨3, 20, b!"page"⟩, ⟨3, 20, b!" 3"⟩, ⟨3, 20, b!"two"⟩, ⟨3, 20, b!"end"⟩]⟩ := by
  decide +kernel

end Verif.Props
