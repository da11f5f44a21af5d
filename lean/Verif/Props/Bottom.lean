import Verif.Spec.Bottom
import Verif.Props.InStep
/-
Property C90: the texts of the body are above the bottom margin (/repo/process.go, /repo/engine/fpdf.go).
-/
namespace Verif.Props
open Verif.Go Verif.Model Verif.Proofs Verif.Spec

variable {p : Paper} {ctx : Ctx} {n : Nat} {s s' : PState Fpdf}

/-! ### Nothing is taken off the pages -/

private theorem any_closed (cs : Classes) : Closed cs (fun _ => True) (fun _ => True) := ⟨fun _ _ _ _ => trivial, fun _ _ _ _ _ => trivial, fun _ _ _ _ => trivial⟩

private theorem any_known (iss : List Instr) : Known (fun _ => True) iss := fun _ _ _ _ => trivial

private theorem out_tracks {o : List Mark} {c : Calls Fpdf} (hw : ∀ t, Keep (fun s : PState Fpdf => o <+: s.eng.out ∧ True) (c.writeText t))
    (ha : Keep (fun s : PState Fpdf => o <+: s.eng.out ∧ True) c.addPage) :
    Tracks (Fpdf.engine p) (fun _ => True) (fun s => (fun e : Fpdf => o <+: e.out) s.eng ∧ (fun _ => True) s.curr) c where
  setX _ _ h := h
  setY _ _ h := h
  lineFeed _ _ h := ⟨h.1.trans (List.prefix_append _ _), trivial⟩
  font _ _ _ h := h
  changeFont _ _ _ h := h
  color _ _ _ h := h
  image _ _ _ _ _ _ h := ⟨h.1.trans (List.prefix_append _ _), trivial⟩
  draw _ _ _ _ _ _ cmd _ s h := ⟨h.1.trans (by cases cmd <;> exact List.prefix_append _ _), trivial⟩
  curr _ _ := trivial
  write := hw
  add := ha

private theorem out_turn {o : List Mark} {f : Font} {c : RGB} {e : Fpdf} (h : o <+: e.out) :
    ProgOk (fun e : Fpdf => o <+: e.out) (fun e => o <+: e.out) (fun e => o <+: e.out) (Fpdf.turn p f c e) :=
  ⟨h.trans (List.prefix_append _ _), fun _ h' => h'⟩

private theorem out_addPage {o : List Mark} {e : Fpdf} (h : o <+: e.out) :
    ProgOk (fun e : Fpdf => o <+: e.out) (fun e => o <+: e.out) (fun e => o <+: e.out) (Fpdf.addPage p e) := by
  unfold Fpdf.addPage
  split
  · exact ⟨h, fun e' h' => out_turn (e := { e' with inHeaderFooter := false }) h'⟩
  · exact out_turn h

private theorem out_calls (o : List Mark) (n : Nat) :
    Tracks (Fpdf.engine p) (fun _ => True) (fun s => (fun e : Fpdf => o <+: e.out) s.eng ∧ (fun _ => True) s.curr) (callsAt (Fpdf.engine p) ctx n) := by
  induction n with
  | zero => exact out_tracks (fun t => Le.none) Le.none
  | succ n ih =>
    refine out_tracks (fun t => ?_) ?_
    · refine runWith_K (any_closed ctx.classes) (D := fun e : Fpdf => o <+: e.out) ih (any_known _) (any_known _) _ fun e he => ?_
      show ProgOk _ _ _ (Fpdf.writeText p t e)
      unfold Fpdf.writeText
      split
      · refine progOk_andThen (D := fun e : Fpdf => o <+: e.out) (fun e' _ h' => ?_) (out_addPage he)
        exact List.IsPrefix.trans (l₂ := e'.out) h' (List.prefix_append _ _)
      · exact he.trans (List.prefix_append _ _)
    · exact runWith_K (any_closed ctx.classes) (D := fun e : Fpdf => o <+: e.out) ih (any_known _) (any_known _) _ fun e he => out_addPage he

theorem callback_out {iss : List Instr} (h : callback (Fpdf.engine p) ctx (callsAt (Fpdf.engine p) ctx n) iss s = some ((), s')) :
    s.eng.out <+: s'.eng.out ∧ (0 ≤ s.eng.y → s'.eng.y = s.eng.y) := by
  rw [callback_eq] at h
  obtain ⟨q, hq, he⟩ := Option.map_eq_some_iff.mp h
  have h1 := (processInstrs_K (any_closed ctx.classes) (out_calls (p := p) s.eng.out n) iss (any_known _) { s with prevent := true }
    ⟨List.prefix_refl _, trivial⟩ q.1 q.2 hq).2.1
  simp only [Prod.mk.injEq, true_and] at he
  rw [← he]
  refine ⟨h1, fun hy => ?_⟩
  show (if s.eng.y ≥ 0 then s.eng.y else _) = s.eng.y
  rw [if_pos hy]

/-! ### The invariant -/

/-- Marks that are above the margin or from header and footer, with respect to what is on the pages now. -/
private def Fine (p : Paper) (ctx : Ctx) (e : Fpdf) : Prop := ∀ m ∈ e.out, Above p m ∨ InHeaderFooter p ctx e.out m

private theorem fine_snoc {e e' : Fpdf} {m : Mark} (h : Fine p ctx e) (ho : e'.out = e.out ++ [m]) (hm : Above p m) : Fine p ctx e' := by
  intro x hx
  rw [ho] at hx ⊢
  rcases List.mem_append.mp hx with hx | hx
  · rcases h x hx with h | ⟨n, iss, s, s', new, h1, h2, h3, h4, h5⟩
    · exact Or.inl h
    · exact Or.inr ⟨n, iss, s, s', new, h1, h2, h3, h4, h5.trans (List.prefix_append _ _)⟩
  · simp only [List.mem_singleton] at hx
    exact Or.inl (hx ▸ hm)

private theorem fine_callback {iss : List Instr} (hi : iss = ctx.header ∨ iss = ctx.footer) (hs : Fine p ctx s.eng)
    (h : callback (Fpdf.engine p) ctx (callsAt (Fpdf.engine p) ctx n) iss s = some ((), s')) : Fine p ctx s'.eng := by
  obtain ⟨new, hn⟩ := (callback_out h).1
  intro x hx
  by_cases hx' : x ∈ s.eng.out
  · rcases hs x hx' with h | ⟨k, iss, t, t', l, h1, h2, h3, h4, h5⟩
    · exact Or.inl h
    · exact Or.inr ⟨k, iss, t, t', l, h1, h2, h3, h4, h5.trans ⟨new, hn⟩⟩
  · rw [← hn] at hx
    rcases List.mem_append.mp hx with hx | hx
    · exact absurd hx hx'
    · exact Or.inr ⟨n, iss, s, s', new, hi, h, hn.symm, hx, List.prefix_refl _⟩

/-- A new page, from the body. -/
private theorem addPage_fine (ht : 0 ≤ p.margins.top) {e : Fpdf} {s : PState Fpdf} (hs : Fine p ctx e) {s' : PState Fpdf}
    (h : runProg (callback (Fpdf.engine p) ctx (callsAt (Fpdf.engine p) ctx n) ctx.header) (callback (Fpdf.engine p) ctx (callsAt (Fpdf.engine p) ctx n) ctx.footer)
      (Fpdf.addPage p e) s = some ((), s')) : Fine p ctx s'.eng ∧ s'.eng.inHeaderFooter = false ∧ s'.eng.y = p.margins.top := by
  have hturn : ∀ (f : Font) (c : RGB) (e : Fpdf) (s : PState Fpdf), Fine p ctx e →
      runProg (callback (Fpdf.engine p) ctx (callsAt (Fpdf.engine p) ctx n) ctx.header) (callback (Fpdf.engine p) ctx (callsAt (Fpdf.engine p) ctx n) ctx.footer)
        (Fpdf.turn p f c e) s = some ((), s') → Fine p ctx s'.eng ∧ s'.eng.inHeaderFooter = false ∧ s'.eng.y = p.margins.top := by
    intro f c e s he h
    simp only [Fpdf.turn, runProg] at h
    split at h
    · exact absurd h (by simp)
    · rename_i s1 h1
      simp only [Option.some.injEq, Prod.mk.injEq, true_and] at h
      have hf := fine_callback (Or.inl rfl) (fine_snoc (m := .page) (e' := { e with
        page := e.page + 1, x := p.margins.left, y := p.margins.top, font := f, color := c, inHeaderFooter := true, out := e.out ++ [.page] }) he rfl trivial) h1
      have hy := (callback_out h1).2 ht
      rw [← h]
      exact ⟨hf, rfl, hy⟩
  unfold Fpdf.addPage at h
  split at h
  · simp only [runProg] at h
    split at h
    · exact absurd h (by simp)
    · rename_i s1 h1
      have hf := fine_callback (Or.inr rfl) (show Fine p ctx (PState.eng { s with eng := { e with inHeaderFooter := true } }) from hs) h1
      exact hturn _ _ _ _ hf h
  · exact hturn _ _ _ _ hs h

theorem runProg_andThen {hdr ftr : M Fpdf Unit} {g : Fpdf → Fpdf} : ∀ (pr : Prog Fpdf Unit) (s : PState Fpdf),
    runProg hdr ftr (Fpdf.andThen pr fun e _ => .done (g e) ()) s = (runProg hdr ftr pr s).map fun q => ((), { q.2 with eng := g q.2.eng })
  | .done e a, s => rfl
  | .header e f, s => by
    simp only [Fpdf.andThen, runProg]
    cases hdr { s with eng := e } with
    | none => rfl
    | some q => exact runProg_andThen _ _
  | .footer e f, s => by
    simp only [Fpdf.andThen, runProg]
    cases ftr { s with eng := e } with
    | none => rfl
    | some q => exact runProg_andThen _ _

private def Ok (p : Paper) (ctx : Ctx) (s : PState Fpdf) : Prop := Fine p ctx s.eng ∧ s.eng.inHeaderFooter = false

private theorem ok_tracks {c : Calls Fpdf} (hw : ∀ t, Keep (Ok p ctx) (c.writeText t)) (ha : Keep (Ok p ctx) c.addPage) :
    Tracks (Fpdf.engine p) (fun _ => True) (Ok p ctx) c where
  setX _ _ h := h
  setY _ _ h := h
  lineFeed _ s h := ⟨fine_snoc (m := .feed s.eng.page) h.1 rfl trivial, h.2⟩
  font _ _ _ h := h
  changeFont _ _ _ h := h
  color _ _ _ h := h
  image src x y w hh s h := ⟨fine_snoc (m := .image s.eng.page src x y w hh) h.1 rfl trivial, h.2⟩
  draw _ _ _ _ _ _ cmd _ s h := by cases cmd <;> exact ⟨fine_snoc (m := .draw s.eng.page _) h.1 rfl trivial, h.2⟩
  curr _ _ := trivial
  write := hw
  add := ha

private theorem ok_calls (ht : 0 ≤ p.margins.top) (n : Nat) : Tracks (Fpdf.engine p) (fun _ => True) (Ok p ctx) (callsAt (Fpdf.engine p) ctx n) := by
  cases n with
  | zero => exact ok_tracks (fun t => Le.none) Le.none
  | succ n =>
    refine ok_tracks (fun t s hs a s' h => ⟨h, ?_⟩) (fun s hs a s' h => ⟨h, ?_⟩)
    · simp only [callsAt, runWith] at h
      change runProg _ _ (Fpdf.writeText p t s.eng) s = _ at h
      unfold Fpdf.writeText at h
      split at h
      · rw [runProg_andThen] at h
        obtain ⟨q, hq, h⟩ := Option.map_eq_some_iff.mp h
        obtain ⟨h1, h2, h3⟩ := addPage_fine ht hs.1 hq
        simp only [Prod.mk.injEq] at h
        rw [← h.2]
        exact ⟨fine_snoc (m := .text q.2.eng.page s.eng.x q.2.eng.y q.2.eng.font q.2.eng.color t) h1 rfl (Or.inr h3), h2⟩
      · rename_i hn
        simp only [runProg, Option.some.injEq, Prod.mk.injEq] at h
        rw [← h.2]
        refine ⟨fine_snoc (m := .text s.eng.page s.eng.x s.eng.y s.eng.font s.eng.color t) hs.1 rfl (Or.inl ?_), hs.2⟩
        by_contra hc
        exact hn ⟨not_le.mp hc, by rw [hs.2]; rfl⟩
    · have := addPage_fine ht hs.1 h
      exact ⟨this.1, this.2.1⟩

/-! ### C90 -/

/-- C90: whatever is on the pages of a processed document: each text has room above the bottom margin, or is at the top of a page, or was put there by
header or footer. -/
theorem C90_above (ht : 0 ≤ p.margins.top) {r : PdfResult} (h : process (Fpdf.engine p) ctx n (newProcessor (Fpdf.new p)) = some (r, s')) :
    ∀ m ∈ s'.eng.out, Above p m ∨ InHeaderFooter p ctx s'.eng.out m := by
  obtain ⟨s1, h1, h2, h3⟩ := C47_written h
  obtain ⟨q, hq1, hq2⟩ := Option.bind_eq_some_iff.mp h3
  have hc := ok_calls (ctx := ctx) ht n
  have k1 := (hc.add _ (show Ok p ctx _ from ⟨fun m hm => absurd hm (show m ∉ [] from List.not_mem_nil), rfl⟩) _ _ hq1).2
  have k2 := (processInstrs_K (any_closed ctx.classes) hc ctx.body (any_known _) q.2 k1 _ _ hq2).2
  cases hf : (Fpdf.engine p).failed s1.eng with
  | true => rw [(h1 hf).2]; exact k2.1
  | false =>
    have h4 := h2 hf
    change runProg _ _ (Fpdf.writePDF s1.eng) s1 = _ at h4
    simp only [Fpdf.writePDF, runProg] at h4
    split at h4
    · exact absurd h4 (by simp)
    · rename_i s2 h5
      simp only [Option.some.injEq, Prod.mk.injEq] at h4
      rw [← h4.2]
      have hx := fine_callback (Or.inr rfl) (show Fine p ctx (PState.eng { s1 with eng := { s1.eng with inHeaderFooter := true } }) from k2.1) h5
      exact hx

/-- C90: in particular without header and footer. -/
theorem C90_body (ht : 0 ≤ p.margins.top) (hh : ctx.header = []) (hf : ctx.footer = []) {r : PdfResult}
    (h : process (Fpdf.engine p) ctx n (newProcessor (Fpdf.new p)) = some (r, s')) {page : Nat} {x y : ℚ} {f : Font} {c : RGB} {t : Str}
    (hm : .text page x y f c t ∈ s'.eng.out) : y + lineHeight f ≤ p.height - p.margins.bottom ∨ y = p.margins.top := by
  rcases C90_above ht h _ hm with h | ⟨k, iss, s, s2, new, h1, h2, h3, h4, _⟩
  · exact h
  · have : iss = [] := by rcases h1 with h1 | h1 <;> simp [h1, hh, hf]
    subst this
    rw [callback_eq] at h2
    simp only [processInstrs, Pure.pure, StateT.pure, Option.map_some, Option.some.injEq, Prod.mk.injEq, true_and] at h2
    have e : s2.eng.out = s.eng.out := by rw [← h2]; rfl
    rw [e] at h3
    have : new = [] := List.append_cancel_left (h3.symm.trans (List.append_nil _).symm)
    rw [this] at h4
    exact absurd h4 (by simp)

/-! ### Example -/

private def plain : Styled := ⟨[], []⟩
private def size (q : ℚ) : Styled := ⟨[[([0, 1], .flt q)]], []⟩

private def exDoc : Ctx :=
  { classes := [], header := [], footer := [.setY 95, .text plain [.textBlock b!"foot"]],
    body := [.setY 84, .text plain [.textBlock b!"a", .lineBreak, .textBlock b!"b"], .text (size 300) [.textBlock b!"c"]],
    hyphenate := exHyph, resolve := id, describe := fun _ => none }

private structure Line where
  page : Nat
  y : ℚ
  text : Str
deriving DecidableEq

/-- A page of 100 mm with margins of 10 mm: two lines, the second one on the next page, then a letter taller than the page, at the top of a page
of its own; the footer is below the margin. -/
example : (process (Fpdf.engine exPaper) exDoc 2 (newProcessor (Fpdf.new exPaper))).map (fun r => r.2.eng.out.filterMap fun
    | .text pg _ y _ _ t => some (Line.mk pg y t)
    | _ => none) = some [⟨1, 84, b!"a"⟩, ⟨1, 95, b!"foot"⟩, ⟨2, 10, b!"b"⟩, ⟨2, 95, b!"foot"⟩, ⟨3, 10, b!"c"⟩, ⟨3, 95, b!"foot"⟩] := by decide +kernel

end Verif.Props
