import Verif.Proofs.Locality
import Verif.Props.Pages
import Verif.Spec.Neat
/-
C103: what is put on the pages does not depend on what comes later in the document.
-/
namespace Verif.Props
open Verif.Go Verif.Model Verif.Spec Verif.Proofs

variable {p : Paper} {ctx : Ctx} {n : Nat} {a b b' : List Instr} {r r0 r' : PdfResult} {s s0 s1 s1' : PState Fpdf}

/-- The marks added to `o` are not on pages before `k`. -/
private def Later (o : List Mark) (k : Nat) (e : Fpdf) : Prop :=
  k ≤ e.page ∧ ∃ new, e.out = o ++ new ∧ ∀ m ∈ new, ∀ q, Mark.on m = some q → k ≤ q

private theorem later_snoc {o : List Mark} {k : Nat} {e : Fpdf} (h : Later o k e) {m : Mark} (hm : ∀ q, Mark.on m = some q → q = e.page) :
    Later o k { e with out := e.out ++ [m] } := by
  obtain ⟨h1, new, h2, h3⟩ := h
  refine ⟨h1, new ++ [m], by simp [h2], fun x hx q hq => ?_⟩
  rcases List.mem_append.mp hx with hx | hx
  · exact h3 x hx q hq
  · rw [List.mem_singleton.mp hx] at hq
    rw [hm q hq]; exact h1

private theorem later_lasts (o : List Mark) (k : Nat) : Lasting (Later o k) (fun _ => True) where
  keep e e' h ho hp _ := ⟨le_trans h.1 hp, by rw [ho]; exact h.2⟩
  text e _ _ _ _ _ _ h := later_snoc h fun q hq => by simpa [Mark.on, eq_comm] using hq
  image e _ _ _ _ _ h := later_snoc h fun q hq => by simpa [Mark.on, eq_comm] using hq
  draw e _ h := later_snoc h fun q hq => by simpa [Mark.on, eq_comm] using hq
  page e h := later_snoc h fun q hq => by simp [Mark.on] at hq
  feed e h := later_snoc h fun q hq => by simpa [Mark.on, eq_comm] using hq

private theorem later_refl (e : Fpdf) : Later e.out e.page e := ⟨le_rfl, [], by simp, by simp⟩

/-- A page that was added has a number. -/
private theorem addPage_pos {s s' : PState Fpdf} (h : (callsAt (Fpdf.engine p) ctx n).addPage s = some ((), s')) : 0 < s'.eng.page := by
  rcases Nat.eq_zero_or_pos s.eng.page with h0 | h0
  · cases n with
    | zero => exact absurd h (by simp [callsAt])
    | succ n =>
      replace h : runProg (callback (Fpdf.engine p) ctx (callsAt (Fpdf.engine p) ctx n) ctx.header) (callback (Fpdf.engine p) ctx (callsAt (Fpdf.engine p) ctx n) ctx.footer)
        (Fpdf.addPage p s.eng) s = some ((), s') := h
      unfold Fpdf.addPage at h
      rw [if_neg (by omega)] at h
      unfold Fpdf.turn runProg at h
      cases hc : callback (Fpdf.engine p) ctx (callsAt (Fpdf.engine p) ctx n) ctx.header { s with eng := { s.eng with page := s.eng.page + 1, x := p.margins.left, y := p.margins.top, inHeaderFooter := true, out := s.eng.out ++ [.page] } } with
      | none => rw [hc] at h; exact absurd h (by simp)
      | some q =>
        rw [hc] at h
        have := header_page hc rfl
        simp only [runProg, Option.some.injEq, Prod.mk.injEq, true_and] at h
        rw [← h]
        show 0 < q.2.eng.page
        rw [this]; simp
  · exact lt_of_lt_of_le h0 (((later_lasts s.eng.out s.eng.page).calls (Texts.all _) n).2.1 s (later_refl _) () s' h).2.1

/-- Writing the document out keeps the page, and adds nothing to other pages; without footer, it adds nothing. -/
private theorem writePDF_marks {s s' : PState Fpdf} (hp : 0 < s.eng.page)
    (h : runWith (Fpdf.engine p) ctx (callsAt (Fpdf.engine p) ctx n) (Fpdf.engine p).writePDF s = some (r, s')) :
    s'.eng.page = s.eng.page ∧ Later s.eng.out s.eng.page s'.eng ∧ (ctx.footer = [] → s'.eng.out = s.eng.out) := by
  have h1 := (((later_lasts s.eng.out s.eng.page).calls (p := p) (ctx := ctx) (Texts.all _) n).2.2 (Fpdf.engine p).writePDF
    (fun e he => (later_lasts s.eng.out s.eng.page).writePDF he) s (later_refl _) r s' h).2
  replace h : runProg (callback (Fpdf.engine p) ctx (callsAt (Fpdf.engine p) ctx n) ctx.header) (callback (Fpdf.engine p) ctx (callsAt (Fpdf.engine p) ctx n) ctx.footer)
        (Fpdf.writePDF s.eng) s = some (r, s') := h
  unfold Fpdf.writePDF runProg at h
  cases hc : callback (Fpdf.engine p) ctx (callsAt (Fpdf.engine p) ctx n) ctx.footer { s with eng := { s.eng with inHeaderFooter := true } } with
  | none => rw [hc] at h; exact absurd h (by simp)
  | some q =>
    rw [hc] at h
    have h2 := footer_page hc rfl hp
    simp only [runProg, Option.some.injEq, Prod.mk.injEq] at h
    obtain ⟨_, rfl⟩ := h
    refine ⟨h2, h1, fun hf => ?_⟩
    rw [hf, callback_eq] at hc
    simp only [processInstrs, Pure.pure, StateT.pure, Option.map_some, Option.some.injEq] at hc
    rw [← hc]
    rfl

/-- The two runs come apart where the shorter document ends. -/
private theorem apart (h0 : process (Fpdf.engine p) { ctx with body := a } n s = some (r0, s0))
    (h : process (Fpdf.engine p) { ctx with body := a ++ b } n s = some (r, s1)) :
    ∃ common : List Mark, Later common s0.eng.page s0.eng ∧ Later common s0.eng.page s1.eng ∧ (ctx.footer = [] → s0.eng.out = common) := by
  obtain ⟨u, e1, e2, h1⟩ := C47_written h0
  obtain ⟨v, e3, e4, h2⟩ := C47_written h
  simp only [callsAt_body, processInstrs_body, runWith_body] at h1 h2 e2 e4
  obtain ⟨q, hq, h1⟩ := Option.bind_eq_some_iff.mp h1
  obtain ⟨q', hq', h2⟩ := Option.bind_eq_some_iff.mp h2
  rw [hq] at hq'
  cases hq'
  have hpos := addPage_pos hq
  rw [C54_in_order, bind_eq, h1] at h2
  replace h2 : processInstrs (Fpdf.engine p) ctx (callsAt (Fpdf.engine p) ctx n) b u = some ((), v) := h2
  obtain ⟨w1, w2, _⟩ := (later_lasts u.eng.out u.eng.page).calls (p := p) (ctx := ctx) (Texts.all _) n
  obtain ⟨w3, w4, _⟩ := (later_lasts q.2.eng.out q.2.eng.page).calls (p := p) (ctx := ctx) (Texts.all _) n
  have hu : 0 < u.eng.page := lt_of_lt_of_le hpos
    (processInstrs_le ((later_lasts _ _).rel (p := p) w3 w4) (Texts.all _) a (Or.inl w4) q.2 (later_refl _) _ _ h1).2.1
  have hv := (processInstrs_le ((later_lasts _ _).rel (p := p) w1 w2) (Texts.all _) b (Or.inl w2) u (later_refl _) _ _ h2).2
  have hs1 : Later u.eng.out u.eng.page s1.eng := by
    cases hf : (Fpdf.engine p).failed v.eng with
    | true => rw [(e3 hf).2]; exact hv
    | false =>
      exact (((later_lasts u.eng.out u.eng.page).calls (p := p) (ctx := ctx) (Texts.all _) (n - 1)).2.2 (Fpdf.engine p).writePDF
        (fun e he => (later_lasts u.eng.out u.eng.page).writePDF he) v hv _ _ (e4 hf)).2
  cases hf : (Fpdf.engine p).failed u.eng with
  | true =>
    rw [(e1 hf).2]
    exact ⟨u.eng.out, later_refl _, hs1, fun _ => rfl⟩
  | false =>
    obtain ⟨g1, g2, g3⟩ := writePDF_marks hu (e2 hf)
    rw [g1]
    exact ⟨u.eng.out, g2, hs1, g3⟩

/-- C103: documents that only differ in that the body of one goes on.  The longer one has at least the pages of the shorter one; what both put on the pages
is the same up to a point, and what comes after it - in the shorter document, and in the longer one - is not on pages before the last page of the shorter
document. -/
theorem C103_common (h0 : process (Fpdf.engine p) { ctx with body := a } n s = some (r0, s0))
    (h : process (Fpdf.engine p) { ctx with body := a ++ b } n s = some (r, s1)) : s0.eng.page ≤ s1.eng.page ∧
    ∃ common foot more, s0.eng.out = common ++ foot ∧ s1.eng.out = common ++ more ∧ ∀ m ∈ foot ++ more, ∀ k, Mark.on m = some k → s0.eng.page ≤ k := by
  obtain ⟨common, ⟨_, foot, g1, g2⟩, ⟨g3, more, g4, g5⟩, _⟩ := apart h0 h
  refine ⟨g3, common, foot, more, g1, g4, fun m hm => ?_⟩
  rcases List.mem_append.mp hm with hm | hm
  · exact g2 m hm
  · exact g5 m hm

private theorem later_filter {o : List Mark} {k q : Nat} {e : Fpdf} (h : Later o k e) (hq : q < k) :
    e.out.filter (fun m => Mark.on m = some q) = o.filter (fun m => Mark.on m = some q) := by
  obtain ⟨_, new, h1, h2⟩ := h
  have h3 : new.filter (fun m => Mark.on m = some q) = [] := List.filter_eq_nil_iff.mpr fun m hm hq' => by
    have := h2 m hm q (by simpa using hq')
    omega
  rw [h1, List.filter_append, h3, List.append_nil]

/-- C103: what comes later in the body has no effect on the pages before it: all pages of the shorter document but its last one are the same in the longer
document, footers included. -/
theorem C103_earlier (h0 : process (Fpdf.engine p) { ctx with body := a } n s = some (r0, s0))
    (h : process (Fpdf.engine p) { ctx with body := a ++ b } n s = some (r, s1)) {k : Nat} (hk : k < s0.eng.page) :
    s1.eng.out.filter (fun m => Mark.on m = some k) = s0.eng.out.filter (fun m => Mark.on m = some k) := by
  obtain ⟨common, g1, g2, _⟩ := apart h0 h
  rw [later_filter g1 hk, later_filter g2 hk]

/-- C103: two documents whose bodies begin alike are alike on all pages before the one on which they come apart. -/
theorem C103_edit (h0 : process (Fpdf.engine p) { ctx with body := a } n s = some (r0, s0))
    (h : process (Fpdf.engine p) { ctx with body := a ++ b } n s = some (r, s1)) (h' : process (Fpdf.engine p) { ctx with body := a ++ b' } n s = some (r', s1'))
    {k : Nat} (hk : k < s0.eng.page) :
    s1.eng.out.filter (fun m => Mark.on m = some k) = s1'.eng.out.filter (fun m => Mark.on m = some k) := by
  rw [C103_earlier h0 h hk, C103_earlier h0 h' hk]

/-- C103: without footer, the longer document has all of the shorter one in it, and goes on from there. -/
theorem C103_goes_on (hf : ctx.footer = []) (h0 : process (Fpdf.engine p) { ctx with body := a } n s = some (r0, s0))
    (h : process (Fpdf.engine p) { ctx with body := a ++ b } n s = some (r, s1)) : s0.eng.out <+: s1.eng.out := by
  obtain ⟨common, _, ⟨_, more, g1, _⟩, g3⟩ := apart h0 h
  exact ⟨more, by rw [g3 hf, g1]⟩

/-! ### Examples -/

private def plain : Styled := ⟨[], []⟩

private def para (t : Str) : Instr := .text plain [.paragraph plain t]

private def exDoc (footer body : List Instr) : Ctx :=
  { classes := [], header := [para b!"head"], footer := footer, body := body, hyphenate := exHyph, resolve := id, describe := fun _ => none }

private def run (ctx : Ctx) : Option (PdfResult × PState Fpdf) := process (Fpdf.engine exPaper) ctx 2 (newProcessor (Fpdf.new exPaper))

private def texts (k : Nat) (q : PdfResult × PState Fpdf) : List Str := q.2.eng.out.filterMap fun
  | .text page _ _ _ _ t => if page = k then some t else none
  | _ => none

private def start : List Instr := [para b!"one", .pageBreak, para b!"two"]

private def foot : List Instr := [.setY 95, para b!"page {cp}"]

/- The last page of the shorter document is the second one: the first page is the same, the second one is not. -/
example : (run (exDoc foot start)).map (fun q => (q.2.eng.page, texts 1 q, texts 2 q)) =
    some (2, [b!"head", b!"one", b!"page", b!" 1"], [b!"head", b!"two", b!"page", b!" 2"]) := by decide +kernel

example : (run (exDoc foot (start ++ [para b!"three", .pageBreak, para b!"four"]))).map (fun q => (q.2.eng.page, texts 1 q, texts 2 q, texts 3 q)) =
    some (3, [b!"head", b!"one", b!"page", b!" 1"], [b!"head", b!"two", b!"three", b!"page", b!" 2"], [b!"head", b!"four", b!"page", b!" 3"]) := by
  decide +kernel

example : (run (exDoc foot (start ++ [para b!"3"]))).map (fun q => (q.2.eng.page, texts 1 q, texts 2 q)) =
    some (2, [b!"head", b!"one", b!"page", b!" 1"], [b!"head", b!"two", b!"3", b!"page", b!" 2"]) := by decide +kernel

/- The bound cannot be moved: on the last page of the shorter document there is more in the longer one. -/
example {q q' : PdfResult × PState Fpdf} (h : run (exDoc foot start) = some q) (h' : run (exDoc foot (start ++ [para b!"3"])) = some q') :
    q'.2.eng.out.filter (fun m => Mark.on m = some 1) = q.2.eng.out.filter (fun m => Mark.on m = some 1) ∧ texts 2 q' ≠ texts 2 q := by
  have h1 : (run (exDoc foot start)).map (fun q => (q.2.eng.page, texts 2 q)) = some (2, [b!"head", b!"two", b!"page", b!" 2"]) := by decide +kernel
  have h2 : (run (exDoc foot (start ++ [para b!"3"]))).map (texts 2) = some [b!"head", b!"two", b!"3", b!"page", b!" 2"] := by decide +kernel
  rw [h] at h1
  rw [h'] at h2
  simp only [Option.map_some, Option.some.injEq, Prod.mk.injEq] at h1 h2
  refine ⟨C103_earlier (ctx := exDoc foot []) (a := start) (b := [para b!"3"]) (r0 := q.1) (s0 := q.2) (r := q'.1) (s1 := q'.2) h h' (by rw [h1.1]; decide), ?_⟩
  rw [h1.2, h2]
  decide

end Verif.Props
