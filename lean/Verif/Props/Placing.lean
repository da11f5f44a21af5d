import Verif.Proofs.Placing
import Verif.Props.Matters
/-
Property C109: colors, borders and line widths do not affect the layout (/repo/process.go, /repo/draw.go, /repo/table.go, /repo/text.go,
/repo/text-hyph.go, /repo/image.go).
-/
namespace Verif.Props
open Verif.Go Verif.Model Verif.Spec Verif.Proofs

/-- The state of the processor as the plan shows it. -/
private def planState (s : PState Fpdf) : PState Plan := ⟨planOf s.eng, s.curr, s.prevent⟩

private theorem prel_plan {s : PState Fpdf} {u : PState Plan} (h : PRel (fun e b => b = planOf e) s u) : u = planState s := by
  obtain ⟨_, _, _⟩ := u
  obtain ⟨h1, h2, h3⟩ := h
  simp only at h1 h2 h3
  simp only [planState, h1, h2, h3]

private theorem process_planned (p : Paper) (ctx : Ctx) (n : Nat) (s : PState Fpdf) :
    process (Plan.engine p) ctx n (planState s) = (process (Fpdf.engine p) ctx n s).map fun r => (r.1, planState r.2) := by
  cases h : process (Fpdf.engine p) ctx n s with
  | some r =>
    obtain ⟨u, hu, hr⟩ := process_plan p ctx n s (planState s) ⟨rfl, rfl, rfl⟩ r.1 r.2 h
    rw [hu, prel_plan hr]; rfl
  | none =>
    cases h' : process (Plan.engine p) ctx n (planState s) with
    | none => rfl
    | some r =>
      obtain ⟨u, hu, _⟩ := process_back p ctx n (planState s) s ⟨rfl, rfl, rfl⟩ r.1 r.2 h'
      rw [hu] at h
      exact absurd h (by simp)

/-- C109: two documents that differ only in styles, and there only in colors, borders, line widths and what has no effect at all, have the same
layout: with the same start, both panic or none does, the results are the same, and there are the same pages with the same texts in the
same fonts, the same images and boxes at the same places. -/
theorem C109_layout (p : Paper) (hyphenate : Str → List Str) (resolve : Str → Str) (images : Str → Option ImageDesc) {d d' : Document}
    (h : SameInBy places d d') (n : Nat) (s : PState Fpdf) :
    (process (Fpdf.engine p) (ctxOf hyphenate resolve images d) n s).map (fun r => (r.1, placed r.2.eng.out)) =
      (process (Fpdf.engine p) (ctxOf hyphenate resolve images d') n s).map (fun r => (r.1, placed r.2.eng.out)) := by
  have h1 := process_planned p (ctxOf hyphenate resolve images d) n s
  have h2 := process_planned p (ctxOf hyphenate resolve images d') n s
  rw [process_agree (sees_places p) (ctx := ctxOf hyphenate resolve images d) (ctx' := ctxOf hyphenate resolve images d')
    ⟨rfl, rfl, rfl, h.header, h.footer, h.body⟩ n, h1] at h2
  have h3 := congrArg (Option.map fun r : PdfResult × PState Plan => (r.1, r.2.eng.out)) h2
  rw [Option.map_map, Option.map_map] at h3
  exact h3

/-- C109: two style texts for an element are such styles if they have, but for colors, borders and line widths, the same last declarations. -/
theorem C109_texts {fl : Floats} {o o' : MapOrder} {s s' : Str} {ds ds' : List (Str × Str)} {m m' : Mutator} (hs : Decls s ds)
    (hs' : Decls s' ds') (hm : decodeMutator fl o s = some m) (hm' : decodeMutator fl o' s' = some m') (cs : Classes) (use : List Str)
    (e : StyledKind) (h : ∀ p : Prp, p.ofPaint = false → lastValue p.name ds = lastValue p.name ds') :
    AgreeBy places cs cs e ⟨[m], use⟩ ⟨[m'], use⟩ :=
  C86_texts places hs hs' hm hm' cs use e fun p hp => h p (by
    simp only [places, Bool.and_eq_true, Bool.not_eq_true'] at hp; exact hp.2)

/-- C109: all other properties that matter for an element have an effect on the layout: there are two values with different layouts. -/
theorem C109_exact (e : StyledKind) (p : Prp) (h : places e p = true) :
    ∃ v v' : Leaf, (probed e ⟨[[(path p, v)]], []⟩).map placed ≠ (probed e ⟨[[(path p, v')]], []⟩).map placed := by
  refine ⟨(twoValues p).1, (twoValues p).2, ?_⟩
  revert h
  cases e <;> cases p <;> decide +kernel

/-! ### Examples -/

private def plain : Styled := ⟨[], []⟩
private def red : Styled := ⟨[[(path .textColor, .rgb ⟨255, 0, 0⟩)]], []⟩
private def framed : Styled := ⟨[[(path .border, .border ⟨1, 1, 1, 1⟩)]], []⟩
private def thick : Styled := ⟨[[(path .lineWidth, .flt 5)]], []⟩

private def exDoc (st st' st'' : Styled) : Document :=
  { styleClasses := [], info := ⟨[], [], []⟩, page := ⟨[], [], ⟨10, 10, 10, 10⟩⟩, header := [.text st [.textBlock b!"top"]], footer := [],
    body := [.box st' [.paragraph st b!"a"], .table plain 0 [.mk plain [.mk st'' 1 1 [.textBlock b!"b"]]]] }

private theorem paint_only {e : StyledKind} {q : Prp} (h : places e q = true) : q.ofPaint = false := by
  simp only [places, Bool.and_eq_true, Bool.not_eq_true'] at h; exact h.2

private theorem red_plain (e : StyledKind) : AgreeBy places [] [] e red plain :=
  agree_unset [] fun q hq s => by have := paint_only hq; revert this; cases q <;> simp [Prp.ofPaint, Prp.get, setAt, path]
private theorem framed_plain (e : StyledKind) : AgreeBy places [] [] e framed plain :=
  agree_unset [] fun q hq s => by have := paint_only hq; revert this; cases q <;> simp [Prp.ofPaint, Prp.get, setAt, path]
private theorem thick_plain (e : StyledKind) : AgreeBy places [] [] e thick plain :=
  agree_unset [] fun q hq s => by have := paint_only hq; revert this; cases q <;> simp [Prp.ofPaint, Prp.get, setAt, path]

/-- The assumption of C109 holds for a document with colors, borders and line widths and one without. -/
example : SameInBy places (exDoc red framed thick) (exDoc plain plain plain) := by
  have hp : ∀ e, AgreeBy places [] [] e plain plain := fun e => C86_refl _ _ _ _
  exact ⟨.cons (.text (red_plain _) (.cons (.textBlock rfl) .nil)) .nil, .nil,
    .cons (.box (framed_plain _) (.cons (.paragraph (red_plain _) rfl) .nil))
      (.cons (.table 0 (hp _) (.cons (.mk (hp _) (.cons (.mk 1 1 (thick_plain _) (.cons (.textBlock rfl) .nil)) .nil)) .nil)) .nil)⟩

private def shown (d : Document) : Option (List Mark) :=
  (process (Fpdf.engine exPaper) (ctxOf exHyph id (fun _ => none) d) 2 (newProcessor (Fpdf.new exPaper))).map fun r => r.2.eng.out

/-- Both are processed, what is on the pages differs, and the layouts are the same: a page, three texts, two boxes and the ends of lines. -/
example : shown (exDoc red framed thick) ≠ shown (exDoc plain plain plain) ∧
    (shown (exDoc red framed thick)).map placed = (shown (exDoc plain plain plain)).map placed ∧
    ((shown (exDoc red framed thick)).map fun ms => (placed ms).length) = some 9 := by decide +kernel

end Verif.Props
