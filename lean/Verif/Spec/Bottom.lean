import Verif.Spec.InStep
/-
What C90 talks about: texts above the bottom margin.
-/
namespace Verif.Spec
open Verif.Go Verif.Model

/-- A text has room above the bottom margin, or is at the very top of the page. -/
def Above (p : Paper) : Mark → Prop
  | .text _ _ y f _ _ => y + lineHeight f ≤ p.height - p.margins.bottom ∨ y = p.margins.top
  | _ => True

/-- What is put on the pages in one run of the header or the footer function; `all` is what is on the pages at the end. -/
def InHeaderFooter (p : Paper) (ctx : Ctx) (all : List Mark) (m : Mark) : Prop :=
  ∃ n iss s s' new, (iss = ctx.header ∨ iss = ctx.footer) ∧ callback (Fpdf.engine p) ctx (callsAt (Fpdf.engine p) ctx n) iss s = some ((), s') ∧
    s'.eng.out = s.eng.out ++ new ∧ m ∈ new ∧ s'.eng.out <+: all

end Verif.Spec
