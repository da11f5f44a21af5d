import Verif.Spec.Typeset
import Verif.Model.Main
/-
What C117 talks about: the program with the engine of the repository, and what is printed.
-/
namespace Verif.Spec
open Verif.Go Verif.Model

/-- The engine of the repository on the paper `p`, which writes what the library makes of the pages: `print` is any function of what is on them.  After an error nothing is
written. -/
def printing (print : List Mark → Str) (p : Paper) : Engine Fpdf :=
  { Fpdf.engine p with
    writePDF := fun e => .footer { e with inHeaderFooter := true } fun e' =>
      .done { e' with inHeaderFooter := false } { written := if e'.failed then [] else print e'.out, failed := e'.failed } }

/-- The program uses this engine, with the paper and the fonts that were asked for, and room for the nested calls of a header in a footer. -/
structure Prints (lib : Libraries Fpdf) (metric : Font → Str → ℚ) (print : List Mark → Str) : Prop where
  engine : ∀ l, lib.engine l = printing print (l.paper metric)
  start : ∀ l, lib.start l = Fpdf.new (l.paper metric)
  depth : 2 ≤ lib.depth

/-- The pages of a document: its body, and the footer of the last page. -/
def pagesOf (p : Paper) (ctx : Ctx) : List Mark := ((typeset p ctx ctx.body).foot p ctx).out

end Verif.Spec
