import Mathlib.Data.List.Forall2
import Verif.Spec.Typeset
/-
What C124 talks about: tables that differ in what is written in their cells only.
-/
namespace Verif.Spec
open Verif.Go Verif.Model

/-- Two cells with the same styles and spans. -/
def SameCell (c c' : TableCell) : Prop := c.st = c'.st ∧ c.colSpan = c'.colSpan ∧ c.rowSpan = c'.rowSpan

/-- Two tables that differ in the contents of their cells only. -/
def SameFrame (rows rows' : List TableRow) : Prop := List.Forall₂ (fun r r' => r.st = r'.st ∧ List.Forall₂ SameCell r.cells r'.cells) rows rows'

/-- As long as `I` holds, which stays so, the height of a text is what `μ` says. -/
def Reads {σ : Type} (m : Measure σ) (I : σ → Prop) (μ : Styles → List Instr → ℚ → ℚ) : Prop :=
  ∀ sty iss w s, I s → (m sty iss w s).1 = μ sty iss w ∧ I (m sty iss w s).2

/-- The height of a text that starts on page `page`: the one of its lines (C121), in the font of its last word. -/
def heightOn (p : Paper) (ctx : Ctx) (page : Nat) (sty : Styles) (iss : List Instr) (width : ℚ) : ℚ :=
  tallSet (setLines p ctx page width sty iss).length (lineHeight (lastFont sty ((wordsOn ctx page sty iss).filterMap id))) sty.dim.lineSpacing

/-- The cell is in the row, or covers places there. -/
def ReachesRow (rows : List TableRow) (a i : Nat) : Prop := ∃ row, (tablePlaces rows)[i]? = some row ∧ (.cell a ∈ row ∨ .covered a ∈ row)

end Verif.Spec
