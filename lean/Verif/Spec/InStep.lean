import Verif.Spec.Origin
/-
What C89 talks about: the font and the color of the engine between two instructions.
-/
namespace Verif.Spec
open Verif.Go Verif.Model

/-- The engine has the current font and the current text color. -/
structure InStep (s : PState Fpdf) : Prop where
  font : s.eng.font = s.curr.font
  color : s.eng.color = s.curr.color.text

/-- The state of a new processor after the first page was started and the instructions `pre`, the first ones of the body, were processed. -/
def Reached (p : Paper) (ctx : Ctx) (n : Nat) (pre : List Instr) (s : PState Fpdf) : Prop :=
  (∃ post, ctx.body = pre ++ post) ∧ ∃ s0, (callsAt (Fpdf.engine p) ctx n).addPage
    { eng := Fpdf.changeFont p defaultStyle.font { Fpdf.new p with pageCountAlias := b!"{np}" }, curr := defaultStyle, prevent := false } = some ((), s0) ∧
    processInstrs (Fpdf.engine p) ctx (callsAt (Fpdf.engine p) ctx n) pre s0 = some ((), s)

/-- No style in the instructions sets a part of the font. -/
def FontFree (cs : Classes) (iss : List Instr) : Prop := ∀ i ∈ iss, ∀ st, StyleIn st i → ∀ m, Setting cs st m → ∀ sty, (mutate m sty).font = sty.font

/-- Instructions that end with the styles of the engine set back to the current ones. -/
def Resets : Instr → Prop
  | .text _ iss => iss ≠ []
  | .box _ _ => True
  | .table _ _ _ => True
  | _ => False

/-- The height of a line in a font, in millimeters: a point is 127/360 mm. -/
def lineHeight (f : Font) : ℚ := f.pointSize * (127 / 360)

end Verif.Spec
