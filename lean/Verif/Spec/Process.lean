import Verif.Model.Process
/-
What the properties of the processor (C42-C44, C47, C53-C56) talk about.
-/
namespace Verif.Spec
open Verif.Go Verif.Model

variable {E α : Type}

/-- The operation calls header and footer functions only in engine states with `Q`. -/
def CallsIn (Q : E → Prop) : Prog E α → Prop
  | .done _ _ => True
  | .header e k => Q e ∧ ∀ e', CallsIn Q (k e')
  | .footer e k => Q e ∧ ∀ e', CallsIn Q (k e')

/-- An engine that knows (`Q`) when it is in the header or footer: it calls header and footer functions only there, and there writing
texts never adds a page. -/
structure Quiet (eng : Engine E) (Q : E → Prop) : Prop where
  addPage : ∀ e, CallsIn Q (eng.addPage e)
  writePDF : ∀ e, CallsIn Q (eng.writePDF e)
  writeText : ∀ t e, CallsIn Q (eng.writeText t e)
  quiet : ∀ t e, Q e → ∃ e', eng.writeText t e = .done e' () ∧ Q e'
  setX : ∀ x e, Q e → Q (eng.setX x e)
  setY : ∀ y e, Q e → Q (eng.setY y e)
  lineFeed : ∀ n e, Q e → Q (eng.lineFeed n e)
  changeFont : ∀ f e, Q e → Q (eng.changeFont f e)
  setTextColor : ∀ c e, Q e → Q (eng.setTextColor c e)
  putImage : ∀ src x y w h e, Q e → Q (eng.putImage src x y w h e)
  draw : ∀ c e, Q e → Q (eng.draw c e)

/-- The operation always calls the header function. -/
def CallsHeader : Prog E α → Prop
  | .done _ _ => False
  | .header _ _ => True
  | .footer _ k => ∀ e', CallsHeader (k e')

/-- The engine calls with calls of header and footer functions nested up to depth `n`; deeper calls are replaced by `base`. -/
def callsOn (eng : Engine E) (ctx : Ctx) (base : Calls E) : Nat → Calls E
  | 0 => base
  | n + 1 =>
    { addPage := runWith eng ctx (callsOn eng ctx base n) eng.addPage,
      writeText := fun t => runWith eng ctx (callsOn eng ctx base n) (eng.writeText t) }

/-- The engine's write position: what is set is what is read, unless it is negative; fonts and colors do not matter. -/
structure Positions (eng : Engine E) : Prop where
  setX : ∀ x e, 0 ≤ x → eng.getXY (eng.setX x e) = (x, (eng.getXY e).2)
  setY : ∀ y e, 0 ≤ y → (eng.getXY (eng.setY y e)).2 = y
  changeFont : ∀ f e, eng.getXY (eng.changeFont f e) = eng.getXY e
  setTextColor : ∀ c e, eng.getXY (eng.setTextColor c e) = eng.getXY e

/-- The instructions that do something outside of other instructions. -/
def Acting : Instr → Prop
  | .font _ | .lineFeed _ | .setX _ | .setY _ | .box _ _ | .text _ _ | .table _ _ _ | .image _ _ | .grid _ _ _ | .pageBreak => True
  | _ => False

instance : DecidablePred Acting := fun i => by cases i <;> unfold Acting <;> infer_instance

/-- A text block of height `h` from `start` on, aligned between `top` and `bottom`. -/
def Aligned (v : Str) (top bottom h start : ℚ) : Prop :=
  if v = b!"middle" then start - top = bottom - (start + h)
  else if v = b!"bottom" then start + h = bottom
  else start = top

/-- The number that decimal digits stand for. -/
def decimalValue (s : Str) : Nat := s.foldl (fun n c => 10 * n + (c.toNat - 48)) 0

/-- A number as it is usually written: digits, without zeros in front. -/
def Decimal (s : Str) : Prop := s ≠ [] ∧ (∀ c ∈ s, 48 ≤ c ∧ c ≤ 57) ∧ (s.head? = some 48 → s = [48])

end Verif.Spec
