import Verif.Spec.Style
import Verif.Spec.Space
/-
Specification of attributes.
-/
namespace Verif.Spec
open Verif.Go

/-- The values given for an attribute, in order. -/
def given (name : Str) (attrs : List (Str × Str)) : List Str := (attrs.filter (fun a => a.1 = name)).map Prod.snd

/-- The text is the decimal 64-bit integer `n`. -/
def IsInt (v : Str) (n : Int) : Prop := IntText (v.map UInt8.toNat) n

/-- The last of the values, as an integer, or 0 if there is none. -/
def LastInt (vs : List Str) (n : Int) : Prop :=
  (vs = [] ∧ n = 0) ∨ ∃ ws v, vs = ws ++ [v] ∧ IsInt v n

/-- The text is the number `x`: empty for 0, or a number as `strconv.ParseFloat` reads it, with white space around it. -/
def IsNumber (fl : Floats) (v : Str) (x : ℚ) : Prop :=
  (v = [] ∧ x = 0) ∨ v ≠ [] ∧ ∃ w, Stripped v w ∧ fl.parseFloat w = some x

/-- The last of the values, as a number, or 0 if there is none. -/
def LastNumber (fl : Floats) (vs : List Str) (x : ℚ) : Prop :=
  (vs = [] ∧ x = 0) ∨ ∃ ws v, vs = ws ++ [v] ∧ IsNumber fl v x

end Verif.Spec
