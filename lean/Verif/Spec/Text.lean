/-
Specification of the text normalisation functions, independent of the model.
-/
namespace Verif.Spec

/-- One collapse step: somewhere, two adjacent copies of `twin` become one. -/
inductive TwinStep (twin : List UInt8) : List UInt8 → List UInt8 → Prop
  | mk (a b : List UInt8) : TwinStep twin (a ++ twin ++ twin ++ b) (a ++ twin ++ b)

/-- Any number of collapse steps. -/
inductive TwinSteps (twin : List UInt8) : List UInt8 → List UInt8 → Prop
  | refl (s : List UInt8) : TwinSteps twin s s
  | tail {s t u : List UInt8} : TwinSteps twin s t → TwinStep twin t u → TwinSteps twin s u

/-- Space, CR, LF or TAB. -/
def blank (c : UInt8) : Bool := c == 32 || c == 13 || c == 10 || c == 9

/-- The rectified text, produced in one pass: blanks are dropped, and a non-blank byte `c` is preceded by one
space iff a non-blank byte `p` came before it, there was a blank in between (`gap`), and neither is a
backslash (92). -/
def rectified : (prev : Option UInt8) → (gap : Bool) → List UInt8 → List UInt8
  | _, _, [] => []
  | prev, gap, c :: cs =>
    if blank c then rectified prev true cs
    else
      match prev with
      | some p => if gap && p != 92 && c != 92 then 32 :: c :: rectified (some c) false cs
                  else c :: rectified (some c) false cs
      | none => c :: rectified (some c) false cs

/-- The text shown by Describe, produced in one pass: newlines (10) are dropped, runs of spaces (32) are dropped, and
a kept byte is preceded by one space iff some byte was kept before it and the number of spaces since then is
odd. -/
def cleared : (started odd : Bool) → List UInt8 → List UInt8
  | _, _, [] => []
  | started, odd, c :: cs =>
    if c = 10 then cleared started odd cs
    else if c = 32 then cleared started (!odd) cs
    else if started && odd then 32 :: c :: cleared true false cs
    else c :: cleared true false cs

end Verif.Spec
