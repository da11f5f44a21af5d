import Verif.Model.Hyphen
import Verif.Model.Tables.EnUs
/-
Model of /repo/hyphenation/en-us.go: the hyphenator of the program.
-/
namespace Verif.Model
open Verif.Go Verif.Model.Tables

/-- hyphenation/en-us.go:5-9, NewEnUs, used in cmd/xpdf/main.go:67.  Simplified: where Hyphenate would panic, there are no parts; C04 and C10 show that this
does not happen. -/
def newEnUs (nd : Nat → Bool) (lower : Nat → Nat) (s : Str) : List Str :=
  ((parsePatterns nd enUsText).bind fun pl => hyphenate lower pl s).getD []

end Verif.Model
