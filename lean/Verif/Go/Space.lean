import Verif.Go.Strconv
import Verif.Go.Utf8
/-
Go's `strings.Fields` and `strings.TrimSpace`: white space is that of Unicode, found by decoding the string.
-/
namespace Verif.Go

/-- Worker of `chunks`: `skip` bytes still belong to the last rune. -/
def chunksAux : Nat → Str → List (Nat × Str)
  | _, [] => []
  | skip + 1, _ :: cs => chunksAux skip cs
  | 0, c :: cs => ((decodeRune c cs).1, (c :: cs).take (decodeRune c cs).2) :: chunksAux ((decodeRune c cs).2 - 1) cs

/-- The runes visited by `for i, r := range s`, each with its bytes (a byte that belongs to no rune counts as U+FFFD). -/
def chunks (s : Str) : List (Nat × Str) := chunksAux 0 s

/-- Worker of `strings.FieldsFunc`: `cur` is the field being collected. -/
def fieldsAux (cur : Str) : List (Nat × Str) → List Str
  | [] => if cur = [] then [] else [cur]
  | c :: cs =>
    if isSpaceRune c.1 then (if cur = [] then fieldsAux [] cs else cur :: fieldsAux [] cs)
    else fieldsAux (cur ++ c.2) cs

/-- `strings.Fields(s)`, that is `strings.FieldsFunc(s, unicode.IsSpace)`; Go has a shortcut for ASCII strings, for which this is the same. -/
def fields (s : Str) : List Str := fieldsAux [] (chunks s)

/-- `strings.TrimSpace(s)`: without the spaces at both ends.  (Go looks for the spaces at the end from behind.  That is the same: no byte that can
begin the encoding of a space can be inside another one.) -/
def trimWhite (s : Str) : Str := (trim (fun c => isSpaceRune c.1) (chunks s)).flatMap (·.2)

end Verif.Go
