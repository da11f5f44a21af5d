import Verif.Go.Bytes
/-
White space in attribute values, for C19 and C87.
-/
namespace Verif.Spec
open Verif.Go

/-- The white space characters of Unicode in UTF-8: tab, line feed, vertical tab, form feed, carriage return, space; next line, no-break space;
ogham space; the spaces U+2000 to U+200A; line and paragraph separator; narrow no-break, mathematical and ideographic space. -/
def spaceChars : List Str :=
  [[9], [10], [11], [12], [13], [32], [0xC2, 0x85], [0xC2, 0xA0], [0xE1, 0x9A, 0x80],
   [0xE2, 0x80, 0x80], [0xE2, 0x80, 0x81], [0xE2, 0x80, 0x82], [0xE2, 0x80, 0x83], [0xE2, 0x80, 0x84], [0xE2, 0x80, 0x85],
   [0xE2, 0x80, 0x86], [0xE2, 0x80, 0x87], [0xE2, 0x80, 0x88], [0xE2, 0x80, 0x89], [0xE2, 0x80, 0x8A],
   [0xE2, 0x80, 0xA8], [0xE2, 0x80, 0xA9], [0xE2, 0x80, 0xAF], [0xE2, 0x81, 0x9F], [0xE3, 0x80, 0x80]]

/-- Nothing but white space. -/
def Whites (s : Str) : Prop := ∃ cs : List Str, (∀ c ∈ cs, c ∈ spaceChars) ∧ s = cs.flatten

/-- `ws` are the words of `s`, separated by white space. -/
inductive Words : Str → List Str → Prop
  | nil {s} : Whites s → Words s []
  | cons {a w rest ws} : Whites a → w ≠ [] → (∀ c ∈ spaceChars, ¬ c <:+: w) → (rest = [] ∨ ∃ c ∈ spaceChars, c <+: rest) →
      Words rest ws → Words (a ++ (w ++ rest)) (w :: ws)

/-- `w` is `v` without the white space at both ends. -/
def Stripped (v w : Str) : Prop := ∃ a b, v = a ++ (w ++ b) ∧ Whites a ∧ Whites b ∧ ∀ c ∈ spaceChars, ¬ c <+: w ∧ ¬ c <:+ w

end Verif.Spec
