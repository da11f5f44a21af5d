import Verif.Spec.TextLines
/-
What C104 talks about: other ways to break a text into lines.
-/
namespace Verif.Spec
open Verif.Go Verif.Model

/-- Some way to break the stretches `segs` of words into lines: the words of a stretch stay in order, lines are not blank but for empty stretches, and a line of
several words is narrower than the available width, counting a space before each word. -/
structure Breaking (mt : Font → Str → ℚ) (width : ℚ) (segs : List (List Word)) (groups : List (List (List Word))) : Prop where
  words : groups.map List.flatten = segs
  some : ∀ g ∈ groups, g ≠ []
  blank : ∀ g ∈ groups, [] ∈ g → g = [[]]
  narrow : ∀ g ∈ groups, ∀ l ∈ g, 2 ≤ l.length → spacedSum mt l < width

/-- How many stretches begin with a word that alone reaches the available width. -/
def wideStarts (mt : Font → Str → ℚ) (width : ℚ) (segs : List (List Word)) : Nat :=
  segs.countP fun seg => seg.head?.any fun w => width ≤ spaced mt w

end Verif.Spec
