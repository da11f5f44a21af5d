import Verif.Spec.TextLines
/-
What C121 talks about: the lines of a text, line by line.
-/
namespace Verif.Spec
open Verif.Go Verif.Model

/-- The lines of the words `ws` if the first line starts with the words `l`: a word that, with a space before it, does not end left of the width starts the
next line. -/
def fillLines (mt : Font → Str → ℚ) (width : ℚ) : List Word → List Word → List (List Word)
  | l, [] => [l]
  | l, w :: ws => if spacedSum mt l + spaced mt w < width then fillLines mt width (l ++ [w]) ws else l :: fillLines mt width [w] ws

/-- The largest number of syllables of a word, but not all of them, that have room with a space before and a hyphen behind them. -/
def mostSyllables (hyph : Str → List Str) (mt : Font → Str → ℚ) (room : ℚ) (w : Word) : Option Nat :=
  ((List.range (hyph w.2).length).filter fun k => 1 ≤ k ∧ spaced mt (hyphened (syllables hyph k w)) ≤ room).getLast?

/-- The lines of block text: some syllables of a word that has no room on its line stay there if there is room for them. -/
def fillBlock (hyph : Str → List Str) (mt : Font → Str → ℚ) (width : ℚ) : List WPiece → List Word → List (List WPiece)
  | l, [] => [l]
  | l, w :: ws =>
    if piecesWidth mt l + spaced mt w < width then fillBlock hyph mt width (l ++ [.whole w]) ws
    else
      match mostSyllables hyph mt (width - piecesWidth mt l) w with
      | none => l :: fillBlock hyph mt width [.whole w] ws
      | some k => (l ++ [.head (syllables hyph k w)]) :: fillBlock hyph mt width [.tail (restOf hyph k w)] ws

/-- The width of a piece without the spaces around it. -/
def WPiece.bare (mt : Font → Str → ℚ) : WPiece → ℚ
  | .whole w => mt w.1.font w.2
  | .head w => mt w.1.font (trim (· == 32) (32 :: (w.2 ++ [45])))
  | .tail w => mt w.1.font (trim (· == 32) w.2)

/-- The lines of a text: each stretch between line breaks is filled by itself, and there is no blank line at the end. -/
def linesSet (mt : Font → Str → ℚ) (width : ℚ) (ts : List (Option Word)) : List TextLine :=
  (dropBlank ((segments ts).map (fillLines mt width [])).flatten).map fun l =>
    { items := setWords l, width := spacedSum mt l, pureTextWidth := 0, paragraph := false }

/-- Which lines of block text are not stretched: the last one, and at every line break the one before the line that it ends (in the code, the line break should have
meant the line itself; see C40). -/
def unstretched (groups : List (List (List WPiece))) (k : Nat) : Bool :=
  decide (k + 1 = groups.flatten.length ∨ ∃ i < groups.length - 1, k + 2 = (groups.take (i + 1)).flatten.length)

/-- The lines of block text. -/
def blockLinesSet (hyph : Str → List Str) (mt : Font → Str → ℚ) (width : ℚ) (ts : List (Option Word)) : List TextLine :=
  let groups := (segments ts).map (fillBlock hyph mt width [])
  (dropBlank groups.flatten).zipIdx.map fun l =>
    { items := setPieces l.1, width := piecesWidth mt l.1, pureTextWidth := (l.1.map (WPiece.bare mt)).sum, paragraph := unstretched groups l.2 }

/-- A way to break a stretch of words into lines: in order, no line ends too early, and lines of several words and the first line are not too long. -/
structure Broken (mt : Font → Str → ℚ) (width : ℚ) (seg : List Word) (g : List (List Word)) : Prop where
  words : g.flatten = seg
  lines : g ≠ []
  greedy : Greedy mt width g
  narrow : ∀ l ∈ g, 2 ≤ l.length → spacedSum mt l < width
  first : ∀ l, g.head? = some l → l ≠ [] → spacedSum mt l < width

end Verif.Spec
