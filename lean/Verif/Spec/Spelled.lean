import Verif.Spec.Hyphen
import Verif.Spec.Words
import Verif.Model.EnUs
/-
How words stand on the pages of a program that hyphenates English (C118).
-/
namespace Verif.Spec
open Verif.Go Verif.Model Verif.Model.Tables

/-- The texts are the words, each in one piece or broken in two, with a hyphen behind the first part, perhaps with a space before. -/
inductive Spelled (breaks : Str → Str → Str → Prop) : List Str → List Str → Prop
  | nil : Spelled breaks [] []
  | whole {w ws t ts} : (t = w ∨ t = 32 :: w) → Spelled breaks ws ts → Spelled breaks (w :: ws) (t :: ts)
  | broken {w ws t u v ts} : breaks w t u → (v = t ++ [45] ∨ v = 32 :: (t ++ [45])) → Spelled breaks ws ts → Spelled breaks (w :: ws) (v :: u :: ts)
  | blank {ws t ts} : (t = [] ∨ t = [32]) → Spelled breaks ws ts → Spelled breaks ws (t :: ts)

/-- The patterns of the built-in table: one in each line (`PatternSyntax`). -/
def EnglishPattern (letters weights : List Nat) : Prop :=
  ∃ l ∈ enUsLines, PatternSyntax (fun r => 48 ≤ r && r ≤ 57) (l.map UInt8.toNat) letters weights

/-- The places where these patterns allow a word to be broken. -/
def EnglishCuts (lower : Nat → Nat) (w : Str) (cuts : List Nat) : Prop :=
  ∃ pats : List Nat → Option (List Nat), (∀ letters weights, pats letters = some weights ↔ EnglishPattern letters weights) ∧
    LiangCuts pats (46 :: decodeRunes (toLower lower w) ++ [46]) (decodeRunes w).length cuts

/-- A word of 3 to 100 bytes is broken at one of these places.  Its last byte is lost, if it could be broken before this one, too. -/
def EnglishBreak (lower : Nat → Nat) (w t u : Str) : Prop :=
  3 ≤ w.length ∧ w.length ≤ 100 ∧ ∃ cuts, EnglishCuts lower w cuts ∧ ∃ k ∈ cuts, k + 1 < w.length ∧ t = w.take k ∧
    u = if w.length - 1 ∈ cuts then (w.drop k).dropLast else w.drop k

/-- Both parts together are the word. -/
def Lossless (w t u : Str) : Prop := t ++ u = w

end Verif.Spec
