/-
Specification of pattern syntax and of Liang hyphenation, independent of the model.
-/
namespace Verif.Spec

/-- Pattern syntax: an optional digit before every letter and at the end; a missing digit means weight 0.  A rune
counts as a digit only where a weight may stand.  `digit` says which runes are decimal digits. -/
inductive PatternSyntax (digit : Nat → Bool) : (line letters weights : List Nat) → Prop
  | nil : PatternSyntax digit [] [] [0]
  | last (d : Nat) : digit d = true → 48 ≤ d → d ≤ 57 → PatternSyntax digit [d] [] [d - 48]
  | letter (r : Nat) {rs ls ws} : digit r = false → PatternSyntax digit rs ls ws →
      PatternSyntax digit (r :: rs) (r :: ls) (0 :: ws)
  | digitLetter (d r : Nat) {rs ls ws} : digit d = true → 48 ≤ d → d ≤ 57 → PatternSyntax digit rs ls ws →
      PatternSyntax digit (d :: r :: rs) (r :: ls) ((d - 48) :: ws)

/-- A digit that is not ASCII stands where a weight may stand. -/
inductive BadDigit (digit : Nat → Bool) : List Nat → Prop
  | here (d : Nat) {rs} : digit d = true → ¬ (48 ≤ d ∧ d ≤ 57) → BadDigit digit (d :: rs)
  | letter (r : Nat) {rs} : digit r = false → BadDigit digit rs → BadDigit digit (r :: rs)
  | digitLetter (d r : Nat) {rs} : digit d = true → 48 ≤ d → d ≤ 57 → BadDigit digit rs → BadDigit digit (d :: r :: rs)

/-- Pattern `(letters, weights)` occurs in the dotted word `D` at offset `o` and gives position `pos` the weight `w`.
Positions count the gaps: position `k` is before element `k` of `D`. -/
def Gives (patterns : List Nat → Option (List Nat)) (D : List Nat) (pos w : Nat) : Prop :=
  ∃ letters weights o k, letters ≠ [] ∧ patterns letters = some weights ∧
    o + letters.length ≤ D.length ∧ (D.drop o).take letters.length = letters ∧
    weights[k]? = some w ∧ pos = o + k

/-- `v` is the largest weight any matching pattern gives to `pos` (0 if there is none). -/
def MaxWeight (patterns : List Nat → Option (List Nat)) (D : List Nat) (pos v : Nat) : Prop :=
  (∀ w, Gives patterns D pos w → w ≤ v) ∧ (v = 0 ∨ Gives patterns D pos v)

/-- The last cut before `k` (0 if none). -/
def prevCut (cuts : List Nat) (k : Nat) : Nat := (cuts.filter (· < k)).foldl max 0

/-- The pieces of `s` between consecutive cuts; the last element is the rest. -/
def pieces {α : Type} (s : List α) : (last : Nat) → (cuts : List Nat) → List (List α)
  | last, [] => [s.drop last]
  | last, c :: cs => (s.drop last).take (c - last) :: pieces s c cs

/-- The cuts in a word of `n` letters, `D` the dotted word: ascending, and `k` is a cut iff it is before one of the letters, the largest weight of the gap
before letter `k` (from 0) is odd, and the last cut is at least two back.  (Gap `k` of the word is position `k + 1` of the dotted word.) -/
def LiangCuts (patterns : List Nat → Option (List Nat)) (D : List Nat) (n : Nat) (cuts : List Nat) : Prop :=
  cuts.Pairwise (· < ·) ∧ ∀ k, k ∈ cuts ↔ k < n ∧ prevCut cuts k + 2 ≤ k ∧ ∃ v, MaxWeight patterns D (k + 1) v ∧ v % 2 = 1

end Verif.Spec
