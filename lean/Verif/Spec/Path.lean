import Verif.Go.Bytes
/-
Where a path leads (C80): directories are lists of names from the root.
-/
namespace Verif.Spec
open Verif.Go

/-- Walking from a directory along the elements of a path. -/
def walk : List Str → List Str → List Str
  | dir, [] => dir
  | dir, e :: es =>
    if e = [] ∨ e = b!"." then walk dir es
    else if e = b!".." then walk dir.dropLast es
    else walk (dir ++ [e]) es

/-- A name of a file or directory. -/
def Named (e : Str) : Prop := e ≠ [] ∧ e ≠ b!"." ∧ e ≠ b!".." ∧ 47 ∉ e

/-- The plain absolute path of a file or directory. -/
def placeOf (dir : List Str) : Str := 47 :: join dir [47]

/-- The elements of a path. -/
inductive Elements : List Str → Str → Prop
  | one {e} : 47 ∉ e → Elements [e] e
  | cons {e es p} : 47 ∉ e → Elements es p → Elements (e :: es) (e ++ 47 :: p)

end Verif.Spec
