import Verif.Spec.Laid
/-
What C107 talks about: pages that a table starts and leaves without any row in its turn.
-/
namespace Verif.Spec
open Verif.Go Verif.Model

/-- A page is started, and nothing but repeated header rows is put on it before the next page is started or the table ends. -/
def LeavesBlank (items : List Item) : Prop :=
  ∃ pre top mid post, items = pre ++ .page top :: (mid ++ post) ∧ (∀ it ∈ mid, ∃ j z, it = .header j z) ∧ (post = [] ∨ ∃ top' post', post = .page top' :: post')

/-- The mark is something to be seen on page `n`: text, an image, a line or an area. -/
def showsOn (n : Nat) : Mark → Bool
  | .text k _ _ _ _ _ => k == n
  | .image k _ _ _ _ _ => k == n
  | .draw k _ => k == n
  | _ => false

/-- Nothing is to be seen on page `n`. -/
def BlankPage (out : List Mark) (n : Nat) : Prop := ∀ m ∈ out, showsOn n m = false

end Verif.Spec
