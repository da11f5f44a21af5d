import Verif.Spec.Restyled
/-
Spec: the rules of a style sheet and what they mean class by class, whatever the order in which rules of different classes are written.
-/
namespace Verif.Spec
open Verif.Go Verif.Model

/-- A rule: the class it is about, the selector if there is one, and what it sets. -/
structure SheetRule where
  cls : Str
  sel : Option Str
  sets : Prp → Option Leaf

/-- `name` is the name of a class, or that of a class and a selector with ':' between.  A name that starts with ':' is that of a class. -/
inductive Naming : Str → Str → Option Str → Prop
  | plain {name} : (58 : UInt8) ∉ name → Naming name name none
  | colon {rest} : Naming (58 :: rest) (58 :: rest) none
  | selector {base sel} : base ≠ [] → (58 : UInt8) ∉ base → Naming (base ++ 58 :: sel) base (some sel)

/-- A block with a name and a correct body is a rule. -/
def IsRule (fl : Floats) (b : Block) (r : SheetRule) : Prop :=
  ∃ name, Strips b.head name ∧ name ≠ [] ∧ Naming name r.cls r.sel ∧ BodySets fl b.body r.sets

/-- The rules of class `n`, in order. -/
def rulesFor (n : Str) (rs : List SheetRule) : List SheetRule := rs.filter fun r => r.cls = n

/-- What the rules of one class mean.  Without rules there is no such class.  Otherwise the first rule is not one for a selector; the last one
without selector says what the class sets, and of the rules behind it the last one of each selector says what this selector sets. -/
def ClassMeans (rs : List SheetRule) (C : Option ClassMeaning) : Prop :=
  (rs = [] ∧ C = none) ∨
  ∃ first rest before r after D, rs = first :: rest ∧ first.sel = none ∧ rs = before ++ r :: after ∧ r.sel = none ∧ (∀ x ∈ after, x.sel ≠ none) ∧
    C = some D ∧ D.own = r.sets ∧
    ∀ s σ, D.sel s = some σ ↔ ∃ u x v, after = u ++ x :: v ∧ x.sel = some s ∧ x.sets = σ ∧ ∀ y ∈ v, y.sel ≠ some s

/-- The contents of two documents are the same but for the style sheets. -/
inductive SameButSheet : List Node → List Node → Prop
  | nil : SameButSheet [] []
  | same {ns ns'} (n) : SameButSheet ns ns' → SameButSheet (n :: ns) (n :: ns')
  | sheet {ns ns'} (as as' kids kids') : SameButSheet ns ns' → SameButSheet (.elem b!"style" as kids :: ns) (.elem b!"style" as' kids' :: ns')

end Verif.Spec
