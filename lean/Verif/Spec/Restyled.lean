import Verif.Spec.Alike
import Verif.Spec.Attrs
import Verif.Spec.Load
import Verif.Spec.Style
/-
Spec: files that are the same but for the style sheet and the attributes style and class.
-/
namespace Verif.Spec
open Verif.Go Verif.Model

mutual
/-- Two trees are the same but for attributes, which are related by `A`. -/
inductive Restyled (A : List Attr → List Attr → Prop) : Node → Node → Prop
  | elem {name as as' kids kids'} : A as as' → RestyledAll A kids kids' → Restyled A (.elem name as kids) (.elem name as' kids')
  | chars (t) : Restyled A (.chars t) (.chars t)
  | other : Restyled A .other .other
inductive RestyledAll (A : List Attr → List Attr → Prop) : List Node → List Node → Prop
  | nil : RestyledAll A [] []
  | cons {n n' ns ns'} : Restyled A n n' → RestyledAll A ns ns' → RestyledAll A (n :: ns) (n' :: ns')
end

/-- The contents of two documents are the same but for the style sheets, and for attributes in header, footer and body. -/
inductive DocRestyled (A : List Attr → List Attr → Prop) : List Node → List Node → Prop
  | nil : DocRestyled A [] []
  | same {ns ns'} (n) : (∀ name as kids, n = .elem name as kids → name ≠ b!"header" ∧ name ≠ b!"footer" ∧ name ≠ b!"body") → DocRestyled A ns ns' →
      DocRestyled A (n :: ns) (n :: ns')
  | sheet {ns ns'} (as as' kids kids') : DocRestyled A ns ns' → DocRestyled A (.elem b!"style" as kids :: ns) (.elem b!"style" as' kids' :: ns')
  | part {name as as' kids kids' ns ns'} : name = b!"header" ∨ name = b!"footer" ∨ name = b!"body" → A as as' → RestyledAll A kids kids' →
      DocRestyled A ns ns' → DocRestyled A (.elem name as kids :: ns) (.elem name as' kids' :: ns')

/-- The attributes that have a meaning besides the styles. -/
def plainNames : List Str := [b!"repeatheader", b!"colspan", b!"rowspan", b!"area", b!"lines", b!"x", b!"y"]

/-- The attributes that have nothing to do with styles are the same as far as they have a meaning: each of them is given the same values in the
same order. -/
abbrev SamePlain (as as' : List Attr) : Prop := ∀ k ∈ plainNames, given k as = given k as'

/-- The attributes of two elements mean the same, each with the classes of its document: both are wrong, or their styles have the same effect;
the other attributes are the same. -/
def SameLooks (fl : Floats) (ord : Nat → MapOrder) (cs cs' : Classes) (as as' : List Attr) : Prop :=
  SamePlain as as' ∧
  ((newStyled fl ord as = none ∧ newStyled fl ord as' = none) ∨
    ∃ st st', newStyled fl ord as = some st ∧ newStyled fl ord as' = some st' ∧ SameEffect cs cs' st st')

/-! ### In terms of what sheets and style texts mean (`SheetMeaning` and `BodySets` in Spec/Style.lean) -/

/-- The style sheet text is correct and has this meaning. -/
def SheetText (fl : Floats) (s : Str) (S : SheetMeaning) : Prop :=
  ∃ (bs : List Block) (tail : Str), (∀ b ∈ bs, b.ok) ∧ flat s = blocksText bs ++ tail ∧ (123 : UInt8) ∉ tail ∧ Sheet fl (fun _ => none) bs S

/-- The texts of the style attributes, in order. -/
def styleTexts (as : List Attr) : List Str := (as.filter fun a => a.1 = b!"style").map Prod.snd

/-- The words in the class attributes, in order. -/
def classWords (as : List Attr) : List Str := ((as.filter fun a => a.1 = b!"class").map Prod.snd).flatMap fields

/-- What the attributes apply, one after the other: the classes of the sheet (with a selector: its block if there is one), then the style texts. -/
def sources (S : SheetMeaning) (words : List Str) (inline : List (Prp → Option Leaf)) (sel : Option Str) : List (Prp → Option Leaf) :=
  words.filterMap (fun n => (S n).map fun C => (sel.bind C.sel).getD C.own) ++ inline

/-- The attributes of two elements, one in a file whose sheet means `S`, the other in one whose sheet means `S'`, style them the same way:
the attributes that are no styles are the same; and either there is a wrong style text among both, or all are correct and every property
gets the same value, without selector and with any. -/
def SameStyling (fl : Floats) (S S' : SheetMeaning) (as as' : List Attr) : Prop :=
  SamePlain as as' ∧
  (((∃ v ∈ styleTexts as, ¬ ∃ σ, BodySets fl v σ) ∧ ∃ v ∈ styleTexts as', ¬ ∃ σ, BodySets fl v σ) ∨
    ∃ σs σs', List.Forall₂ (BodySets fl) (styleTexts as) σs ∧ List.Forall₂ (BodySets fl) (styleTexts as') σs' ∧
      ∀ sel inh p, lastSetter (sources S (classWords as) σs sel) inh p = lastSetter (sources S' (classWords as') σs' sel) inh p)

end Verif.Spec
