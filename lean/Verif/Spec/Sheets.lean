import Verif.Spec.Looks
/-
The pages of a document: header, body and footer (C100).
-/
namespace Verif.Spec
open Verif.Go Verif.Model

/-- What is on a page, in the order in which it is put there. -/
structure PageParts where
  head : List Shown
  body : List Shown
  foot : List Shown

/-- The page on which something is. -/
def Shown.on : Shown → Option Nat
  | .text k _ _ _ => some k
  | .image k _ => some k
  | .draw k _ => some k
  | .page => none

/-- All pages, one after the other. -/
def bound (pages : List PageParts) : List Shown := pages.flatMap fun q => .page :: (q.head ++ q.body ++ q.foot)

/-- What the processor asks for, without the footers and headers that new pages bring. -/
inductive Own : List Ask → List Shown → Prop
  | nil : Own [] []
  | text {f col t a b ps ds} : Own ps ds → Own (.text f col t a b :: ps) (.text b.page f col t :: ds)
  | image {k src ps ds} : Own ps ds → Own (.image k src :: ps) (.image k src :: ds)
  | box {k sty r cmds ps ds} : DrawsBox sty r cmds → Own ps ds → Own (.box k sty r :: ps) (cmds.map (.draw k) ++ ds)
  | page {a b ps ds} : Own ps ds → Own (.page a b :: ps) ds

/-- The words of an instruction on page `k`; in a cell of a table the boxes come behind the text. -/
def instrWords (k : Nat) : Instr → List Str
  | .text _ iss => sourceWords k iss
  | .box _ iss => sourceWords k iss
  | .table _ _ rows => rows.flatMap fun r => r.cells.flatMap fun c => sourceWords k c.iss ++ c.iss.flatMap fun
    | .box _ iss => sourceWords k iss
    | _ => []
  | _ => []

/-- The texts among what is to be seen. -/
def textsIn (ds : List Shown) : List Str := ds.filterMap fun
  | .text _ _ _ t => some t
  | _ => none

/-- The words of a document part, with `k` as the number of the page, are what is written, whole or broken. -/
def Numbered (hyph : Str → List Str) (iss : List Instr) (k : Nat) (ds : List Shown) : Prop :=
  Written hyph (iss.flatMap (instrWords k)) (textsIn ds)

end Verif.Spec
