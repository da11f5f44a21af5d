import Verif.Spec.Joined
import Verif.Spec.InStep
/-
What C111 talks about: pages that consist of what the header, the body and the footer put on them.
-/
namespace Verif.Spec
open Verif.Go Verif.Model

/-- What is on a page, after it was started: first what the header put there, then the body, then the footer. -/
structure Leaflet where
  head : List Mark
  body : List Mark
  foot : List Mark

/-- No part of the page starts another page. -/
def Leaflet.Clean (l : Leaflet) : Prop := .page ∉ l.head ∧ .page ∉ l.body ∧ .page ∉ l.foot

/-- The pages with header and footer. -/
def dressed (ls : List Leaflet) : List Mark := ls.flatMap fun l => .page :: (l.head ++ l.body ++ l.foot)

/-- The pages without header and footer. -/
def undressed (ls : List Leaflet) : List Mark := ls.flatMap fun l => .page :: l.body

/-- The document without header and footer. -/
def bodyOnly (ctx : Ctx) : Ctx := { ctx with header := [], footer := [] }

end Verif.Spec
