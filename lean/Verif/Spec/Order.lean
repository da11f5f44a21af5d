import Verif.Spec.Restyled
/-
Spec: files that differ only in the order of what stands in them, and in things without a meaning.
-/
namespace Verif.Spec
open Verif.Go Verif.Model

/-- The inner elements with that name, in order, with attributes and contents. -/
def named (name : Str) (ns : List Node) : List (Str × List Attr × List Node) := (elems ns).filter (·.1 = name)

/-- The same sections, as far as they have a meaning: those with one name are the same in the same order.  The order of sections with
different names, sections with other names, and everything between the sections may differ; likewise inside `meta`, `page` and `margins`. -/
structure SameSections (ns ns' : List Node) : Prop where
  parts : ∀ name ∈ [b!"style", b!"header", b!"footer", b!"body"], named name ns = named name ns'
  info : ∀ name ∈ [b!"author", b!"creator", b!"subject"], named name (inside b!"meta" ns) = named name (inside b!"meta" ns')
  page : ∀ name ∈ [b!"orientation", b!"format"], named name (inside b!"page" ns) = named name (inside b!"page" ns')
  margins : ∀ name ∈ [b!"left", b!"top", b!"right", b!"bottom"],
    named name (inside b!"margins" (inside b!"page" ns)) = named name (inside b!"margins" (inside b!"page" ns'))

/-- The names of the sections of a document. -/
def sectionNames : List Str := [b!"meta", b!"page", b!"style", b!"header", b!"footer", b!"body"]

/-- What stands here is a section of a document. -/
def IsSection (n : Node) : Prop := ∃ name ∈ sectionNames, ∃ as kids, n = .elem name as kids

/-- Two neighbours that may change places: at most one of them is a section, or they have different names. -/
def MaySwap (n m : Node) : Prop := ∀ name as kids as' kids', n = .elem name as kids → m = .elem name as' kids' → name ∉ sectionNames

/-- The attributes are the same as far as they have a meaning: each of those the program knows is given the same values in the same order. -/
abbrev SameGiven (as as' : List Attr) : Prop := ∀ k ∈ plainNames ++ [b!"style", b!"class"], given k as = given k as'

end Verif.Spec
