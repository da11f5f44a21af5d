import Verif.Spec.Words
import Verif.Spec.Alike
/-
Files that differ in white space and comments only: how the text is broken into lines and how the elements are indented in the XML
file.
-/
namespace Verif.Spec
open Verif.Go Verif.Model

/-- Two texts have the same words (the longest pieces without white space). -/
def SameWords (t t' : Str) : Prop := cutWords t = cutWords t'

/-- Does text count in the contents of an element?  It does in a box, text or td; it does not in a table, tr, grid or part.  An
element that is none of these does not change it. -/
def textCounts (texts : Bool) (name : Str) : Bool :=
  if name ∈ [b!"table", b!"tr", b!"grid", b!"part"] then false
  else if name ∈ [b!"box", b!"text", b!"td"] then true
  else texts

/-- The contents of a header, footer, body or some element in it are written with other white space: where text counts (`texts`)
a piece of text has the same words; where it does not, text can be added and left out.  Comments can be added and left out.
The contents of `gr` (the names of the areas) and `image` (the name of the file) stay; in a `p` only the text directly in it counts,
and it is taken as a whole. -/
inductive Respaced : (texts : Bool) → List Node → List Node → Prop
  | nil {texts} : Respaced texts [] []
  | chars {texts t t' ns ns'} : SameWords t t' → (t = [] ↔ t' = []) → Respaced texts ns ns' → Respaced texts (.chars t :: ns) (.chars t' :: ns')
  | textLeft {t ns ns'} : Respaced false ns ns' → Respaced false (.chars t :: ns) ns'
  | textRight {t ns ns'} : Respaced false ns ns' → Respaced false ns (.chars t :: ns')
  | commentLeft {texts ns ns'} : Respaced texts ns ns' → Respaced texts (.other :: ns) ns'
  | commentRight {texts ns ns'} : Respaced texts ns ns' → Respaced texts ns (.other :: ns')
  | paragraph {texts as kids kids' ns ns'} : SameWords (directText kids) (directText kids') → Respaced texts ns ns' →
      Respaced texts (.elem b!"p" as kids :: ns) (.elem b!"p" as kids' :: ns')
  | elem {texts name as kids kids' ns ns'} : name ∉ [b!"gr", b!"image", b!"p"] → Respaced (textCounts texts name) kids kids' →
      Respaced texts ns ns' → Respaced texts (.elem name as kids :: ns) (.elem name as kids' :: ns')
  | same {texts nd ns ns'} : Respaced texts ns ns' → Respaced texts (nd :: ns) (nd :: ns')

/-- The same for what is directly in the document: the contents of headers, footers and bodies are written with other white space,
text and comments between the elements are added and left out, the rest stays. -/
inductive DocRespaced : List Node → List Node → Prop
  | nil : DocRespaced [] []
  | textLeft {t ns ns'} : DocRespaced ns ns' → DocRespaced (.chars t :: ns) ns'
  | textRight {t ns ns'} : DocRespaced ns ns' → DocRespaced ns (.chars t :: ns')
  | commentLeft {ns ns'} : DocRespaced ns ns' → DocRespaced (.other :: ns) ns'
  | commentRight {ns ns'} : DocRespaced ns ns' → DocRespaced ns (.other :: ns')
  | part {name as kids kids' ns ns'} : name = b!"header" ∨ name = b!"footer" ∨ name = b!"body" → Respaced true kids kids' →
      DocRespaced ns ns' → DocRespaced (.elem name as kids :: ns) (.elem name as kids' :: ns')
  | same {nd ns ns'} : DocRespaced ns ns' → DocRespaced (nd :: ns) (nd :: ns')

/-- The same instructions, but for white space in the texts. -/
abbrev SpacedAll := AlikeAll (fun _ => Eq) SameWords

/-- Two documents are the same but for white space in texts. -/
structure DocSpaced (d d' : Document) : Prop where
  info : d.info = d'.info
  page : d.page = d'.page
  classes : d.styleClasses = d'.styleClasses
  header : SpacedAll d.header d'.header
  footer : SpacedAll d.footer d'.footer
  body : SpacedAll d.body d'.body

end Verif.Spec
