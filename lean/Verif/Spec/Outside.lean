import Verif.Spec.Origin
import Verif.Spec.TextLines
import Verif.Model.Main
/-
What a document takes from outside, and which words it may hyphenate: what C113 talks about.
-/
namespace Verif.Spec
open Verif.Go Verif.Model

/-- A setting of the style, or of one of its classes, is `h-align: block`. -/
def AsksBlock (cs : Classes) (st : Styled) : Prop := ∃ m, Setting cs st m ∧ Makes m .hAlign (.str b!"block")

/-- The instruction is a piece of text or a paragraph with the text `t`. -/
inductive SaysText (t : Str) : Instr → Prop
  | textBlock : SaysText t (.textBlock t)
  | paragraph {st} : SaysText t (.paragraph st t)

/-- `t` is a text in `i` for which block alignment is asked: by the text, by the box, or by the table, row or cell it is in. -/
inductive BlockText (cs : Classes) (t : Str) : Instr → Prop
  | text {st iss i} : AsksBlock cs st → i ∈ iss → SaysText t i → BlockText cs t (.text st iss)
  | box {st iss i} : AsksBlock cs st → i ∈ iss → SaysText t i → BlockText cs t (.box st iss)
  | cell {st rh rows rst cells cst cspan rspan iss i} : .mk rst cells ∈ rows → .mk cst cspan rspan iss ∈ cells →
      AsksBlock cs st ∨ AsksBlock cs rst ∨ AsksBlock cs cst → i ∈ iss → SaysText t i → BlockText cs t (.table st rh rows)
  | cellBox {st rh rows rst cells cst cspan rspan iss bst b i} : .mk rst cells ∈ rows → .mk cst cspan rspan iss ∈ cells → .box bst b ∈ iss →
      AsksBlock cs bst → i ∈ b → SaysText t i → BlockText cs t (.table st rh rows)

/-- `i` is an image with the source `src`, or a table with such an image in a cell. -/
inductive ShowsImage (src : Str) : Instr → Prop
  | image {st} : ShowsImage src (.image st src)
  | cell {st rh rows rst cells cst cspan rspan iss ist} : .mk rst cells ∈ rows → .mk cst cspan rspan iss ∈ cells → .image ist src ∈ iss →
      ShowsImage src (.table st rh rows)

/-- The instructions of a document. -/
def instrsOf (ctx : Ctx) : List Instr := ctx.header ++ ctx.footer ++ ctx.body

/-- The same document, the same hyphenation of the words of its block texts and the same for the images it shows. -/
structure SameOutside (ctx ctx' : Ctx) : Prop where
  classes : ctx'.classes = ctx.classes
  header : ctx'.header = ctx.header
  footer : ctx'.footer = ctx.footer
  body : ctx'.body = ctx.body
  hyphenate : ∀ i ∈ instrsOf ctx, ∀ t, BlockText ctx.classes t i → ∀ page, ∀ w ∈ piecesOf page t, ctx'.hyphenate w = ctx.hyphenate w
  resolve : ∀ i ∈ instrsOf ctx, ∀ src, ShowsImage src i → ctx'.resolve src = ctx.resolve src
  describe : ∀ i ∈ instrsOf ctx, ∀ src, ShowsImage src i → ctx'.describe (ctx.resolve src) = ctx.describe (ctx.resolve src)

end Verif.Spec
