import Verif.Spec.Style
import Verif.Model.Process
import Verif.Model.Fpdf
/-
Where the values of style properties come from: what C84 and C85 talk about.
-/
namespace Verif.Spec
open Verif.Go Verif.Model

/-- `st` is the style of the instruction `i`, or of a row, a cell or an instruction in it.  Styles of images and grids are left out,
as no text and no box is drawn in them. -/
inductive StyleIn (st : Styled) : Instr → Prop
  | font : StyleIn st (.font st)
  | text {iss} : StyleIn st (.text st iss)
  | textIn {st' iss i} : i ∈ iss → StyleIn st i → StyleIn st (.text st' iss)
  | paragraph {t} : StyleIn st (.paragraph st t)
  | box {iss} : StyleIn st (.box st iss)
  | boxIn {st' iss i} : i ∈ iss → StyleIn st i → StyleIn st (.box st' iss)
  | table {rh rows} : StyleIn st (.table st rh rows)
  | row {st' rh rows cells} : .mk st cells ∈ rows → StyleIn st (.table st' rh rows)
  | cell {st' rh rows st'' cells cspan rspan iss} : .mk st'' cells ∈ rows → .mk st cspan rspan iss ∈ cells → StyleIn st (.table st' rh rows)
  | cellIn {st' rh rows st'' cells st3 cspan rspan iss i} : .mk st'' cells ∈ rows → .mk st3 cspan rspan iss ∈ cells → i ∈ iss → StyleIn st i →
      StyleIn st (.table st' rh rows)

/-- The settings a style consists of: its own ones, and those of its classes, with and without selector. -/
inductive Setting (cs : Classes) (st : Styled) : Mutator → Prop
  | inline {m} : m ∈ st.mutators → Setting cs st m
  | own {n c} : n ∈ st.classes → mapGet n cs = some c → Setting cs st c.mutator
  | selector {n c sel m} : n ∈ st.classes → mapGet n cs = some c → mapGet sel c.selectors = some m → Setting cs st m

/-- The setting gives the property this value, whatever it was before. -/
def Makes (m : Mutator) (p : Prp) (v : Leaf) : Prop := ∀ s, p.get (mutate m s) = v

/-- The value is the default one, or a style in the document gives it to this very property. -/
def Origin (ctx : Ctx) (p : Prp) (v : Leaf) : Prop :=
  v = p.get defaultStyle ∨
  ∃ i ∈ ctx.header ++ ctx.footer ++ ctx.body, ∃ st m, StyleIn st i ∧ Setting ctx.classes st m ∧ Makes m p v

/-- All parts of the font have an origin. -/
structure FontOrigin (ctx : Ctx) (f : Font) : Prop where
  family : Origin ctx .fontFamily (.str f.family)
  pointSize : Origin ctx .fontPointSize (.flt f.pointSize)
  style : Origin ctx .fontStyle (.str f.style)
  weight : Origin ctx .fontWeight (.str f.weight)
  decoration : Origin ctx .fontDecoration (.str f.decoration)

/-- What is put on a page has an origin: fonts and colors of texts, colors and widths of lines and backgrounds. -/
def MarkOrigin (ctx : Ctx) : Mark → Prop
  | .text _ _ _ f c _ => FontOrigin ctx f ∧ Origin ctx .textColor (.rgb c)
  | .draw _ (.setLineWidth w) => Origin ctx .lineWidth (.flt w)
  | .draw _ (.setDrawColor c) => Origin ctx .color (.rgb c)
  | .draw _ (.setFillColor c) => Origin ctx .backgroundColor (.rgb c)
  | _ => True

end Verif.Spec
