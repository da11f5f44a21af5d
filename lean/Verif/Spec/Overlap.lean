import Verif.Spec.Tiles
import Verif.Spec.Spans
import Verif.Spec.Frame
/-
What C101 talks about: documents with texts, boxes and tables, in which nothing is put over something else.
-/
namespace Verif.Spec
open Verif.Go Verif.Model

/-- If both are texts: the second is not on an earlier page than the first, and their rectangles have no inner point in common. -/
def Separate (p : Paper) : Mark → Mark → Prop
  | .text n x y f c t, .text n' x' y' f' c' t' => n ≤ n' ∧ Apart p (.text n x y f c t) (.text n' x' y' f' c' t')
  | _, _ => True

/-- No cell of the header rows extends over rows below them. -/
def HeadersEndIn (rows : List TableRow) (rh : Int) : Prop := ∀ (i : Nat) (x : TableRow), rows[i]? = some x → (i : Int) < rh → ∀ c ∈ x.cells, (i : Int) + extent c.rowSpan ≤ rh

/-- The rows of a table of text, as they are laid out: lines are not closer than the font is high, there is no negative padding, and each row fits on a page, below the header rows. -/
structure TidyRows (p : Paper) (cs : Classes) (rh : Int) (rows : List SetRow) : Prop where
  cells : ∀ r ∈ rows, ∀ w c, (w, some c) ∈ r.cells → TextCell p cs c.sty c.iss c.width ∧ 0 ≤ c.sty.box.padding.right ∧ 1 ≤ c.sty.dim.lineSpacing ∧ 0 ≤ c.sty.font.pointSize
  widths : ∀ r ∈ rows, ∀ x ∈ r.cells, 0 ≤ x.1
  fits : ∀ r ∈ rows, p.margins.top + ((rows.take rh.toNat).map (·.height)).sum + r.reach ≤ p.height - p.margins.bottom

/-- A table, with whatever font and on whatever page it comes: its cells do not share positions (the conditions of C25), those of the header rows end there, and its rows are as above.
Tables without columns do nothing. -/
def TableStacks (p : Paper) (ctx : Ctx) (F : Font → Prop) (st : Styled) (rh : Int) (rows : List TableRow) : Prop :=
  longest (tablePlaces rows) ≠ 0 → NoBlocksIn rows ∧ RowsClearIn rows ∧ DescendingIn rows ∧ HeadersEndIn rows rh ∧
    ∀ f, F f → ∀ k : Nat, let sty := st.mutatedStyles ctx.classes { defaultStyle with font := f }
      TidyRows p ctx.classes rh (layTable (fun sty iss w (_ : Unit) => (heightOn p ctx k sty iss w, ())) ctx.classes (wideSet ((printable p).x1 - (printable p).x0) sty.dim.width) sty rows ()).1

/-- A box as in C98 that does not reach over the left edge of the page, with whatever font it comes. -/
def BoxTidy (ctx : Ctx) (F : Font → Prop) (st : Styled) (iss : List Instr) : Prop :=
  BoxStacks ctx F st iss ∧ ∀ f, F f → let sty := st.mutatedStyles ctx.classes { defaultStyle with font := f }
    0 ≤ sty.dim.offsetX + sty.box.padding.left

/-- Instructions that only move down, with tables; SetY only if `fresh`: nothing of the body is on the page yet. -/
def Tidy (p : Paper) (ctx : Ctx) (F : Font → Prop) : Bool → List Instr → Prop
  | _, [] => True
  | _, .text st iss :: is => TextStacks ctx F st iss ∧ Tidy p ctx F false is
  | _, .box st iss :: is => BoxTidy ctx F st iss ∧ Tidy p ctx F false is
  | _, .table st rh rows :: is => TableStacks p ctx F st rh rows ∧ Tidy p ctx F false is
  | fresh, .setX x :: is => 0 ≤ x ∧ Tidy p ctx F fresh is
  | fresh, .setY y :: is => fresh = true ∧ p.margins.top ≤ y ∧ Tidy p ctx F true is
  | fresh, .lineFeed n :: is => 0 ≤ n ∧ Tidy p ctx F fresh is
  | _, .pageBreak :: is => Tidy p ctx F true is
  | fresh, _ :: is => Tidy p ctx F fresh is

end Verif.Spec
