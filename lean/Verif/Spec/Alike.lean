import Verif.Model.Doc
/-
When two documents look the same: they differ only in how the styles of their elements are represented (the order of the
settings of a mutator, which depends on the iteration order of a Go map), not in what these styles do.
-/
namespace Verif.Spec
open Verif.Go Verif.Model

/-- Two styles of elements, each with the classes of its document, do the same to every style: without selector and with any. -/
def SameEffect (cs cs' : Classes) (st st' : Styled) : Prop :=
  (∀ s, st.mutatedStyles cs s = st'.mutatedStyles cs' s) ∧
  ∀ sel s, st.mutatedStylesWithSelector sel cs s = st'.mutatedStylesWithSelector sel cs' s

/-- The elements that have styles. -/
inductive StyledKind
  | font | text | paragraph | box | image | table | row | cell | grid | gridRow | gridPart
deriving DecidableEq

mutual
/-- Two instructions are the same but for their styles, which are related by `R` (which can depend on the element), and their texts, which are related by `T`. -/
inductive Alike (R : StyledKind → Styled → Styled → Prop) (T : Str → Str → Prop) : Instr → Instr → Prop
  | font {st st'} : R .font st st' → Alike R T (.font st) (.font st')
  | lineFeed (n) : Alike R T (.lineFeed n) (.lineFeed n)
  | setX (x) : Alike R T (.setX x) (.setX x)
  | setY (y) : Alike R T (.setY y) (.setY y)
  | box {st st' iss iss'} : R .box st st' → AlikeAll R T iss iss' → Alike R T (.box st iss) (.box st' iss')
  | text {st st' iss iss'} : R .text st st' → AlikeAll R T iss iss' → Alike R T (.text st iss) (.text st' iss')
  | image {st st'} (src) : R .image st st' → Alike R T (.image st src) (.image st' src)
  | textBlock {t t'} : T t t' → Alike R T (.textBlock t) (.textBlock t')
  | paragraph {st st' t t'} : R .paragraph st st' → T t t' → Alike R T (.paragraph st t) (.paragraph st' t')
  | lineBreak : Alike R T .lineBreak .lineBreak
  | pageBreak : Alike R T .pageBreak .pageBreak
  | table {st st' rows rows'} (rh) : R .table st st' → AlikeRows R T rows rows' → Alike R T (.table st rh rows) (.table st' rh rows')
  | tableRow {r r'} : AlikeRow R T r r' → Alike R T (.tableRow r) (.tableRow r')
  | tableCell {c c'} : AlikeCell R T c c' → Alike R T (.tableCell c) (.tableCell c')
  | grid {st st' rows rows' parts parts'} : R .grid st st' → List.Forall₂ (fun a b => R .gridRow a.1 b.1 ∧ a.2 = b.2) rows rows' →
      AlikeParts R T parts parts' → Alike R T (.grid st rows parts) (.grid st' rows' parts')
  | gridRow {st st'} (areas) : R .gridRow st st' → Alike R T (.gridRow st areas) (.gridRow st' areas)
  | gridPart {p p'} : AlikePart R T p p' → Alike R T (.gridPart p) (.gridPart p')
inductive AlikeAll (R : StyledKind → Styled → Styled → Prop) (T : Str → Str → Prop) : List Instr → List Instr → Prop
  | nil : AlikeAll R T [] []
  | cons {i i' is is'} : Alike R T i i' → AlikeAll R T is is' → AlikeAll R T (i :: is) (i' :: is')
inductive AlikeRow (R : StyledKind → Styled → Styled → Prop) (T : Str → Str → Prop) : TableRow → TableRow → Prop
  | mk {st st' cells cells'} : R .row st st' → AlikeCells R T cells cells' → AlikeRow R T (.mk st cells) (.mk st' cells')
inductive AlikeRows (R : StyledKind → Styled → Styled → Prop) (T : Str → Str → Prop) : List TableRow → List TableRow → Prop
  | nil : AlikeRows R T [] []
  | cons {r r' rs rs'} : AlikeRow R T r r' → AlikeRows R T rs rs' → AlikeRows R T (r :: rs) (r' :: rs')
inductive AlikeCell (R : StyledKind → Styled → Styled → Prop) (T : Str → Str → Prop) : TableCell → TableCell → Prop
  | mk {st st' iss iss'} (colSpan rowSpan) : R .cell st st' → AlikeAll R T iss iss' →
      AlikeCell R T (.mk st colSpan rowSpan iss) (.mk st' colSpan rowSpan iss')
inductive AlikeCells (R : StyledKind → Styled → Styled → Prop) (T : Str → Str → Prop) : List TableCell → List TableCell → Prop
  | nil : AlikeCells R T [] []
  | cons {c c' cs cs'} : AlikeCell R T c c' → AlikeCells R T cs cs' → AlikeCells R T (c :: cs) (c' :: cs')
inductive AlikePart (R : StyledKind → Styled → Styled → Prop) (T : Str → Str → Prop) : GridPart → GridPart → Prop
  | mk {st st' iss iss'} (area) : R .gridPart st st' → AlikeAll R T iss iss' → AlikePart R T (.mk st area iss) (.mk st' area iss')
inductive AlikeParts (R : StyledKind → Styled → Styled → Prop) (T : Str → Str → Prop) : List GridPart → List GridPart → Prop
  | nil : AlikeParts R T [] []
  | cons {p p' ps ps'} : AlikePart R T p p' → AlikeParts R T ps ps' → AlikeParts R T (p :: ps) (p' :: ps')
end

/-- Two documents look the same. -/
structure LookAlike (d d' : Document) : Prop where
  info : d.info = d'.info
  page : d.page = d'.page
  header : AlikeAll (fun _ => SameEffect d.styleClasses d'.styleClasses) Eq d.header d'.header
  footer : AlikeAll (fun _ => SameEffect d.styleClasses d'.styleClasses) Eq d.footer d'.footer
  body : AlikeAll (fun _ => SameEffect d.styleClasses d'.styleClasses) Eq d.body d'.body

end Verif.Spec
