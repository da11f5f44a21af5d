import Verif.Model.Style
/-
Specification of style texts, values, class sheets and the cascade.  Only the types `Styles`, `Leaf` and the
like are taken from the model; the grammar is stated by relations over texts.
-/
namespace Verif.Spec
open Verif.Go Verif.Model

/-- The blanks of style texts. -/
def Blank (c : UInt8) : Prop := c = 32 ∨ c = 13 ∨ c = 10 ∨ c = 9

/-- `t` is `k` with blanks around it, and `k` neither starts nor ends with a blank. -/
def Strips (t k : Str) : Prop :=
  ∃ a b, t = a ++ k ++ b ∧ (∀ c ∈ a, Blank c) ∧ (∀ c ∈ b, Blank c) ∧
    (∀ c, k.head? = some c → ¬ Blank c) ∧ (∀ c, k.getLast? = some c → ¬ Blank c)

/-- Meaning of one piece of a style text: nothing (only blanks) or one declaration. -/
inductive Piece : Str → List (Str × Str) → Prop
  | blank {p} : (∀ c ∈ p, Blank c) → Piece p []
  | decl {p k v key val} : p = k ++ 58 :: v → (58 : UInt8) ∉ k → (58 : UInt8) ∉ v → Strips k key → Strips v val →
      Piece p [(key, val)]

/-- Grammar of style texts: pieces without ';', separated by ';', each with its declarations. -/
inductive Decls : Str → List (Str × Str) → Prop
  | last {p d} : (59 : UInt8) ∉ p → Piece p d → Decls p d
  | more {p d rest ds} : (59 : UInt8) ∉ p → Piece p d → Decls rest ds → Decls (p ++ 59 :: rest) (d ++ ds)

/-- The value that counts for a key: that of its last declaration. -/
def lastValue (k : Str) : List (Str × Str) → Option Str
  | [] => none
  | (k', v) :: ds =>
    match lastValue k ds with
    | some w => some w
    | none => if k' = k then some v else none

/-- `p` is one of the maximal ';'-free pieces of `s`. -/
def IsPiece (s p : Str) : Prop :=
  (59 : UInt8) ∉ p ∧ ∃ a b, s = a ++ p ++ b ∧ (a = [] ∨ ∃ a', a = a' ++ [59]) ∧ (b = [] ∨ ∃ b', b = 59 :: b')

/-- The twenty style properties. -/
inductive Prp
  | fontFamily | fontPointSize | fontStyle | fontWeight | fontDecoration
  | border | padding | margin
  | width | height | lineSpacing | offsetX | offsetY
  | columnWidth | hAlign | vAlign
  | color | textColor | backgroundColor | lineWidth
deriving DecidableEq

/-- Their names in style texts. -/
def Prp.name : Prp → Str
  | fontFamily => b!"font-family" | fontPointSize => b!"font-point-size" | fontStyle => b!"font-style"
  | fontWeight => b!"font-weight" | fontDecoration => b!"font-decoration"
  | border => b!"border" | padding => b!"padding" | margin => b!"margin"
  | width => b!"width" | height => b!"height" | lineSpacing => b!"line-spacing"
  | offsetX => b!"offset-x" | offsetY => b!"offset-y"
  | columnWidth => b!"column-width" | hAlign => b!"h-align" | vAlign => b!"v-align"
  | color => b!"color" | textColor => b!"text-color" | backgroundColor => b!"background-color"
  | lineWidth => b!"line-width"

/-- Their values in `Styles`. -/
def Prp.get (s : Styles) : Prp → Leaf
  | fontFamily => .str s.font.family | fontPointSize => .flt s.font.pointSize | fontStyle => .str s.font.style
  | fontWeight => .str s.font.weight | fontDecoration => .str s.font.decoration
  | border => .border s.box.border | padding => .quad s.box.padding | margin => .quad s.box.margin
  | width => .flt s.dim.width | height => .flt s.dim.height | lineSpacing => .flt s.dim.lineSpacing
  | offsetX => .flt s.dim.offsetX | offsetY => .flt s.dim.offsetY
  | columnWidth => .flt s.columnWidth | hAlign => .str s.align.h | vAlign => .str s.align.v
  | color => .rgb s.color.foreground | textColor => .rgb s.color.text | backgroundColor => .rgb s.color.background
  | lineWidth => .flt s.lineWidth

/-- How values are read: texts as they are, numbers, integer quadruples, number quadruples, colors (the last three
by the UnmarshalStyle methods, which C16 and C17 specify). -/
def Prp.read (fl : Floats) (p : Prp) (v : Str) : Option Leaf :=
  match p with
  | fontFamily | fontStyle | fontWeight | fontDecoration | hAlign | vAlign => some (.str v)
  | fontPointSize | width | height | lineSpacing | offsetX | offsetY | columnWidth | lineWidth =>
    (fl.parseFloat v).map .flt
  | border => (unmarshalBorder v).map .border
  | padding | margin => (unmarshalQuad fl v).map .quad
  | color | textColor | backgroundColor => (unmarshalRGB v).map .rgb

/-- What declarations set: for each property the value read from its last declaration. -/
def sets (fl : Floats) (ds : List (Str × Str)) (p : Prp) : Option Leaf :=
  match lastValue p.name ds with
  | some v => p.read fl v
  | none => none

/-- The value of a property after several sources, applied one after the other: the last source that sets it wins,
otherwise the inherited value. -/
def lastSetter (sources : List (Prp → Option Leaf)) (inherited : Leaf) (p : Prp) : Leaf :=
  match sources.reverse.filterMap (fun σ => σ p) with
  | v :: _ => v
  | [] => inherited

/-! ### Values -/

/-- Value of a hex digit by its place in the alphabet. -/
def hexDigit (c : UInt8) : Option Nat :=
  match (b!"0123456789abcdef").idxOf? c with
  | some i => some i
  | none => (b!"0123456789ABCDEF").idxOf? c

/-- Two hex digits as a number. -/
def HexPair (a b : UInt8) (n : Int) : Prop :=
  ∃ x y : Nat, hexDigit a = some x ∧ hexDigit b = some y ∧ n = 16 * x + y

/-- The lower-case hex digit of a number below 16. -/
def hexChar (n : Nat) : UInt8 := (b!"0123456789abcdef").getD n 0

/-- A number below 256 as two hex digits. -/
def hex2 (n : Nat) : Str := [hexChar (n / 16), hexChar (n % 16)]

/-- Decimal digits and their value. -/
inductive Digits : List Nat → Nat → Prop
  | one {d} : d < 10 → Digits [48 + d] d
  | snoc {ds n d} : Digits ds n → d < 10 → Digits (ds ++ [48 + d]) (10 * n + d)

/-- An optionally signed decimal integer in the 64-bit range. -/
inductive IntText : List Nat → Int → Prop
  | plain {ds n} : Digits ds n → n < 2 ^ 63 → IntText ds n
  | plus {ds n} : Digits ds n → n < 2 ^ 63 → IntText (43 :: ds) n
  | minus {ds n} : Digits ds n → n ≤ 2 ^ 63 → IntText (45 :: ds) (-n)

/-- The white space skipped before a number (Unicode spaces, but no newline). -/
def Gap (w : List Nat) : Prop := ∀ r ∈ w, isSpaceRune r = true ∧ r ≠ 10

/-- Four items, separated by commas, each after optional white space; anything may follow. -/
def QuadText {α : Type} (item : List Nat → List Nat → α → Prop) (rs : List Nat) (a b c d : α) : Prop :=
  ∃ w1 t1 w2 t2 w3 t3 w4 t4 rest,
    rs = w1 ++ (t1 ++ 44 :: (w2 ++ (t2 ++ 44 :: (w3 ++ (t3 ++ 44 :: (w4 ++ (t4 ++ rest))))))) ∧
    Gap w1 ∧ Gap w2 ∧ Gap w3 ∧ Gap w4 ∧
    item t1 [44] a ∧ item t2 [44] b ∧ item t3 [44] c ∧ item t4 rest d

/-- An integer item: not followed by a further digit. -/
def intItem (t rest : List Nat) (n : Int) : Prop :=
  IntText t n ∧ ∀ r, rest.head? = some r → ¬ (48 ≤ r ∧ r ≤ 57)

/-- A plain decimal number: optional sign, digits, optionally a period and more digits; at least one digit or period. -/
inductive PlainNumber : List Nat → Prop
  | mk {sg ds fr : List Nat} : (sg = [] ∨ sg = [43] ∨ sg = [45]) → (∀ r ∈ ds, 48 ≤ r ∧ r ≤ 57) →
      (fr = [] ∧ ds ≠ [] ∨ ∃ fs, fr = 46 :: fs ∧ ∀ r ∈ fs, 48 ≤ r ∧ r ≤ 57) → PlainNumber (sg ++ (ds ++ fr))

/-- Runes that can continue a number: digits, '_', '.', exponent and hex letters. -/
def continuesNumber (r : Nat) : Prop :=
  (48 ≤ r ∧ r ≤ 57) ∨ r = 95 ∨ r = 46 ∨ r = 69 ∨ r = 101 ∨ r = 80 ∨ r = 112 ∨ r = 88 ∨ r = 120

/-- A number item: a plain number that ends there, with the value the float conversion gives it. -/
def plainItem (fl : Floats) (t rest : List Nat) (q : ℚ) : Prop :=
  PlainNumber t ∧ fl.convertFloat (runeBytes t) = some q ∧ ∀ r, rest.head? = some r → ¬ continuesNumber r

/-- A number item of any notation: some token with a value. -/
def anyItem (fl : Floats) (t _rest : List Nat) (q : ℚ) : Prop := fl.convertFloat (runeBytes t) = some q

/-! ### Class sheets -/

/-- A block of a class sheet: the text before '{' and the text between the braces. -/
structure Block where
  head : Str
  body : Str

/-- The text of a block. -/
def Block.text (b : Block) : Str := b.head ++ 123 :: (b.body ++ [125])

/-- Well-formed: the head has no '{', the body has no '}'. -/
def Block.ok (b : Block) : Prop := (123 : UInt8) ∉ b.head ∧ (125 : UInt8) ∉ b.body

/-- What a class does: its own setting and those of its selectors. -/
structure ClassMeaning where
  own : Prp → Option Leaf
  sel : Str → Option (Prp → Option Leaf)

/-- What a sheet defines. -/
abbrev SheetMeaning := Str → Option ClassMeaning

/-- Entering `name { σ }`: without ':' (or with ':' in front) a new class without selectors, which replaces one of the
same name; `base:sel` adds a selector to an existing class. -/
inductive Enter : SheetMeaning → Str → (Prp → Option Leaf) → SheetMeaning → Prop
  | plain {S name σ} : (58 : UInt8) ∉ name →
      Enter S name σ (fun n => if n = name then some ⟨σ, fun _ => none⟩ else S n)
  | colon {S rest σ} :
      Enter S (58 :: rest) σ (fun n => if n = 58 :: rest then some ⟨σ, fun _ => none⟩ else S n)
  | selector {S : SheetMeaning} {base sel σ C} : base ≠ [] → (58 : UInt8) ∉ base → S base = some C →
      Enter S (base ++ 58 :: sel) σ
        (fun n => if n = base then some { C with sel := fun t => if t = sel then some σ else C.sel t } else S n)

/-- A body is correct and sets `σ`. -/
def BodySets (fl : Floats) (body : Str) (σ : Prp → Option Leaf) : Prop :=
  ∃ ds, Decls body ds ∧ (∀ p v, lastValue (Prp.name p) ds = some v → (p.read fl v).isSome) ∧ lastValue [] ds = none ∧
    σ = sets fl ds

/-- The meaning of a list of blocks, entered one after the other. -/
inductive Sheet (fl : Floats) : SheetMeaning → List Block → SheetMeaning → Prop
  | nil {S} : Sheet fl S [] S
  | cons {S S' S'' b bs name σ} : Strips b.head name → name ≠ [] → BodySets fl b.body σ → Enter S name σ S' →
      Sheet fl S' bs S'' → Sheet fl S (b :: bs) S''

/-- Text of several blocks. -/
def blocksText (bs : List Block) : Str := bs.flatMap Block.text

/-! ### What the decoded things do -/

/-- A mutator sets what `σ` says, on every style, and never panics. -/
def Behaves (m : Mutator) (σ : Prp → Option Leaf) : Prop :=
  ∀ s, mutate? m s = some (mutate m s) ∧ ∀ p : Prp, p.get (mutate m s) = (σ p).getD (p.get s)

/-- Both absent, or both present and related. -/
def OptRel {α β : Type} (R : α → β → Prop) : Option α → Option β → Prop
  | none, none => True
  | some a, some b => R a b
  | _, _ => False

/-- A class does what its meaning says. -/
def ClassRep (c : Class) (C : ClassMeaning) : Prop :=
  Behaves c.mutator C.own ∧ ∀ t, OptRel Behaves (mapGet t c.selectors) (C.sel t)

/-- The classes do what the sheet's meaning says. -/
def Rep (cs : Classes) (S : SheetMeaning) : Prop := ∀ n, OptRel ClassRep (mapGet n cs) (S n)

/-- CR, LF and TAB as spaces. -/
def flat (s : Str) : Str := s.map (fun c => if c = 13 ∨ c = 10 ∨ c = 9 then 32 else c)

end Verif.Spec
