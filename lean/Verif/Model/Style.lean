import Verif.Go.Strconv
import Verif.Go.Space
/-
Model of package style (/repo/style) and of /repo/xdoc/style.go: style declarations, classes, the cascade.
-/
namespace Verif.Model
open Verif.Go

/-- style/color.go:11-13, `RGB`. -/
structure RGB where
  r : Int
  g : Int
  b : Int
deriving DecidableEq, Repr

/-- style/box.go:10-29, `Border` (α = int), `Padding` and `Margin` (α = float64). -/
structure Quad (α : Type) where
  left : α
  top : α
  right : α
  bottom : α
deriving DecidableEq, Repr

/-- style/font.go:24-30, `Font`. -/
structure Font where
  family : Str
  pointSize : ℚ
  style : Str
  weight : Str
  decoration : Str
deriving DecidableEq

/-- style/box.go:31-35, `Box`. -/
structure BoxStyle where
  border : Quad Int
  padding : Quad ℚ
  margin : Quad ℚ
deriving DecidableEq

/-- style/dim.go:3-9, `Dimension`. -/
structure Dimension where
  width : ℚ
  height : ℚ
  lineSpacing : ℚ
  offsetX : ℚ
  offsetY : ℚ
deriving DecidableEq

/-- style/align.go:20-23, `Align`. -/
structure Align where
  h : Str
  v : Str
deriving DecidableEq

/-- style/color.go:51-55, `Color`. -/
structure Color where
  foreground : RGB
  text : RGB
  background : RGB
deriving DecidableEq

/-- style/style.go:3-11, `Styles`; the one-field structs `Table` (style/table.go:3-5) and `Draw`
(style/draw.go:3-5) are the fields `columnWidth` and `lineWidth`. -/
structure Styles where
  font : Font
  box : BoxStyle
  dim : Dimension
  columnWidth : ℚ
  align : Align
  color : Color
  lineWidth : ℚ
deriving DecidableEq

/-! ### Reflection over `Styles` -/

/-- The classes of `reflect.Kind` distinguished by makeSetValueFnc. -/
inductive Kind | string | float | int | uint | struct
deriving DecidableEq

/-- The types with an UnmarshalStyle method. -/
inductive Um | rgb | border | padding | margin
deriving DecidableEq

/-- The fields of a struct type as reflection shows them: style tag ("" if untagged), kind, UnmarshalStyle
method of the pointer type if any, and the fields of the field's own type if it is a struct. -/
inductive Fields
  | nil
  | cons (tag : Str) (kind : Kind) (um : Option Um) (sub : Fields) (rest : Fields)

/-- A field of a non-struct type without UnmarshalStyle. -/
def leafField (tag : Str) (kind : Kind) (rest : Fields) : Fields := .cons tag kind none .nil rest

/-- style/color.go:11-13, the fields of `RGB`. -/
def rgbFields : Fields := leafField [] .int (leafField [] .int (leafField [] .int .nil))
/-- style/box.go:10-29, the fields of `Border`, `Padding`, `Margin`. -/
def quadFields (k : Kind) : Fields := leafField [] k (leafField [] k (leafField [] k (leafField [] k .nil)))

/-- style/font.go:24-30 -/
def fontFields : Fields :=
  leafField b!"font-family" .string <| leafField b!"font-point-size" .float <|
  leafField b!"font-style" .string <| leafField b!"font-weight" .string <|
  leafField b!"font-decoration" .string .nil
/-- style/box.go:31-35 -/
def boxFields : Fields :=
  .cons b!"border" .struct (some .border) (quadFields .int) <|
  .cons b!"padding" .struct (some .padding) (quadFields .float) <|
  .cons b!"margin" .struct (some .margin) (quadFields .float) .nil
/-- style/dim.go:3-9 -/
def dimFields : Fields :=
  leafField b!"width" .float <| leafField b!"height" .float <| leafField b!"line-spacing" .float <|
  leafField b!"offset-x" .float <| leafField b!"offset-y" .float .nil
/-- style/table.go:3-5 -/
def tableFields : Fields := leafField b!"column-width" .float .nil
/-- style/align.go:20-23 -/
def alignFields : Fields := leafField b!"h-align" .string <| leafField b!"v-align" .string .nil
/-- style/color.go:51-55 -/
def colorFields : Fields :=
  .cons b!"color" .struct (some .rgb) rgbFields <|
  .cons b!"text-color" .struct (some .rgb) rgbFields <|
  .cons b!"background-color" .struct (some .rgb) rgbFields .nil
/-- style/draw.go:3-5 -/
def drawFields : Fields := leafField b!"line-width" .float .nil
/-- style/style.go:3-11: embedded structs without tags. -/
def stylesFields : Fields :=
  .cons [] .struct none fontFields <| .cons [] .struct none boxFields <| .cons [] .struct none dimFields <|
  .cons [] .struct none tableFields <| .cons [] .struct none alignFields <| .cons [] .struct none colorFields <|
  .cons [] .struct none drawFields .nil

/-- A decoded value, ready to be stored in a field. -/
inductive Leaf
  | str (s : Str)
  | flt (q : ℚ)
  | int (n : Int)
  | uint (n : Nat)
  | rgb (c : RGB)
  | border (q : Quad Int)
  | quad (q : Quad ℚ)
deriving DecidableEq

/-- The effect of `rVal.Field(i).Field(j)...; setValue(rVal)` (style/decode.go:108-114).  `none` is a reflect
panic (bad path or wrong type); paths into the inside of Border, Padding, Margin, RGB are not modelled, as no
key leads there. -/
def setAt (path : List Nat) (v : Leaf) (s : Styles) : Option Styles :=
  match path, v with
  | [0, 0], .str x => some { s with font := { s.font with family := x } }
  | [0, 1], .flt x => some { s with font := { s.font with pointSize := x } }
  | [0, 2], .str x => some { s with font := { s.font with style := x } }
  | [0, 3], .str x => some { s with font := { s.font with weight := x } }
  | [0, 4], .str x => some { s with font := { s.font with decoration := x } }
  | [1, 0], .border x => some { s with box := { s.box with border := x } }
  | [1, 1], .quad x => some { s with box := { s.box with padding := x } }
  | [1, 2], .quad x => some { s with box := { s.box with margin := x } }
  | [2, 0], .flt x => some { s with dim := { s.dim with width := x } }
  | [2, 1], .flt x => some { s with dim := { s.dim with height := x } }
  | [2, 2], .flt x => some { s with dim := { s.dim with lineSpacing := x } }
  | [2, 3], .flt x => some { s with dim := { s.dim with offsetX := x } }
  | [2, 4], .flt x => some { s with dim := { s.dim with offsetY := x } }
  | [3, 0], .flt x => some { s with columnWidth := x }
  | [4, 0], .str x => some { s with align := { s.align with h := x } }
  | [4, 1], .str x => some { s with align := { s.align with v := x } }
  | [5, 0], .rgb x => some { s with color := { s.color with foreground := x } }
  | [5, 1], .rgb x => some { s with color := { s.color with text := x } }
  | [5, 2], .rgb x => some { s with color := { s.color with background := x } }
  | [6, 0], .flt x => some { s with lineWidth := x }
  | _, _ => none

/-! ### Values -/

/-- style/color.go:34-49, `RGB.UnmarshalStyle`; `none` is an error. -/
def unmarshalRGB (s : Str) : Option RGB :=
  let s := if List.isPrefixOf b!"#" s then s.drop 1 else s
  if s.length ≠ 6 then none
  else match parseUint 16 32 s with
    | none => none
    | some n => some { r := (n / 2 ^ 16 : Nat), g := (n / 2 ^ 8 % 2 ^ 8 : Nat), b := (n % 2 ^ 8 : Nat) }

/-- style/box.go:37-43, `Border.UnmarshalStyle`. -/
def unmarshalBorder (v : Str) : Option (Quad Int) :=
  match scanQuad scanInt v with
  | none => none
  | some (l, t, r, b) => some { left := l, top := t, right := r, bottom := b }

/-- style/box.go:45-51 and 53-59, `Padding.UnmarshalStyle` and `Margin.UnmarshalStyle`. -/
def unmarshalQuad (fl : Floats) (v : Str) : Option (Quad ℚ) :=
  match scanQuad (scanFloat fl) v with
  | none => none
  | some (l, t, r, b) => some { left := l, top := t, right := r, bottom := b }

/-- The UnmarshalStyle methods. -/
def unmarshal (fl : Floats) (um : Um) (v : Str) : Option Leaf :=
  match um with
  | .rgb => (unmarshalRGB v).map .rgb
  | .border => (unmarshalBorder v).map .border
  | .padding => (unmarshalQuad fl v).map .quad
  | .margin => (unmarshalQuad fl v).map .quad

/-- style/decode.go:128-161, makeSetValueFnc: the value that will be set; `none` is an error. -/
def makeSetValue (fl : Floats) (k : Kind) (v : Str) : Option Leaf :=
  match k with
  | .string => some (.str v)
  | .float => (fl.parseFloat v).map .flt
  | .int => (parseInt v).map .int
  | .uint => (parseUint 10 64 v).map .uint
  | .struct => none

/-! ### Declarations -/

/-- Go's `" \r\n\t"` as a cut set. -/
def styleWs (c : UInt8) : Bool := c == 32 || c == 13 || c == 10 || c == 9

/-- style/decode.go:13-15, trimWS. -/
def trimWS (s : Str) : Str := trim styleWs s

/-- Assignment `m[k] = v` to a Go map; a map is an association list with distinct keys. -/
def mapSet {β : Type} (k : Str) (v : β) : List (Str × β) → List (Str × β)
  | [] => [(k, v)]
  | (k', v') :: m => if k' = k then (k, v) :: m else (k', v') :: mapSet k v m

/-- Map lookup. -/
def mapGet {β : Type} (k : Str) : List (Str × β) → Option β
  | [] => none
  | (k', v') :: m => if k' = k then some v' else mapGet k m

/-- style/decode.go:20-30, the loop of parseRaw over the pieces. -/
def parseRawLoop : List Str → List (Str × Str) → Option (List (Str × Str))
  | [], raw => some raw
  | p :: ps, raw =>
    let styleStr := trimWS p
    if styleStr.length = 0 then parseRawLoop ps raw
    else match split 58 styleStr with
      | [k, v] => parseRawLoop ps (mapSet (trimWS k) (trimWS v) raw)
      | _ => none

/-- style/decode.go:17-32, parseRaw. -/
def parseRaw (s : Str) : Option (List (Str × Str)) := parseRawLoop (split 59 s) []

/-- style/decode.go:38, MutateFnc: a path and a decoded value. -/
abbrev MutateFnc := List Nat × Leaf

/-- style/decode.go:42-44, Mutator. -/
abbrev Mutator := List MutateFnc

/-- Result of makeMutateFnc: error, not found, or found. -/
inductive Found
  | err
  | no
  | yes (f : MutateFnc)
deriving DecidableEq

/-- style/decode.go:84-126, makeMutateFnc, on the fields from index `i` on. -/
def makeMutateFnc (fl : Floats) : Fields → Nat → Str → Str → List Nat → Found
  | .nil, _, _, _, _ => .no
  | .cons tag kind um sub rest, i, key, val, path =>
    if tag = key then
      match um with
      | some u => match unmarshal fl u val with
        | none => .err
        | some v => .yes (path ++ [i], v)
      | none => match makeSetValue fl kind val with
        | none => .err
        | some v => .yes (path ++ [i], v)
    else if kind = .struct then
      match makeMutateFnc fl sub 0 key val (path ++ [i]) with
      | .err => .err
      | .yes f => .yes f
      | .no => makeMutateFnc fl rest (i + 1) key val path
    else makeMutateFnc fl rest (i + 1) key val path

/-- style/decode.go:71-80, the loop of DecodeMutator over the map in some order. -/
def decodeLoop (fl : Floats) : List (Str × Str) → Mutator → Option Mutator
  | [], m => some m
  | (k, v) :: raw, m =>
    match makeMutateFnc fl stylesFields 0 k v [] with
    | .err => none
    | .no => decodeLoop fl raw m
    | .yes f => decodeLoop fl raw (m ++ [f])

/-- A choice of iteration order for a Go map: some permutation of its entries. -/
structure MapOrder where
  order : List (Str × Str) → List (Str × Str)
  perm : ∀ l, (order l).Perm l

/-- style/decode.go:58-82, DecodeMutator; `none` is an error. -/
def decodeMutator (fl : Floats) (ord : MapOrder) (s : Str) : Option Mutator :=
  match parseRaw s with
  | none => none
  | some raw => decodeLoop fl (ord.order raw) []

/-- Mutator.Mutate (style/decode.go:52-56) with reflect panics as `none`. -/
def mutate? : Mutator → Styles → Option Styles
  | [], s => some s
  | f :: m, s => match setAt f.1 f.2 s with
    | none => none
    | some s' => mutate? m s'

/-- style/decode.go:52-56, Mutator.Mutate.  A reflect panic would leave `s` unchanged here; mutators that come
from decodeMutator never panic (`C14_no_panic`). -/
def mutate (m : Mutator) (s : Styles) : Styles :=
  m.foldl (fun s f => (setAt f.1 f.2 s).getD s) s

/-! ### Classes -/

/-- style/class.go:18-22, Class (with the selectors of lines 13-16 as a map from name to mutator). -/
structure Class where
  mutator : Mutator
  selectors : List (Str × Mutator)

/-- style/class.go:24, Classes. -/
abbrev Classes := List (Str × Class)

/-- style/class.go:26-28 -/
def Class.mutate (c : Class) (s : Styles) : Styles := Model.mutate c.mutator s

/-- style/class.go:30-37 -/
def Class.mutateWithSelector (c : Class) (sel : Str) (s : Styles) : Styles :=
  match mapGet sel c.selectors with
  | some m => Model.mutate m s
  | none => Model.mutate c.mutator s

/-- style/class.go:39-45 -/
def Classes.mutate (cs : Classes) : List Str → Styles → Styles
  | [], s => s
  | cn :: use, s =>
    match mapGet cn cs with
    | some c => Classes.mutate cs use (c.mutate s)
    | none => Classes.mutate cs use s

/-- style/class.go:47-53 -/
def Classes.mutateWithSelector (cs : Classes) (sel : Str) : List Str → Styles → Styles
  | [], s => s
  | cn :: use, s =>
    match mapGet cn cs with
    | some c => Classes.mutateWithSelector cs sel use (c.mutateWithSelector sel s)
    | none => Classes.mutateWithSelector cs sel use s

/-- style/class.go:86-109: entering the decoded block `name { md }` into the classes. -/
def addBlock (cs : Classes) (name : Str) (md : Mutator) : Option Classes :=
  match indexByte 58 name with
  | some (i + 1) =>
    let className := name.take (i + 1)
    let selName := name.drop (i + 2)
    match mapGet className cs with
    | some cl => some (mapSet className { cl with selectors := mapSet selName md cl.selectors } cs)
    | none => none
  | _ => some (mapSet name { mutator := md, selectors := [] } cs)

theorem indexByte_lt {b : UInt8} : ∀ {s : Str} {i : Nat}, indexByte b s = some i → i < s.length := by
  intro s
  induction s with
  | nil => intro i h; simp [indexByte] at h
  | cons c cs ih =>
    intro i h
    simp only [indexByte] at h
    split at h
    · simp at h; subst h; simp
    · cases hx : indexByte b cs with
      | none => simp [hx] at h
      | some j => simp [hx] at h; subst h; have := ih hx; simp; omega

/-- style/class.go:67-111, the loop of DecodeClasses; `curr` is `s[pos:]`, `n` counts the blocks (each call of
DecodeMutator has its own map order). -/
def decodeClassesLoop (fl : Floats) (ord : Nat → MapOrder) (n : Nat) (curr : Str) (cs : Classes) : Option Classes :=
  match hi : indexByte 123 curr with
  | none => some cs
  | some i =>
    let name := trimWS (curr.take i)
    if name.length = 0 then none
    else match hin : indexByte 125 (curr.drop i) with
      | none => none
      | some j =>
        let inn := j + i
        match slice? curr (i + 1) inn with
        | none => none
        | some body =>
          match decodeMutator fl (ord n) body with
          | none => none
          | some md =>
            match addBlock cs name md with
            | none => none
            | some cs' => decodeClassesLoop fl ord (n + 1) (curr.drop (inn + 1)) cs'
termination_by curr.length
decreasing_by
  have := indexByte_lt hi
  simp only [List.length_drop]; omega

/-- style/class.go:62-64: CR, LF and TAB become spaces. -/
def sheetText (s : Str) : Str := replaceAll [9] [32] (replaceAll [10] [32] (replaceAll [13] [32] s))

/-- style/class.go:55-112, DecodeClasses (the slice panic of line 80 is not distinguished from an error; it
cannot happen, `C18_no_panic`).  The message of line 97 on standard output is not modelled. -/
def decodeClasses (fl : Floats) (ord : Nat → MapOrder) (s : Str) : Option Classes :=
  decodeClassesLoop fl ord 0 (sheetText s) []

/-! ### xdoc/style.go -/

/-- An XML attribute: local name and value. -/
abbrev Attr := Str × Str

/-- xdoc/style.go:12-15, Styled. -/
structure Styled where
  mutators : List Mutator
  classes : List Str

/-- xdoc/style.go:17-30, Styled.DecodeAttrs; `ord` chooses the map order of each decoding. -/
def Styled.decodeAttrs (fl : Floats) (ord : Nat → MapOrder) : List Attr → Styled → Option Styled
  | [], st => some st
  | (n, v) :: as, st =>
    if n = b!"style" then
      match decodeMutator fl (ord as.length) v with
      | none => none
      | some m => Styled.decodeAttrs fl ord as { st with mutators := st.mutators ++ [m] }
    else if n = b!"class" then
      Styled.decodeAttrs fl ord as { st with classes := st.classes ++ fields v }
    else Styled.decodeAttrs fl ord as st

/-- xdoc/style.go:32-39, Styled.MutatedStyles. -/
def Styled.mutatedStyles (st : Styled) (cs : Classes) (styles : Styles) : Styles :=
  st.mutators.foldl (fun s m => mutate m s) (cs.mutate st.classes styles)

/-- xdoc/style.go:41-48, Styled.MutatedStylesWithSelector. -/
def Styled.mutatedStylesWithSelector (st : Styled) (sel : Str) (cs : Classes) (styles : Styles) : Styles :=
  st.mutators.foldl (fun s m => mutate m s) (cs.mutateWithSelector sel st.classes styles)

end Verif.Model
