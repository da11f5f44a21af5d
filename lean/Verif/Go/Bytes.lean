/-
Go strings as byte lists, and the functions of package `strings` that xpdf calls.

Go's `string` is a sequence of bytes, modelled as `List UInt8`.  The functions below are written for an
arbitrary element type where possible; they are models of the Go standard library (from its documentation),
part of the trusted base.
-/
namespace Verif.Go

/-- A Go `string`: a sequence of bytes. -/
abbrev Str := List UInt8

/-- `b!"abc"` is the byte list of the UTF-8 encoding of the literal, spelled out as a list of numerals. -/
syntax:max "b!" noWs str : term
macro_rules
  | `(b!$s:str) => do
    let bytes := s.getString.toUTF8.toList.map (fun b => Lean.Syntax.mkNumLit (toString b.toNat))
    let arr := bytes.toArray
    `(([$arr,*] : List UInt8))

/-- `lines! "a\nb\n"` is `[b!"a", b!"b"]`: one byte list per non-empty line of the literal. -/
syntax:max "lines! " str : term
macro_rules
  | `(lines! $s:str) => do
    let ls := (s.getString.splitOn "\n").filter (· ≠ "")
    let ts ← ls.toArray.mapM fun l => do
      let bytes := (l.toUTF8.toList.map (fun b => Lean.Syntax.mkNumLit (toString b.toNat))).toArray
      `(([$bytes,*] : List UInt8))
    `(([$ts,*] : List (List UInt8)))

section generic
variable {α : Type} [DecidableEq α]

/-- Worker of `replaceAll` for a non-empty `old`: `skip` bytes are still covered by the last match. -/
def replaceAux (old new : List α) : Nat → List α → List α
  | _, [] => []
  | skip + 1, _ :: cs => replaceAux old new skip cs
  | 0, c :: cs =>
    if old.isPrefixOf (c :: cs) then new ++ replaceAux old new (old.length - 1) cs
    else c :: replaceAux old new 0 cs

/-- `strings.ReplaceAll(s, old, new)`: leftmost non-overlapping occurrences of `old` are replaced by `new`.
For an empty `old`, Go inserts `new` before every character and at the end; the model does so at every
element (the only call in xpdf with an empty `old`, in `RemoveTwins` with an empty twin, also has an empty
`new`, for which both readings give `s`). -/
def replaceAll (old new s : List α) : List α :=
  if old = [] then (s.flatMap fun c => new ++ [c]) ++ new
  else replaceAux old new 0 s

/-- `strings.Split(s, sep)` for a one-byte separator. -/
def split (sep : α) : List α → List (List α)
  | [] => [[]]
  | c :: cs =>
    if c = sep then [] :: split sep cs
    else match split sep cs with
      | [] => [[c]]
      | h :: t => (c :: h) :: t

/-- `strings.Join(parts, sep)`. -/
def join (parts : List (List α)) (sep : List α) : List α :=
  match parts with
  | [] => []
  | [p] => p
  | p :: q :: ps => p ++ sep ++ join (q :: ps) sep

/-- `strings.TrimLeft` with a cut set given as a predicate. -/
def trimLeft (cut : α → Bool) (s : List α) : List α := s.dropWhile cut

/-- `strings.TrimRight` with a cut set given as a predicate. -/
def trimRight (cut : α → Bool) : List α → List α
  | [] => []
  | c :: cs =>
    match trimRight cut cs with
    | [] => if cut c then [] else [c]
    | r => c :: r

/-- `strings.Trim` with a cut set given as a predicate. -/
def trim (cut : α → Bool) (s : List α) : List α := trimRight cut (trimLeft cut s)

/-- `strings.IndexByte` / `strings.Index` with a one-byte needle; `none` is Go's -1. -/
def indexByte (b : α) : List α → Option Nat
  | [] => none
  | c :: cs => if c = b then some 0 else (indexByte b cs).map (· + 1)

/-- Go's checked slice expression `s[lo:hi]`; `none` is a run-time panic. -/
def slice? (s : List α) (lo hi : Nat) : Option (List α) :=
  if lo ≤ hi ∧ hi ≤ s.length then some ((s.drop lo).take (hi - lo)) else none

end generic

end Verif.Go
