import Verif.Go.Bytes
/-
The part of Go's encoding/xml that xdoc uses: the decoder of tokens with its stack of open elements.

Simplifications: the text is given as the list of its raw tokens (scanning of characters, entities and encodings is not
modelled); names have no name spaces; comments, processing instructions and directives are one kind of token; the
maximal depth of 10000 is not modelled; all errors are alike.
-/
namespace Verif.Go

/-- The result of `rawToken`. -/
inductive Tok
  | start (name : Str) (attrs : List (Str × Str))
  | close (name : Str)
  | chars (text : Str)
  | other
deriving DecidableEq

/-- The decoder's stack: `stkStart` and `stkEOF`. -/
inductive Frame
  | elem (name : Str)
  | eof
deriving DecidableEq

/-- xml.Decoder: the stack, its top first, and the raw tokens to come.  After a syntax error there are none. -/
structure Decoder where
  stk : List Frame
  rest : List Tok
deriving DecidableEq

/-- `Decoder.Token`: `none` is an error.  At an end-of-input mark it fails and changes nothing. -/
def Decoder.token (d : Decoder) : Option Tok × Decoder :=
  match d.stk, d.rest with
  | .eof :: _, _ => (none, d)
  | _, [] => (none, d)
  | stk, .start n as :: r => (some (.start n as), ⟨.elem n :: stk, r⟩)
  | .elem m :: stk, .close n :: r => if m = n then (some (.close n), ⟨stk, r⟩) else (none, ⟨stk, []⟩)
  | [], .close _ :: _ => (none, ⟨[], []⟩)
  | stk, t :: r => (some t, ⟨stk, r⟩)

/-- `Decoder.pushEOF`: the mark goes below the innermost open element. -/
def pushEOF : List Frame → List Frame
  | [] => []
  | .elem n :: s => .elem n :: .eof :: s
  | .eof :: s => .eof :: pushEOF s

/-- `Decoder.unmarshalInterface`: `UnmarshalXML` between `pushEOF` and `popEOF`.  If the mark is not on top at the end, it stays
and the result is an error. -/
def unmarshalInterface {α : Type} (unmarshalXML : Decoder → Option α × Decoder) (d : Decoder) : Option α × Decoder :=
  let x := unmarshalXML { d with stk := pushEOF d.stk }
  match x.2.stk with
  | .eof :: s => (x.1, { x.2 with stk := s })
  | _ => (none, x.2)

/-- The loop of `Decoder.unmarshal` for a type whose only content is character data, or `Decoder.Skip`: to the end of the element
`depth` levels up, collecting the characters of depth 0.  The first argument bounds the number of tokens. -/
def leafLoop : Nat → Nat → Str → Decoder → Option Str × Decoder
  | 0, _, _, d => (none, d)
  | n + 1, depth, data, d =>
    match d.token with
    | (none, d) => (none, d)
    | (some (.start _ _), d) => leafLoop n (depth + 1) data d
    | (some (.close _), d) =>
      match depth with
      | 0 => (some data, d)
      | k + 1 => leafLoop n k data d
    | (some (.chars t), d) => leafLoop n depth (if depth = 0 then data ++ t else data) d
    | (some .other, d) => leafLoop n depth data d

/-- The content of an element whose start has been read: its characters, without those of inner elements. -/
def leaf (d : Decoder) : Option Str × Decoder := leafLoop (d.rest.length + 1) 0 [] d

end Verif.Go
