import Verif.Go.Utf8
import Mathlib.Data.Rat.Defs
/-
Models of strconv and of fmt.Fscanf with the formats "%d,%d,%d,%d" and "%f,%f,%f,%f".
Written from the documentation and knowledge of the Go standard library; part of the trusted base.
-/
namespace Verif.Go

/-- Value of an ASCII digit in bases up to 16. -/
def digitVal (c : UInt8) : Option Nat :=
  if 48 ≤ c.toNat ∧ c.toNat ≤ 57 then some (c.toNat - 48)
  else if 97 ≤ c.toNat ∧ c.toNat ≤ 102 then some (c.toNat - 97 + 10)
  else if 65 ≤ c.toNat ∧ c.toNat ≤ 70 then some (c.toNat - 65 + 10)
  else none

/-- Digits of a base, most significant first. -/
def digitsVal (base : Nat) : Nat → Str → Option Nat
  | acc, [] => some acc
  | acc, c :: cs =>
    match digitVal c with
    | none => none
    | some d => if d < base then digitsVal base (acc * base + d) cs else none

/-- `strconv.ParseUint(s, base, bits)` for base 10 and 16: at least one digit, no sign, no underscore,
range check. -/
def parseUint (base bits : Nat) (s : Str) : Option Nat :=
  if s = [] then none
  else match digitsVal base 0 s with
    | none => none
    | some n => if n < 2 ^ bits then some n else none

/-- `strconv.ParseInt(s, 10, 64)` (and `strconv.Atoi` on 64-bit platforms): optional sign, digits, range check. -/
def parseInt (s : Str) : Option Int :=
  match s with
  | [] => none
  | 43 :: r => match parseUint 10 64 r with
    | none => none
    | some n => if n < 2 ^ 63 then some (n : Int) else none
  | 45 :: r => match parseUint 10 64 r with
    | none => none
    | some n => if n ≤ 2 ^ 63 then some (-(n : Int)) else none
  | r => match parseUint 10 64 r with
    | none => none
    | some n => if n < 2 ^ 63 then some (n : Int) else none

/-- The two float conversions xpdf relies on, as parameters: `strconv.ParseFloat(s, 64)` and fmt's
`convertFloat` of a scanned token.  Values that are not finite are outside the model. -/
structure Floats where
  parseFloat : Str → Option ℚ
  convertFloat : Str → Option ℚ

/-- fmt's `isSpace`. -/
def isSpaceRune (r : Nat) : Bool :=
  (9 ≤ r && r ≤ 13) || r == 0x20 || r == 0x85 || r == 0xA0 || r == 0x1680 || (0x2000 ≤ r && r ≤ 0x200A) ||
  r == 0x2028 || r == 0x2029 || r == 0x202F || r == 0x205F || r == 0x3000

/-- `ss.SkipSpace` for Fscanf (newlines are not space): `none` is the error "unexpected newline"; CR LF is skipped
up to the LF, which is then the error (the LF is only peeked). -/
def skipSpace : List Nat → Option (List Nat)
  | [] => some []
  | r :: rs =>
    if r = 10 then none
    else if isSpaceRune r then skipSpace rs
    else some (r :: rs)

/-- `ss.accept` in a loop: the longest prefix of runes in a set. -/
def acceptRun (ok : Nat → Bool) : List Nat → List Nat × List Nat
  | [] => ([], [])
  | r :: rs => if ok r then ((r :: (acceptRun ok rs).1), (acceptRun ok rs).2) else ([], r :: rs)

/-- `ss.accept` once. -/
def acceptOne (ok : Nat → Bool) : List Nat → List Nat × List Nat
  | [] => ([], [])
  | r :: rs => if ok r then ([r], rs) else ([], r :: rs)

/-- decimalDigits -/
def isDec (r : Nat) : Bool := 48 ≤ r && r ≤ 57
/-- sign -/
def isSign (r : Nat) : Bool := r == 43 || r == 45

/-- ASCII runes to bytes. -/
def runeBytes (rs : List Nat) : Str := rs.map UInt8.ofNat

/-- `ss.scanInt('d', 64)` after the verb's own SkipSpace: optional sign, at least one digit, ParseInt. -/
def scanInt (rs : List Nat) : Option (Int × List Nat) :=
  match skipSpace rs with
  | none => none
  | some rs =>
    let (sg, rs) := acceptOne isSign rs
    let (ds, rs) := acceptRun isDec rs
    if ds = [] then none
    else match parseInt (runeBytes (sg ++ ds)) with
      | none => none
      | some n => some (n, rs)

/-- Accept a two-letter-case keyword of three letters; returns what was consumed even if it does not match
completely, and whether it did. -/
def acceptWord (a b c : Nat → Bool) (rs : List Nat) : (List Nat × List Nat) × Bool :=
  match rs with
  | x :: r1 =>
    if a x then
      match r1 with
      | y :: r2 =>
        if b y then
          match r2 with
          | z :: r3 => if c z then (([x, y, z], r3), true) else (([x, y], r2), false)
          | [] => (([x, y], []), false)
        else (([x], r1), false)
      | [] => (([x], []), false)
    else (([], rs), false)
  | [] => (([], []), false)

/-- letter test ignoring case -/
def isLetter (u l : Nat) (r : Nat) : Bool := r == u || r == l

/-- `ss.floatToken`, fraction and exponent: after the integer digits; `hex` says that a 0x prefix was seen. -/
def floatTail (hex : Bool) (rs : List Nat) : List Nat × List Nat :=
  let isDig := fun r => isDec r || r == 95 || (hex && ((97 ≤ r && r ≤ 102) || (65 ≤ r && r ≤ 70)))
  let isExp := fun r => (r == 80 || r == 112) || (!hex && (r == 69 || r == 101))
  let (d, rs) := acceptRun isDig rs
  let (p, rs) := acceptOne (· == 46) rs
  let (f, rs) := if p = [] then ([], rs) else acceptRun isDig rs
  let (e, rs) := acceptOne isExp rs
  let (es, rs) := if e = [] then ([], rs) else acceptOne isSign rs
  let (ed, rs) := if e = [] then ([], rs) else acceptRun (fun r => isDec r || r == 95) rs
  (d ++ p ++ f ++ e ++ es ++ ed, rs)

/-- `ss.floatToken` after sign and the keywords: optional 0x prefix, then digits, fraction, exponent. -/
def floatBody (rs : List Nat) : List Nat × List Nat :=
  let (z, rs) := acceptOne (· == 48) rs
  let (x, rs) := if z = [] then ([], rs) else acceptOne (isLetter 88 120) rs
  let (t, rs) := floatTail (decide (x ≠ [])) rs
  (z ++ x ++ t, rs)

/-- `ss.floatToken`: the token and the rest. -/
def floatToken (rs : List Nat) : List Nat × List Nat :=
  let ((t0, rs), nan) := acceptWord (isLetter 78 110) (isLetter 65 97) (isLetter 78 110) rs
  if nan then (t0, rs) else
  let (t1, rs) := acceptOne isSign rs
  let ((t2, rs), inf) := acceptWord (isLetter 73 105) (isLetter 78 110) (isLetter 70 102) rs
  if inf then (t0 ++ t1 ++ t2, rs) else
  let (t3, rs) := floatBody rs
  (t0 ++ t1 ++ t2 ++ t3, rs)

/-- Scanning one float: SkipSpace, not at EOF, token, conversion. -/
def scanFloat (fl : Floats) (rs : List Nat) : Option (ℚ × List Nat) :=
  match skipSpace rs with
  | none => none
  | some [] => none
  | some (r :: rs) =>
    match fl.convertFloat (runeBytes (floatToken (r :: rs)).1) with
    | none => none
    | some q => some (q, (floatToken (r :: rs)).2)

/-- `ss.advance` on the literal ',': the next rune must be a comma. -/
def scanComma : List Nat → Option (List Nat)
  | 44 :: rs => some rs
  | _ => none

/-- Fscanf with a format "%x,%x,%x,%x": the scanner of one operand is `one`.  Trailing input is ignored. -/
def scanQuad {α : Type} (one : List Nat → Option (α × List Nat)) (s : Str) : Option (α × α × α × α) :=
  match one (decodeRunes s) with
  | none => none
  | some (a, rs) => match scanComma rs with
    | none => none
    | some rs => match one rs with
      | none => none
      | some (b, rs) => match scanComma rs with
        | none => none
        | some rs => match one rs with
          | none => none
          | some (c, rs) => match scanComma rs with
            | none => none
            | some rs => match one rs with
              | none => none
              | some (d, _) => some (a, b, c, d)

end Verif.Go
