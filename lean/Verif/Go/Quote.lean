import Verif.Go.Space
/-
`strconv.Quote`, which is what the verb `%q` prints for a string.  Part of the trusted base (written from the documentation of strconv).
-/
namespace Verif.Go

/-- What quoting sees of a string: runes, and bytes that belong to none. -/
inductive Sym
  | rune (r : Nat)
  | byte (b : UInt8)
deriving DecidableEq

/-- A rune that is decoded from a single byte and is U+FFFD stands for a wrong byte. -/
def symOf (c : Nat × Str) : Sym :=
  match c with
  | (r, [b]) => if r = runeError then .byte b else .rune r
  | (r, _) => .rune r

/-- A hexadecimal digit, in lower case. -/
def hexDigit (n : Nat) : UInt8 := if n < 10 then UInt8.ofNat (48 + n) else UInt8.ofNat (87 + n)

/-- `k` hexadecimal digits. -/
def hexDigits : Nat → Nat → Str
  | 0, _ => []
  | k + 1, n => hexDigits k (n / 16) ++ [hexDigit (n % 16)]

/-- How a rune or a wrong byte is written between double quotes; `isPrint` is `strconv.IsPrint`. -/
def quoteSym (isPrint : Nat → Bool) : Sym → Str
  | .byte b => b!"\\x" ++ hexDigits 2 b.toNat
  | .rune r =>
    if r = 34 ∨ r = 92 then [92, UInt8.ofNat r]
    else if isPrint r then encodeRune r
    else if r = 7 then b!"\\a"
    else if r = 8 then b!"\\b"
    else if r = 12 then b!"\\f"
    else if r = 10 then b!"\\n"
    else if r = 13 then b!"\\r"
    else if r = 9 then b!"\\t"
    else if r = 11 then b!"\\v"
    else if r < 32 ∨ r = 127 then b!"\\x" ++ hexDigits 2 r
    else if r < 0x10000 then b!"\\u" ++ hexDigits 4 r
    else b!"\\U" ++ hexDigits 8 r

/-- `strconv.Quote(s)`. -/
def quote (isPrint : Nat → Bool) (s : Str) : Str := 34 :: ((chunks s).flatMap fun c => quoteSym isPrint (symOf c)) ++ [34]

end Verif.Go
