import Verif.Go.Bytes
/-
UTF-8 as Go implements it (package unicode/utf8, `for range` over strings, conversions between string and
[]rune).  Runes are natural numbers.  Part of the trusted base (written from the documentation of unicode/utf8).
-/
namespace Verif.Go

/-- U+FFFD, `utf8.RuneError`. -/
def runeError : Nat := 0xFFFD

/-- `utf8.ValidRune`: in range and not a surrogate. -/
def validRune (r : Nat) : Bool := r < 0xD800 || (0xE000 ≤ r && r ≤ 0x10FFFF)

/-- Byte `b` lies in `lo..hi`. -/
def inRange (lo hi : Nat) (b : UInt8) : Bool := lo ≤ b.toNat && b.toNat ≤ hi

/-- Encoding of a valid rune. -/
def encodeValid (r : Nat) : Str :=
  if r < 0x80 then [UInt8.ofNat r]
  else if r < 0x800 then [UInt8.ofNat (0xC0 + r / 0x40), UInt8.ofNat (0x80 + r % 0x40)]
  else if r < 0x10000 then
    [UInt8.ofNat (0xE0 + r / 0x1000), UInt8.ofNat (0x80 + r / 0x40 % 0x40), UInt8.ofNat (0x80 + r % 0x40)]
  else
    [UInt8.ofNat (0xF0 + r / 0x40000), UInt8.ofNat (0x80 + r / 0x1000 % 0x40),
     UInt8.ofNat (0x80 + r / 0x40 % 0x40), UInt8.ofNat (0x80 + r % 0x40)]

/-- `utf8.AppendRune(nil, r)`: an invalid rune is encoded as U+FFFD. -/
def encodeRune (r : Nat) : Str := encodeValid (if validRune r then r else runeError)

/-- `string(runes)` for `runes []rune`. -/
def encodeRunes (rs : List Nat) : Str := rs.flatMap encodeRune

/-- Allowed range of the second byte after the lead byte `b0` of a 3- or 4-byte sequence. -/
def secondLo (b0 : Nat) : Nat := if b0 = 0xE0 then 0xA0 else if b0 = 0xF0 then 0x90 else 0x80
/-- See `secondLo`. -/
def secondHi (b0 : Nat) : Nat := if b0 = 0xED then 0x9F else if b0 = 0xF4 then 0x8F else 0xBF

/-- `utf8.DecodeRuneInString` at a non-empty string `c :: cs`: the rune and its width; any malformed sequence
gives (RuneError, 1). -/
def decodeRune (c : UInt8) (cs : Str) : Nat × Nat :=
  let b0 := c.toNat
  if b0 < 0x80 then (b0, 1)
  else if 0xC2 ≤ b0 && b0 ≤ 0xDF then
    match cs with
    | b1 :: _ => if inRange 0x80 0xBF b1 then ((b0 - 0xC0) * 0x40 + (b1.toNat - 0x80), 2) else (runeError, 1)
    | _ => (runeError, 1)
  else if 0xE0 ≤ b0 && b0 ≤ 0xEF then
    match cs with
    | b1 :: b2 :: _ =>
      if inRange (secondLo b0) (secondHi b0) b1 && inRange 0x80 0xBF b2 then
        ((b0 - 0xE0) * 0x1000 + (b1.toNat - 0x80) * 0x40 + (b2.toNat - 0x80), 3)
      else (runeError, 1)
    | _ => (runeError, 1)
  else if 0xF0 ≤ b0 && b0 ≤ 0xF4 then
    match cs with
    | b1 :: b2 :: b3 :: _ =>
      if inRange (secondLo b0) (secondHi b0) b1 && inRange 0x80 0xBF b2 && inRange 0x80 0xBF b3 then
        ((b0 - 0xF0) * 0x40000 + (b1.toNat - 0x80) * 0x1000 + (b2.toNat - 0x80) * 0x40 + (b3.toNat - 0x80), 4)
      else (runeError, 1)
    | _ => (runeError, 1)
  else (runeError, 1)

/-- Worker of `decodeRunes`: `skip` bytes still belong to the last rune. -/
def decodeAux : Nat → Str → List Nat
  | _, [] => []
  | skip + 1, _ :: cs => decodeAux skip cs
  | 0, c :: cs => (decodeRune c cs).1 :: decodeAux ((decodeRune c cs).2 - 1) cs

/-- `[]rune(s)`, and the runes visited by `for _, r := range s`. -/
def decodeRunes (s : Str) : List Nat := decodeAux 0 s

/-- `utf8.ValidString`: the string is the encoding of its runes. -/
def validUtf8 (s : Str) : Bool := encodeRunes (decodeRunes s) == s

/-- All bytes below 128. -/
def isAscii (s : Str) : Bool := s.all (fun c => c.toNat < 0x80)

/-- ASCII lower-casing of one byte. -/
def asciiLower (c : UInt8) : UInt8 := if 65 ≤ c.toNat ∧ c.toNat ≤ 90 then c + 32 else c

/-- `strings.ToLower`: the ASCII fast path, otherwise `strings.Map(unicode.ToLower, s)`.  The Unicode case
table `lower` is a parameter. -/
def toLower (lower : Nat → Nat) (s : Str) : Str :=
  if isAscii s then s.map asciiLower else encodeRunes ((decodeRunes s).map lower)

/-- `unicode.IsDigit`: in Latin-1 only '0'..'9'; above, the table of category Nd is the parameter `nd`. -/
def isDigit (nd : Nat → Bool) (r : Nat) : Bool :=
  if r ≤ 0xFF then 48 ≤ r && r ≤ 57 else nd r

end Verif.Go
