import Verif.Go.Utf8
import Verif.Spec.Process
/-
Spec: reading string literals of Go, and what the program image prints.
-/
namespace Verif.Spec
open Verif.Go

/-- The value of a hexadecimal digit. -/
def unhex (c : UInt8) : Nat := if c.toNat < 58 then c.toNat - 48 else c.toNat - 87

/-- The character that a letter behind a backslash stands for. -/
def unletter (c : UInt8) : UInt8 :=
  if c = 97 then 7 else if c = 98 then 8 else if c = 102 then 12 else if c = 110 then 10 else if c = 114 then 13 else if c = 116 then 9
  else if c = 118 then 11 else c

/-- Reading one character of a literal: its bytes, and what follows. -/
def readChar : Str → Option (Str × Str)
  | 92 :: 120 :: a :: b :: t => some ([UInt8.ofNat (16 * unhex a + unhex b)], t)
  | 92 :: 117 :: a :: b :: c :: d :: t => some (encodeRune (16 * (16 * (16 * unhex a + unhex b) + unhex c) + unhex d), t)
  | 92 :: 85 :: a :: b :: c :: d :: a' :: b' :: c' :: d' :: t =>
    some (encodeRune (16 * (16 * (16 * (16 * (16 * (16 * (16 * unhex a + unhex b) + unhex c) + unhex d) + unhex a') + unhex b') + unhex c') + unhex d'), t)
  | 92 :: c :: t => some ([unletter c], t)
  | s =>
    match decodeRunes s with
    | [] => none
    | r :: _ => some (encodeRune r, s.drop (encodeRune r).length)

/-- Reading the characters up to the quote; at most `n` of them. -/
def readChars : Nat → Str → Option (Str × Str)
  | 0, _ => none
  | n + 1, s =>
    if s.head? = some 34 then some ([], s.drop 1)
    else
      match readChar s with
      | none => none
      | some (c, t) => (readChars n t).map fun v => (c ++ v.1, v.2)

/-- Expecting a text. -/
def expect (p s : Str) : Option Str := if p.isPrefixOf s then some (s.drop p.length) else none

/-- Reading a string literal: its value, and what follows. -/
def readLiteral (s : Str) : Option (Str × Str) := (expect b!"\"" s).bind fun t => readChars (t.length + 1) t

/-- Reading a number: its value, and what follows. -/
def readNumber (s : Str) : Option (Int × Str) :=
  let digit : UInt8 → Bool := fun c => 48 ≤ c && c ≤ 57
  match s with
  | 45 :: t => if t.takeWhile digit = [] then none else some (-(decimalValue (t.takeWhile digit) : Int), t.dropWhile digit)
  | t => if t.takeWhile digit = [] then none else some ((decimalValue (t.takeWhile digit) : Int), t.dropWhile digit)

/-- Reading the output of the program image: file, format, width and height. -/
def readImageText (s : Str) : Option (Str × Str × Int × Int) := do
  let s ← expect b!"Source: " s
  let (src, s) ← readLiteral s
  let s ← expect b!"\nFormat: " s
  let (format, s) ← readLiteral s
  let s ← expect b!"\nDim   : w=" s
  let (width, s) ← readNumber s
  let s ← expect b!", h=" s
  let (height, s) ← readNumber s
  let s ← expect b!"\n" s
  if s = [] then some (src, format, width, height) else none

end Verif.Spec
