import Verif.Go.Utf8
/-
Model of /repo/hyphenation/pattern.go and /repo/hyphenation/hyphenation.go.

`nd` is the table of Unicode category Nd above Latin-1 (unicode.IsDigit), `lower` the Unicode lower-case table
(unicode.ToLower); both are arbitrary parameters.
-/
namespace Verif.Model
open Verif.Go

/-- hyphenation/pattern.go:14-17 `pattern`.  Weights are `Nat`: they come from single decimal digits. -/
structure Pattern where
  letters : List Nat
  weights : List Nat
deriving DecidableEq, Repr

/-- hyphenation/pattern.go:52-70: the loop of `parsePattern` over the runes of the line; `wd` is `wantDigit`.
`none` is the error of `strconv.ParseInt(string(r), 10, 8)`, which accepts of the one-rune strings exactly the
ASCII digits. -/
def parseLoop (nd : Nat → Bool) (p : Pattern) (wd : Bool) : List Nat → Option (Pattern × Bool)
  | [] => some (p, wd)
  | r :: rs =>
    if wd then
      if isDigit nd r then
        if 48 ≤ r ∧ r ≤ 57 then
          parseLoop nd { p with weights := p.weights ++ [r - 48] } false rs
        else none
      else parseLoop nd { letters := p.letters ++ [r], weights := p.weights ++ [0] } true rs
    else parseLoop nd { p with letters := p.letters ++ [r] } true rs

/-- hyphenation/pattern.go:49-78 `parsePattern`. -/
def parsePattern (nd : Nat → Bool) (s : Str) : Option Pattern :=
  match parseLoop nd ⟨[], []⟩ true (decodeRunes s) with
  | none => none
  | some (p, wd) =>
    let p := if wd then { p with weights := p.weights ++ [0] } else p
    if p.letters.length + 1 ≠ p.weights.length then none else some p

/-- Decimal digits of a number below ten and beyond (`fmt.Sprintf("%d", n)` for a non-negative int). -/
def natDec (n : Nat) : Str := (Nat.toDigits 10 n).map (fun c => UInt8.ofNat c.toNat)

/-- hyphenation/pattern.go:38-47 `pattern.String`: weights and letters interleaved.  (The loop runs over the
weights and adds a letter while there is one.) -/
def patternString : List Nat → List Nat → Str
  | [], _ => []
  | w :: ws, [] => natDec w ++ patternString ws []
  | w :: ws, l :: ls => natDec w ++ encodeRune l ++ patternString ws ls

/-- The pattern map (hyphenation/pattern.go:19-21) as an association list, most recent assignment first. -/
abbrev Lookup := List (Str × Pattern)

/-- hyphenation/pattern.go:33-36 `find`. -/
def find (pl : Lookup) (key : Str) : Option Pattern := List.lookup key pl

/-- bufio.Scanner with ScanLines: remove one trailing CR. -/
def dropCR (s : Str) : Str :=
  match s.reverse with
  | 13 :: r => r.reverse
  | _ => s

/-- bufio.Scanner with ScanLines, applied to the pieces between newlines: the last piece counts only if it is
non-empty, and a line of 65536 bytes or more (bufio.MaxScanTokenSize, without its newline) ends the scan
(the error is not checked by the caller). -/
def scanPieces : List Str → List Str
  | [] => []
  | [l] => if l = [] then [] else if 65536 ≤ l.length then [] else [dropCR l]
  | l :: m :: ls => if 65536 ≤ l.length then [] else dropCR l :: scanPieces (m :: ls)

/-- The lines `scanner.Text()` yields. -/
def scanLines (s : Str) : List Str := scanPieces (split 10 s)

/-- The cut set `" \n\r\t"`. -/
def wsCut (c : UInt8) : Bool := c == 32 || c == 10 || c == 13 || c == 9

/-- hyphenation/pattern.go:83-94, the loop of `parsePatterns` over the scanned lines. -/
def parseLines (nd : Nat → Bool) (pl : Lookup) : List Str → Option Lookup
  | [] => some pl
  | line :: ls =>
    let line := trim wsCut line
    if line = [] then parseLines nd pl ls
    else match parsePattern nd line with
      | none => none
      | some p => parseLines nd ((encodeRunes p.letters, p) :: pl) ls

/-- hyphenation/pattern.go:80-96 `parsePatterns` (and `loadPatternLookup`, `Load`) on the full text of the reader. -/
def parsePatterns (nd : Nat → Bool) (text : Str) : Option Lookup := parseLines nd [] (scanLines text)

/-- hyphenation/hyphenation.go:58-62: `for iw, w := range pattern.Weights { if w > ws[i+iw] {...} }`;
`none` is an index out of range. -/
def updWeights (i : Nat) : Nat → List Nat → List Nat → Option (List Nat)
  | _, [], ws => some ws
  | iw, w :: r, ws =>
    match ws[i + iw]? with
    | none => none
    | some cur => updWeights i (iw + 1) r (if w > cur then ws.set (i + iw) w else ws)

/-- hyphenation/hyphenation.go:53-62: the inner loop body for one `subSize` and `i`. -/
def hyphStep (pl : Lookup) (rs : List Nat) (subSize i : Nat) (ws : List Nat) : Option (List Nat) :=
  match slice? rs i (i + subSize) with
  | none => none
  | some sub =>
    match find pl (encodeRunes sub) with
    | none => some ws
    | some p => updWeights i 0 p.weights ws

/-- hyphenation/hyphenation.go:51-64: both loops. `subSize` from 1 to len(rs), `i` from 0 to len(rs)-subSize. -/
def hyphWeights (pl : Lookup) (rs : List Nat) : Option (List Nat) :=
  (List.range rs.length).foldlM
    (fun ws k => (List.range (rs.length - (k + 1) + 1)).foldlM (fun ws i => hyphStep pl rs (k + 1) i ws) ws)
    (List.replicate (rs.length + 1) 0)

/-- hyphenation/hyphenation.go:70-78: the cutting loop over `ws[2:len(ws)-2]`; `i` is the loop index. -/
def cutLoop (s : Str) : (i : Nat) → (ws : List Nat) → (sl : List Str) → (last : Nat) → Option (List Str × Nat)
  | _, [], sl, last => some (sl, last)
  | i, w :: ws, sl, last =>
    if w % 2 = 1 then
      match slice? s last (i + 1) with
      | none => none
      | some part => if part.length > 1 then cutLoop s (i + 1) ws (sl ++ [part]) (i + 1) else cutLoop s (i + 1) ws sl last
    else cutLoop s (i + 1) ws sl last

/-- hyphenation/hyphenation.go:38-84 `Hyphenate`; `none` is a panic. -/
def hyphenate (lower : Nat → Nat) (pl : Lookup) (s : Str) : Option (List Str) :=
  if s.length < 3 then some [s]
  else if 32 ∈ s then some [s]
  else if s.length > 100 then some [s]
  else
    let rs := decodeRunes ([46] ++ toLower lower s ++ [46])
    match hyphWeights pl rs with
    | none => none
    | some ws =>
      match slice? ws 2 (ws.length - 2) with
      | none => none
      | some mid =>
        match cutLoop s 0 mid [] 0 with
        | none => none
        | some (sl, last) =>
          match slice? s last s.length with
          | none => none
          | some part => some (if part.length > 1 then sl ++ [part] else sl)

end Verif.Model
