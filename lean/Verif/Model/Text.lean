import Verif.Go.Bytes
import Verif.Proofs.Bytes
/-
Model of /repo/text/text.go and of `clearStr` in /repo/xdoc/describe.go.
-/
namespace Verif.Model
open Verif.Go

/-- text/text.go:5-15 `RemoveTwins`: replace doubled twins until nothing changes. -/
def removeTwins (s twin : Str) : Str :=
  let rs := replaceAll (twin ++ twin) twin s
  if rs = s then rs else removeTwins rs twin
termination_by s.length
decreasing_by exact replaceAll_twin_lt s twin ‹_›

/-- text/text.go:17-27 `WhitespaceRectified`. Bytes: CR 13, LF 10, TAB 9, space 32, backslash 92. -/
def whitespaceRectified (s : Str) : Str :=
  let rs := s
  let rs := replaceAll [13] [32] rs          -- "\r" -> " "
  let rs := replaceAll [10] [32] rs          -- "\n" -> " "
  let rs := replaceAll [9] [32] rs           -- "\t" -> " "
  let rs := trim (· == 32) rs                -- Trim(rs, " ")
  let rs := removeTwins rs [32]
  let rs := replaceAll [32, 92] [92] rs      -- " \\" -> "\\"
  let rs := replaceAll [92, 32] [92] rs      -- "\\ " -> "\\"
  rs

/-- xdoc/describe.go:12-16 `clearStr`. -/
def clearStr (s : Str) : Str :=
  let s := replaceAll [10] [] s              -- "\n" -> ""
  let s := replaceAll [32, 32] [] s          -- "  " -> ""
  trim (· == 32) s

end Verif.Model
