import Verif.Model.Engine
import Verif.Model.Text
import Verif.Model.Table
/-
Model of /repo/text.go and /repo/text-hyph.go: breaking text into lines and measuring it.  (Writing it is in Process.lean.)
-/
namespace Verif.Model
open Verif.Go

/-- text.go:11-14, textItem. -/
structure TextItem where
  sty : Styles
  text : Str
deriving DecidableEq

/-- text.go:16-21, textLine. -/
structure TextLine where
  items : List TextItem
  width : ℚ
  pureTextWidth : ℚ
  paragraph : Bool
deriving DecidableEq

/-- `textLine{}`. -/
def TextLine.empty : TextLine := { items := [], width := 0, pureTextWidth := 0, paragraph := false }

section
variable {E : Type}

/-- process.go:91-93, tr. -/
def tr (eng : Engine E) (e : E) (s : Str) : Str := replaceAll b!"{cp}" (itoa (eng.currentPage e)) s

/-- text.go:28-30 and text-hyph.go:12-14, norm. -/
def norm (eng : Engine E) (e : E) (s : Str) : Str := whitespaceRectified (tr eng e s)

/-- process.go:95-98, changeFont. -/
def changeFont (eng : Engine E) (f : Font) (s : PState E) : PState E :=
  { s with curr := { s.curr with font := f }, eng := eng.changeFont f s.eng }

/-- text.go:35-52 and text-hyph.go:39-60, the text of an instruction and its styles; `none` if it has none (`continue`). -/
def textOf (cs : Classes) (sty : Styles) : Instr → Option (Styles × Str)
  | .textBlock text => some (sty, text)
  | .paragraph st text => some (st.mutatedStyles cs sty, text)
  | _ => none

/-- text.go:60-74, one word; `tw` is TextWidth in the current font.  `acc` is (lines, curr). -/
def wrapWord (tw : Str → ℚ) (width : ℚ) (sty : Styles) (acc : List TextLine × TextLine) (word : Str) : List TextLine × TextLine :=
  let itemWidth := tw (32 :: word)
  let acc := if acc.2.width + itemWidth ≥ width then (acc.1 ++ [acc.2], TextLine.empty) else acc
  let curr := acc.2
  let text := if curr.items.length > 0 then 32 :: word else word
  (acc.1, { curr with items := curr.items ++ [⟨sty, text⟩], width := curr.width + itemWidth })

/-- text.go:33-76, the loop over the instructions. -/
def linesLoop (eng : Engine E) (cs : Classes) (width : ℚ) (sty : Styles) :
    List Instr → List TextLine × TextLine → PState E → (List TextLine × TextLine) × PState E
  | [], acc, s => (acc, s)
  | .lineBreak :: iss, acc, s => linesLoop eng cs width sty iss (acc.1 ++ [acc.2], TextLine.empty) s
  | is :: iss, acc, s =>
    match textOf cs sty is with
    | none => linesLoop eng cs width sty iss acc s
    | some (isty, text) =>
      let t := norm eng s.eng text
      if t = [] then linesLoop eng cs width sty iss acc s
      else
        let s := changeFont eng isty.font s
        let words := split 32 t
        linesLoop eng cs width sty iss (words.foldl (wrapWord (fun w => eng.textWidth w s.eng) width isty) acc) s

/-- text.go:77-79 -/
def closeLines (acc : List TextLine × TextLine) : List TextLine := if acc.2.items.length > 0 then acc.1 ++ [acc.2] else acc.1

/-- text.go:27-81, textLines. -/
def textLines (eng : Engine E) (cs : Classes) (iss : List Instr) (width : ℚ) (sty : Styles) (s : PState E) : List TextLine × PState E :=
  let r := linesLoop eng cs width sty iss ([], TextLine.empty) s
  (closeLines r.1, r.2)

/-- text.go:86-88 and text-hyph.go:111-113: the height of `n` lines. -/
def linesHeight (n : Nat) (fontHeight lineSpacing : ℚ) : ℚ :=
  let lineHeight := fontHeight * lineSpacing
  n * lineHeight - lineHeight + fontHeight

/-- text.go:83-89, textHeight. -/
def textHeight (eng : Engine E) (cs : Classes) (iss : List Instr) (width : ℚ) (sty : Styles) (s : PState E) : ℚ × PState E :=
  let s := { s with eng := eng.changeFont sty.font s.eng }
  let (lines, s) := textLines eng cs iss width sty s
  (linesHeight lines.length (eng.fontHeight s.eng) sty.dim.lineSpacing, s)

/-! ### text-hyph.go -/

/-- text-hyph.go:22-31: the loop of tryHyphenate, from `i = n - 1` down to 0. -/
def tryParts (tw : Str → ℚ) (availWidth : ℚ) (parts : List Str) : Nat → Option (Str × Str)
  | 0 => none
  | i + 1 =>
    let trial := 32 :: (join (parts.take (i + 1)) [] ++ [45])
    if tw trial ≤ availWidth then some (trial, join (parts.drop (i + 1)) []) else tryParts tw availWidth parts i

/-- text-hyph.go:15-33, tryHyphenate; `none` if it does not succeed. -/
def tryHyphenate (hyph : Str → List Str) (tw : Str → ℚ) (width : ℚ) (s : Str) (currWidth : ℚ) : Option (Str × Str) :=
  let availWidth := width - currWidth
  let parts := hyph s
  if parts.length < 2 then none
  else tryParts tw availWidth parts (parts.length - 1)

/-- `strings.Trim(s, " ")`. -/
def trimSpace (s : Str) : Str := trim (· == 32) s

/-- text-hyph.go:65-98, one word. -/
def wrapWordHyph (hyph : Str → List Str) (tw : Str → ℚ) (width : ℚ) (sty : Styles) (acc : List TextLine × TextLine) (word : Str) :
    List TextLine × TextLine :=
  let itemWidth := tw (32 :: word)
  let pureItemWidth := tw word
  -- lines 71-91: lines, curr, item.text, itemWidth, pureItemWidth
  let (lines, curr, word, itemWidth, pureItemWidth) :=
    if acc.2.width + itemWidth ≥ width then
      match tryHyphenate hyph tw width word acc.2.width with
      | none => (acc.1 ++ [acc.2], TextLine.empty, word, itemWidth, pureItemWidth)
      | some (s1, s2) =>
        let curr := { acc.2 with
          items := acc.2.items ++ [⟨sty, s1⟩],
          width := acc.2.width + tw s1,
          pureTextWidth := acc.2.pureTextWidth + tw (trimSpace s1) }
        (acc.1 ++ [curr], TextLine.empty, s2, tw s2, tw (trimSpace s2))
    else (acc.1, acc.2, word, itemWidth, pureItemWidth)
  let text := if curr.items.length > 0 then 32 :: word else word
  (lines, { curr with
    items := curr.items ++ [⟨sty, text⟩],
    width := curr.width + itemWidth,
    pureTextWidth := curr.pureTextWidth + pureItemWidth })

/-- text-hyph.go:41-43: the last line gets the paragraph mark. -/
def markLast : List TextLine → List TextLine
  | [] => []
  | [l] => [{ l with paragraph := true }]
  | l :: m :: ls => l :: markLast (m :: ls)

/-- text-hyph.go:37-100, the loop over the instructions. -/
def linesLoopHyph (eng : Engine E) (hyph : Str → List Str) (cs : Classes) (width : ℚ) (sty : Styles) :
    List Instr → List TextLine × TextLine → PState E → (List TextLine × TextLine) × PState E
  | [], acc, s => (acc, s)
  | .lineBreak :: iss, acc, s => linesLoopHyph eng hyph cs width sty iss (markLast acc.1 ++ [acc.2], TextLine.empty) s
  | is :: iss, acc, s =>
    match textOf cs sty is with
    | none => linesLoopHyph eng hyph cs width sty iss acc s
    | some (isty, text) =>
      let t := norm eng s.eng text
      let s := changeFont eng isty.font s
      let words := split 32 t
      linesLoopHyph eng hyph cs width sty iss (words.foldl (wrapWordHyph hyph (fun w => eng.textWidth w s.eng) width isty) acc) s

/-- text-hyph.go:101-104 -/
def closeLinesHyph (acc : List TextLine × TextLine) : List TextLine :=
  if acc.2.items.length > 0 then acc.1 ++ [{ acc.2 with paragraph := true }] else acc.1

/-- text-hyph.go:11-106, textLinesHyphenated. -/
def textLinesHyphenated (eng : Engine E) (hyph : Str → List Str) (cs : Classes) (iss : List Instr) (width : ℚ) (sty : Styles)
    (s : PState E) : List TextLine × PState E :=
  let r := linesLoopHyph eng hyph cs width sty iss ([], TextLine.empty) s
  (closeLinesHyph r.1, r.2)

/-- text-hyph.go:108-114, textHeightHyphenated. -/
def textHeightHyphenated (eng : Engine E) (hyph : Str → List Str) (cs : Classes) (iss : List Instr) (width : ℚ) (sty : Styles)
    (s : PState E) : ℚ × PState E :=
  let s := { s with eng := eng.changeFont sty.font s.eng }
  let (lines, s) := textLinesHyphenated eng hyph cs iss width sty s
  (linesHeight lines.length (eng.fontHeight s.eng) sty.dim.lineSpacing, s)

/-- process.go:214-221, textHeightFnc. -/
def textHeightFnc (eng : Engine E) (ctx : Ctx) : Measure (PState E) := fun sty iss width s =>
  if sty.align.h = b!"block" then textHeightHyphenated eng ctx.hyphenate ctx.classes iss width sty s
  else textHeight eng ctx.classes iss width sty s

end
end Verif.Model
