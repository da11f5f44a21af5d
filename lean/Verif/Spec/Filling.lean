import Verif.Spec.Stacked
import Verif.Spec.Tiles
import Verif.Spec.Leaflets
import Verif.Spec.Fill
import Verif.Spec.Sizes
/-
What C115 talks about: lines that fill page after page.
-/
namespace Verif.Spec
open Verif.Go Verif.Model

/-- Where a text stands: page, height and text. -/
abbrev Spot := Nat × ℚ × Str

/-- The texts on the pages. -/
def spots (out : List Mark) : List Spot :=
  out.filterMap fun | .text n _ y _ _ t => some (n, y, t) | _ => none

/-- What comes one after the other: a line of texts, with its height and the distance to the next line, a page break, or a move to a height. -/
inductive Flow
  | line (height feed : ℚ) (texts : List Str)
  | page
  | move (y : ℚ)

/-- The height that SetY goes to: negative ones count from the bottom of the paper. -/
def heightAt (p : Paper) (y : ℚ) : ℚ := if 0 ≤ y then y else p.height + y

/-- Where a line stands if the position is at `at_`: there, or at the top of the next page if it has a text and does not end above the bottom margin. -/
def lineAt (p : Paper) (at_ : Nat × ℚ) (height : ℚ) (texts : List Str) : Nat × ℚ :=
  if texts ≠ [] ∧ p.height - p.margins.bottom < at_.2 + height then (at_.1 + 1, p.margins.top) else at_

/-- Where the texts stand if everything follows in turn. -/
def flowing (p : Paper) : Nat × ℚ → List Flow → List Spot
  | _, [] => []
  | at_, .line h d ts :: fl => ts.map (fun t => ((lineAt p at_ h ts).1, (lineAt p at_ h ts).2, t)) ++ flowing p ((lineAt p at_ h ts).1, (lineAt p at_ h ts).2 + d) fl
  | at_, .page :: fl => flowing p (at_.1 + 1, p.margins.top) fl
  | at_, .move y :: fl => flowing p (at_.1, heightAt p y) fl

/-- Page and height in the end. -/
def flowEnd (p : Paper) : Nat × ℚ → List Flow → Nat × ℚ
  | at_, [] => at_
  | at_, .line h d ts :: fl => flowEnd p ((lineAt p at_ h ts).1, (lineAt p at_ h ts).2 + d) fl
  | at_, .page :: fl => flowEnd p (at_.1 + 1, p.margins.top) fl
  | at_, .move y :: fl => flowEnd p (at_.1, heightAt p y) fl

/-- The texts of a line of block text: those of a stretched line lose the spaces around them. -/
def blockTexts (l : TextLine) : List Str := if l.items.length < 2 ∨ l.paragraph = true then l.items.map (·.text) else l.items.map fun i => trimSpace i.text

/-- The lines of a text in style `sty` that starts on page `page`, as in C121. -/
def linesOn (p : Paper) (ctx : Ctx) (page : Nat) (sty : Styles) (iss : List Instr) : List (List Str) :=
  let width := wideSet ((printable p).x1 - (printable p).x0) sty.dim.width
  if sty.align.h = b!"block" then (blockLinesSet ctx.hyphenate p.metric width (blockTokens ctx.classes page sty iss)).map blockTexts
  else (linesSet p.metric width (tokens ctx.classes page sty iss)).map fun l => l.items.map (·.text)

/-- The font of the last word, or the one from before if there are no words. -/
def fontLeft (f : Font) (words : List (Option Word)) : Font := ((words.filterMap id).getLast?.map (·.1.font)).getD f

/-- The lines of texts, one text after the other, from a font and a position on.  The font of the last word of a text stays. -/
def flowsOf (p : Paper) (ctx : Ctx) : Font → Nat × ℚ → List Instr → List Flow
  | _, _, [] => []
  | f, at_, .font st :: is => flowsOf p ctx (st.mutatedStyles ctx.classes { defaultStyle with font := f }).font at_ is
  | f, at_, .pageBreak :: is => .page :: flowsOf p ctx f (at_.1 + 1, p.margins.top) is
  | f, at_, .setY y :: is => .move y :: flowsOf p ctx f (at_.1, heightAt p y) is
  | f, at_, .lineFeed lines :: is => .line 0 (lineHeight f * lines) [] :: flowsOf p ctx f (at_.1, at_.2 + lineHeight f * lines) is
  | f, at_, .text st iss :: is =>
    let sty := st.mutatedStyles ctx.classes { defaultStyle with font := f }
    let ls := (linesOn p ctx at_.1 sty iss).map fun ts => Flow.line (lineHeight sty.font) (lineHeight sty.font * sty.dim.lineSpacing) ts
    ls ++ flowsOf p ctx (fontLeft f (wordsOn ctx at_.1 sty iss)) (flowEnd p at_ ls) is
  | f, at_, _ :: is => flowsOf p ctx f at_ is

/-- A body without boxes and tables, in which all words of a text have the same size. -/
def PlainTexts (ctx : Ctx) (F : Font → Prop) (body : List Instr) : Prop :=
  ∀ i ∈ body, match i with
    | .box _ _ | .table _ _ _ => False
    | .text st iss => ∀ f, F f → let sty := st.mutatedStyles ctx.classes { defaultStyle with font := f }
        ∀ st' t, .paragraph st' t ∈ iss → (st'.mutatedStyles ctx.classes sty).font.pointSize = sty.font.pointSize
    | _ => True

/-- A line of each font fits on an empty page. -/
def LinesFit (p : Paper) (F : Font → Prop) : Prop := ∀ f, F f → p.margins.top + lineHeight f ≤ p.height - p.margins.bottom

/-- `k` lines of a height, at a distance, fit on a page, and no more. -/
def PageHolds (p : Paper) (height feed : ℚ) (k : Nat) : Prop :=
  0 < k ∧ p.margins.top + (k - 1 : ℚ) * feed + height ≤ p.height - p.margins.bottom ∧ p.height - p.margins.bottom < p.margins.top + k * feed + height

end Verif.Spec
