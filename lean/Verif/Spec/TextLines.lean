import Verif.Model.Process
import Verif.Spec.Text
/-
What the properties of text lines (C35-C41) talk about.
-/
namespace Verif.Spec
open Verif.Go Verif.Model

/-- The engine measures texts by `mt` in the font set last, and changing fonts does not change the page. -/
structure Measures {E : Type} (eng : Engine E) (mt : Font → Str → ℚ) : Prop where
  width : ∀ f t e, eng.textWidth t (eng.changeFont f e) = mt f t
  page : ∀ f e, eng.currentPage (eng.changeFont f e) = eng.currentPage e

/-- A word and the styles of its text. -/
abbrev Word := Styles × Str

/-- The pieces of a text on page `page`: its normalised form (see `rectified`), cut at the spaces. -/
def piecesOf (page : Int) (text : Str) : List Str := split 32 (rectified none false (replaceAll b!"{cp}" (itoa page) text))

/-- The words of a text on page `page`. -/
def wordsOf (page : Int) (text : Str) : List Str := (piecesOf page text).filter (· ≠ [])

/-- A text: words and line breaks (`none`).  Instructions other than text blocks, paragraphs and line breaks have none. -/
def tokens (cs : Classes) (page : Int) (sty : Styles) : List Instr → List (Option Word)
  | [] => []
  | .lineBreak :: iss => none :: tokens cs page sty iss
  | .textBlock text :: iss => (wordsOf page text).map (fun w => some (sty, w)) ++ tokens cs page sty iss
  | .paragraph st text :: iss => (wordsOf page text).map (fun w => some (st.mutatedStyles cs sty, w)) ++ tokens cs page sty iss
  | _ :: iss => tokens cs page sty iss

/-- The words between line breaks. -/
def segments {α : Type} : List (Option α) → List (List α)
  | [] => [[]]
  | none :: ts => [] :: segments ts
  | some w :: ts =>
    match segments ts with
    | [] => [[w]]
    | seg :: segs => (w :: seg) :: segs

/-- The items of a line: the first word as it is, the others with a space before them. -/
def setWords : List Word → List TextItem
  | [] => []
  | w :: ws => ⟨w.1, w.2⟩ :: ws.map fun v => ⟨v.1, 32 :: v.2⟩

/-- The width of a word with a space before it. -/
def spaced (mt : Font → Str → ℚ) (w : Word) : ℚ := mt w.1.font (32 :: w.2)

/-- The width of words, each with a space before it. -/
def spacedSum (mt : Font → Str → ℚ) (ws : List Word) : ℚ := (ws.map (spaced mt)).sum

/-- The width of the items of a line as they will be written. -/
def naturalWidth (mt : Font → Str → ℚ) (items : List TextItem) : ℚ := (items.map fun i => mt i.sty.font i.text).sum

/-- A line ends only if the next word would reach the available width. -/
def Greedy (mt : Font → Str → ℚ) (width : ℚ) (ls : List (List Word)) : Prop :=
  ∀ pre l l' post, ls = pre ++ l :: l' :: post → ∃ w r, l' = w :: r ∧ width ≤ spacedSum mt l + spaced mt w

/-! ### Block text -/

/-- A word, or the first or the last part of a broken word. -/
inductive WPiece
  | whole (w : Word)
  | head (w : Word)
  | tail (w : Word)
deriving DecidableEq

/-- How a piece is set, in the first place of a line and in a later one.  A first part gets a hyphen, and a space even if it is
the first of its line. -/
def WPiece.item (first : Bool) : WPiece → TextItem
  | .whole w => ⟨w.1, if first then w.2 else 32 :: w.2⟩
  | .head w => ⟨w.1, 32 :: (w.2 ++ [45])⟩
  | .tail w => ⟨w.1, if first then w.2 else 32 :: w.2⟩

/-- The items of a line of block text. -/
def setPieces : List WPiece → List TextItem
  | [] => []
  | p :: ps => p.item true :: ps.map (WPiece.item false)

/-- The pieces, broken words re-joined, are the words. -/
inductive Spells : List WPiece → List Word → Prop
  | nil : Spells [] []
  | whole {w ps ws} : Spells ps ws → Spells (.whole w :: ps) (w :: ws)
  | broken {sty a b ps ws} : Spells ps ws → Spells (.head (sty, a) :: .tail (sty, b) :: ps) ((sty, a ++ b) :: ws)

/-- In every line only the last piece is a first part of a word and only the first piece is a last part. -/
def BrokenAtEnds (ls : List (List WPiece)) : Prop :=
  ∀ l ∈ ls, ∀ pre p post, l = pre ++ p :: post → (∀ w, p = .head w → post = []) ∧ (∀ w, p = .tail w → pre = [])

/-- The width taken by a piece on its line.  Words have a space before them, even the first of a line; the last part of a word has none. -/
def WPiece.width (mt : Font → Str → ℚ) : WPiece → ℚ
  | .whole w => spaced mt w
  | .head w => spaced mt (w.1, w.2 ++ [45])
  | .tail w => mt w.1.font w.2

/-- The width taken by the pieces of a line. -/
def piecesWidth (mt : Font → Str → ℚ) (l : List WPiece) : ℚ := (l.map (WPiece.width mt)).sum

/-- The first `k` syllables of a word, with a hyphen, and the other syllables. -/
def syllables (hyph : Str → List Str) (k : Nat) (w : Word) : Word := (w.1, ((hyph w.2).take k).flatten)
def restOf (hyph : Str → List Str) (k : Nat) (w : Word) : Word := (w.1, ((hyph w.2).drop k).flatten)
def hyphened (w : Word) : Word := (w.1, w.2 ++ [45])

/-- `l'` follows the line `l`, and `l` could not have been longer: the next word of the text would reach the width, and no more of its syllables would
have fitted than the line has. -/
def Late (hyph : Str → List Str) (mt : Font → Str → ℚ) (width : ℚ) (seg : List Word) (l l' : List WPiece) : Prop :=
  (∃ w ∈ seg, ∃ r, l' = .whole w :: r ∧ width ≤ piecesWidth mt l + spaced mt w ∧
    ∀ j, 1 ≤ j → j < (hyph w.2).length → width < piecesWidth mt l + spaced mt (hyphened (syllables hyph j w))) ∨
  (∃ w ∈ seg, ∃ l0 r k, 1 ≤ k ∧ k < (hyph w.2).length ∧ l = l0 ++ [.head (syllables hyph k w)] ∧ l' = .tail (restOf hyph k w) :: r ∧
    width ≤ piecesWidth mt l0 + spaced mt w ∧ piecesWidth mt l0 + spaced mt (hyphened (syllables hyph k w)) ≤ width ∧
    ∀ j, k < j → j < (hyph w.2).length → width < piecesWidth mt l0 + spaced mt (hyphened (syllables hyph j w)))

/-- The text as block text sees it: the empty text has an (empty) piece. -/
def blockTokens (cs : Classes) (page : Int) (sty : Styles) : List Instr → List (Option Word)
  | [] => []
  | .lineBreak :: iss => none :: blockTokens cs page sty iss
  | .textBlock text :: iss => (piecesOf page text).map (fun w => some (sty, w)) ++ blockTokens cs page sty iss
  | .paragraph st text :: iss => (piecesOf page text).map (fun w => some (st.mutatedStyles cs sty, w)) ++ blockTokens cs page sty iss
  | _ :: iss => blockTokens cs page sty iss

/-- The width of the items without the spaces around them. -/
def pureWidth (mt : Font → Str → ℚ) (items : List TextItem) : ℚ := (items.map fun i => mt i.sty.font (trimSpace i.text)).sum

/-- No blank line at the end. -/
def dropBlank {α : Type} [DecidableEq α] (ls : List (List α)) : List (List α) := if ls.getLast? = some [] then ls.dropLast else ls

/-! ### Writing -/

/-- Where texts of the given widths end up, starting at `x`, with a gap between them. -/
def laid (gap : ℚ) : ℚ → List ℚ → List (ℚ × ℚ)
  | _, [] => []
  | x, w :: ws => (x, x + w) :: laid gap (x + w + gap) ws

/-- In the states `I`, with the fonts `F`: texts that end before `right` are written at the current position, which then is behind
them; `spans` tells where they are. -/
structure Typesets {E : Type} (eng : Engine E) (c : Calls E) (right : ℚ) (F : Font → Prop) (I : PState E → Prop) (spans : E → List (ℚ × ℚ)) :
    Prop where
  font : ∀ f s, F f → I s → I (changeFont eng f s) ∧ eng.getXY (changeFont eng f s).eng = eng.getXY s.eng ∧
    spans (changeFont eng f s).eng = spans s.eng
  setX : ∀ x s, 0 ≤ x → I s → I { s with eng := eng.setX x s.eng } ∧ eng.getXY (eng.setX x s.eng) = (x, (eng.getXY s.eng).2) ∧
    spans (eng.setX x s.eng) = spans s.eng
  write : ∀ t s, I s → 0 ≤ (eng.getXY s.eng).1 → (eng.getXY s.eng).1 + eng.textWidth t s.eng ≤ right → ∃ s', c.writeText t s = some ((), s') ∧
    I s' ∧ eng.getXY s'.eng = ((eng.getXY s.eng).1 + eng.textWidth t s.eng, (eng.getXY s.eng).2) ∧
    spans s'.eng = spans s.eng ++ [((eng.getXY s.eng).1, (eng.getXY s.eng).1 + eng.textWidth t s.eng)]

/-- `feeds` counts the line feeds; writing a text has none. -/
structure CountsFeeds {E : Type} (eng : Engine E) (c : Calls E) (feeds : E → Int) : Prop where
  feed : ∀ n e, feeds (eng.lineFeed n e) = feeds e + 1
  font : ∀ f e, feeds (eng.changeFont f e) = feeds e
  color : ∀ col e, feeds (eng.setTextColor col e) = feeds e
  setX : ∀ x e, feeds (eng.setX x e) = feeds e
  write : ∀ t s s', c.writeText t s = some ((), s') → feeds s'.eng = feeds s.eng

end Verif.Spec
