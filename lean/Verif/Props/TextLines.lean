import Verif.Proofs.TextLines
import Verif.Model.Fpdf
/-
Properties C35-C41: breaking text into lines and writing it (/repo/text.go, /repo/text-hyph.go).

`mt` are the font metrics.  The engine only has to measure texts by them (`Measures`).
-/
namespace Verif.Props
open Verif.Go Verif.Model Verif.Proofs Verif.Spec

variable {E : Type} {eng : Engine E} {mt : Font → Str → ℚ} {cs : Classes} {iss : List Instr} {width : ℚ} {sty : Styles} {s : PState E}
  {hyph : Str → List Str}

/-- C35: the words on the lines are the words of the text, in order, each with the styles of its block. -/
theorem C35_words (hm : Measures eng mt) : ∃ ls : List (List Word), (textLines eng cs iss width sty s).1.map (·.items) = ls.map setWords ∧
    ls.flatten = (tokens cs (eng.currentPage s.eng) sty iss).filterMap id := by
  refine ⟨_, ?_, wrapped_words (mt := mt) (width := width) _⟩
  rw [textLines_eq hm, List.map_map]
  rfl

/-- C36: lines of more than one word are narrower than the available width, if a space is not of negative width. -/
theorem C36_narrow_partial (hm : Measures eng mt) (hsp : ∀ f w, mt f w ≤ mt f (32 :: w)) :
    ∀ line ∈ (textLines eng cs iss width sty s).1, 2 ≤ line.items.length → naturalWidth mt line.items < width := by
  intro line hl h2
  rw [textLines_eq hm] at hl
  obtain ⟨ws, hws, rfl⟩ := List.mem_map.mp hl
  have h2' : 2 ≤ ws.length := by rw [← setWords_length]; exact h2
  exact lt_of_le_of_lt (natural_le hsp ws) (wrapped_narrow _ ws hws h2')

/-- C36, block text: lines of more than one piece are not wider than the available width, and narrower if they do not end in a
hyphenated word. -/
theorem C36_block_partial (hm : Measures eng mt) (hsp : ∀ f w, mt f w ≤ mt f (32 :: w)) :
    ∀ line ∈ (textLinesHyphenated eng hyph cs iss width sty s).1, 2 ≤ line.items.length → naturalWidth mt line.items ≤ width ∧
      ((∀ i, line.items.getLast? = some i → i.text.getLast? ≠ some 45) → naturalWidth mt line.items < width) := by
  intro line hl h2
  rw [textLinesHyph_eq hm] at hl
  obtain ⟨ps, hps, rfl⟩ := List.mem_map.mp hl
  have h2' : 2 ≤ ps.1.length := by rw [← setPieces_length]; exact h2
  have hmem : ps.1 ∈ (wrappedHyph hyph mt width (blockTokens cs (eng.currentPage s.eng) sty iss)).map (·.1) := List.mem_map_of_mem hps
  obtain ⟨h3, h4⟩ := wrappedHyph_width _ ps.1 hmem h2'
  have h5 := natural_le_hyph hsp ps.1 (wrappedHyph_ends _ ps.1 hmem)
  refine ⟨le_trans h5 h3, fun hlast => lt_of_le_of_lt h5 (h4 ?_)⟩
  intro w hw
  obtain ⟨init, e⟩ := List.getLast?_eq_some_iff.mp hw
  refine hlast ((WPiece.head w).item (init.length = 0)) ?_ ?_
  · simp only [lineOfH, e, setPieces_append]
    simp
  · show (32 :: (w.2 ++ [45])).getLast? = some 45
    rw [← List.cons_append, List.getLast?_append]
    rfl

/-- C60, what holds in place of C37: line breaks are necessary.  The lines come in groups, one for every stretch between line break instructions, and within
a group a line ends only if the next word would reach the available width.  A blank line stands for an empty stretch, or it
comes before the first word of a stretch, which alone reaches the width.  (The second case is what C37 denies.) -/
theorem C60_greedy (hm : Measures eng mt) : ∃ groups : List (List (List Word)),
    (textLines eng cs iss width sty s).1.map (·.items) = (dropBlank groups.flatten).map setWords ∧
    groups.map List.flatten = segments (tokens cs (eng.currentPage s.eng) sty iss) ∧
    ∀ g ∈ groups, Greedy mt width g ∧
      ([] ∈ g → g = [[]] ∨ ∃ w r rest, g = [] :: (w :: r) :: rest ∧ width ≤ spaced mt w) := by
  refine ⟨(segments (tokens cs (eng.currentPage s.eng) sty iss)).map (segLines mt width), ?_, ?_, ?_⟩
  · rw [textLines_eq hm, List.map_map, wrapped_segments]
    rfl
  · rw [List.map_map]
    conv_rhs => rw [← List.map_id (segments _)]
    exact List.map_congr_left fun seg _ => segLines_words seg
  · intro g hg
    obtain ⟨seg, _, rfl⟩ := List.mem_map.mp hg
    exact ⟨segLines_greedy seg, segLines_blank seg⟩

/-- C37: a line ends only at a line break instruction, at the end of the text, or because the next word would reach the available
width.  Missing: that there are no blank lines but those of line break instructions (false, see `C37_blank` and `C60_greedy`). -/
theorem C37_greedy_partial (hm : Measures eng mt) : ∃ groups : List (List (List Word)),
    (textLines eng cs iss width sty s).1.map (·.items) = (dropBlank groups.flatten).map setWords ∧
    groups.map List.flatten = segments (tokens cs (eng.currentPage s.eng) sty iss) ∧ ∀ g ∈ groups, Greedy mt width g := by
  obtain ⟨groups, h1, h2, h3⟩ := C60_greedy (cs := cs) (iss := iss) (width := width) (sty := sty) (s := s) hm
  exact ⟨groups, h1, h2, fun g hg => (h3 g hg).1⟩

private theorem blockTokens_words (cs : Classes) (page : Int) (sty : Styles) : ∀ (iss : List Instr),
    ((blockTokens cs page sty iss).filterMap id).filter (fun w => w.2 ≠ []) = (tokens cs page sty iss).filterMap id := by
  intro iss
  have text : ∀ (isty : Styles) (t : Str) (rest rest' : List (Option Word)),
      ((rest.filterMap id).filter fun w => w.2 ≠ []) = rest'.filterMap id →
      ((((piecesOf page t).map (fun w => some (isty, w)) ++ rest).filterMap id).filter fun w => w.2 ≠ []) =
        ((wordsOf page t).map (fun w => some (isty, w)) ++ rest').filterMap id := by
    intro isty t rest rest' h
    rw [List.filterMap_append, List.filterMap_append, List.filter_append, h]
    congr 1
    unfold wordsOf
    induction piecesOf page t with
    | nil => rfl
    | cons p ps ih =>
      by_cases hp : p = []
      · simpa [hp] using ih
      · simpa [hp] using ih
  induction iss with
  | nil => rfl
  | cons is iss ih =>
    cases is with
    | textBlock t => exact text _ t _ _ ih
    | paragraph st t => exact text _ t _ _ ih
    | lineBreak => simpa [blockTokens, tokens] using ih
    | _ => exact ih

/-- C38: the pieces on the lines of block text, broken words re-joined, are the words of the text (and empty words, one for each
empty text), if the parts that the hyphenator makes of a word re-join to the word.  Words are only broken at the end of a line. -/
theorem C38_spells (hm : Measures eng mt) (hh : ∀ w, (hyph w).flatten = w) : ∃ (ls : List (List WPiece)) (ws : List Word),
    (textLinesHyphenated eng hyph cs iss width sty s).1.map (·.items) = ls.map setPieces ∧ BrokenAtEnds ls ∧ Spells ls.flatten ws ∧
    ws.filter (fun w => w.2 ≠ []) = (tokens cs (eng.currentPage s.eng) sty iss).filterMap id := by
  obtain ⟨vs, h1, h2⟩ := wrappedHyph_spells (mt := mt) (width := width) (hyph := hyph) (P := fun v w => v = w) (fun _ => rfl)
    (fun w => by rw [hh]) (blockTokens cs (eng.currentPage s.eng) sty iss)
  refine ⟨_, vs, ?_, wrappedHyph_ends _, h2, ?_⟩
  · rw [textLinesHyph_eq hm, List.map_map, List.map_map]
    rfl
  · rw [List.forall₂_eq_eq_eq] at h1
    rw [h1, blockTokens_words]

/-- C38 for any hyphenator: what is on the lines is each word, or what the hyphenator's parts of it join to. -/
theorem C38_any (hm : Measures eng mt) : ∃ (ls : List (List WPiece)) (ws : List Word),
    (textLinesHyphenated eng hyph cs iss width sty s).1.map (·.items) = ls.map setPieces ∧ BrokenAtEnds ls ∧ Spells ls.flatten ws ∧
    List.Forall₂ (fun v w => v = w ∨ v = (w.1, (hyph w.2).flatten)) ws ((blockTokens cs (eng.currentPage s.eng) sty iss).filterMap id) := by
  obtain ⟨vs, h1, h2⟩ := wrappedHyph_spells (mt := mt) (width := width) (hyph := hyph)
    (P := fun v w => v = w ∨ v = (w.1, (hyph w.2).flatten)) (fun _ => Or.inl rfl) (fun w => Or.inr rfl)
    (blockTokens cs (eng.currentPage s.eng) sty iss)
  refine ⟨_, vs, ?_, wrappedHyph_ends _, h2, h1⟩
  rw [textLinesHyph_eq hm, List.map_map, List.map_map]
  rfl

/-- C39: a justified line starts at the left edge, its words are the same distance apart, and the last one ends 0.1 before the
available width, if spaces are at least 0.1 wide. -/
theorem C39_justified (hm : Measures eng mt) {c : Calls E} {right xLeft : ℚ} {F : Font → Prop} {I : PState E → Prop}
    {spans : E → List (ℚ × ℚ)} (ht : Typesets eng c right F I spans) (hnn : ∀ f t, 0 ≤ mt f t)
    (hsp : ∀ f w, mt f (trimSpace w) + 1 / 10 ≤ mt f (32 :: w)) (htr : ∀ f w, mt f (trimSpace w) ≤ mt f w)
    {line : TextLine} (hl : line ∈ (textLinesHyphenated eng hyph cs iss width sty s).1) (h2 : 2 ≤ line.items.length)
    (hp : line.paragraph = false) (hx : 0 ≤ xLeft) (hr : xLeft + width - 1 / 10 ≤ right) (hF : ∀ i ∈ line.items, F i.sty.font)
    {s0 : PState E} (hI : I s0) : ∃ s' gap sp, 0 ≤ gap ∧
      (do upd (eng.setX xLeft); writeHyphLine eng c width line : M E Unit) s0 = some ((), s') ∧
      spans s'.eng = spans s0.eng ++ sp ∧ sp = laid gap xLeft (line.items.map fun i => mt i.sty.font (trimSpace i.text)) ∧
      sp.getLast?.map (·.2) = some (xLeft + width - 1 / 10) := by
  rw [textLinesHyph_eq hm] at hl
  obtain ⟨ps, hps, rfl⟩ := List.mem_map.mp hl
  have hlen : (lineOfH mt ps).items.length = ps.1.length := setPieces_length ps.1
  have h2' : 2 ≤ ps.1.length := by rw [← hlen]; exact h2
  have hmem : ps.1 ∈ (wrappedHyph hyph mt width (blockTokens cs (eng.currentPage s.eng) sty iss)).map (·.1) := List.mem_map_of_mem hps
  have hwhole := wrappedHyph_whole (hyph := hyph) (mt := mt) (width := width) _ (blockTokens_nosp (cs := cs) (page := eng.currentPage s.eng) (sty := sty) iss) ps.1 hmem
  have hroom := room hsp htr (wrappedHyph_ends _ ps.1 hmem) hwhole h2'
  have hwid := (wrappedHyph_width _ ps.1 hmem h2').1
  have hpure : (lineOfH mt ps).pureTextWidth = pureWidth mt (lineOfH mt ps).items := pure_eq ps.1 hwhole
  have hcnt : ((lineOfH mt ps).items.length : Int) - 1 ≥ 1 := by omega
  have hcq : (0 : ℚ) < (((lineOfH mt ps).items.length : Int) - 1 : Int) := Int.cast_pos.mpr (by omega)
  have hle : pureWidth mt (lineOfH mt ps).items ≤ width - 1 / 10 := by
    rw [← hpure]; simp only [lineOfH]; linarith
  obtain ⟨x1, x2, x3⟩ := ht.setX xLeft s0 hx hI
  have hgap : 0 ≤ (width - 1 / 10 - (lineOfH mt ps).pureTextWidth) / (((lineOfH mt ps).items.length : Int) - 1 : Int) := by
    rw [hpure]
    exact div_nonneg (by linarith) (le_of_lt hcq)
  have hsum : (width - 1 / 10 - (lineOfH mt ps).pureTextWidth) / (((lineOfH mt ps).items.length : Int) - 1 : Int) *
      ((lineOfH mt ps).items.length - 1 : ℚ) = width - 1 / 10 - pureWidth mt (lineOfH mt ps).items := by
    rw [← hpure]
    have e : ((lineOfH mt ps).items.length - 1 : ℚ) = (((lineOfH mt ps).items.length : Int) - 1 : Int) := by push_cast; ring
    rw [e]
    exact div_mul_cancel₀ _ (ne_of_gt hcq)
  obtain ⟨s', e1, e2, e3⟩ := writeSpaced_spans hm ht hgap hnn (lineOfH mt ps).items { s0 with eng := eng.setX xLeft s0.eng } xLeft
    (eng.getXY s0.eng).2 x1 x2 hx hF (by rw [hsum]; linarith)
  refine ⟨s', _, _, hgap, ?_, by rw [e3, x3], rfl, ?_⟩
  · rw [bind_eq]
    simp only [upd, Option.bind_some, writeHyphLine]
    rw [if_neg (by rw [hp]; rintro (h | h); · omega
                   · exact absurd h (by simp))]
    exact e1
  · rw [laid_last _ _ _ (by intro h0; have := congrArg List.length h0; simp at this; rw [this] at h2; simp at h2)]
    rw [List.length_map, hsum]
    congr 1
    show xLeft + pureWidth mt (lineOfH mt ps).items + _ = _
    ring

/-- C40, the last line: it is written with natural spacing if the text does not end with a line break instruction. -/
theorem C40_last_partial (hm : Measures eng mt) (hend : ∃ w, (blockTokens cs (eng.currentPage s.eng) sty iss).getLast? = some (some w))
    (c : Calls E) : ∃ line, (textLinesHyphenated eng hyph cs iss width sty s).1.getLast? = some line ∧
      writeHyphLine eng c width line = writeItems eng c line.items := by
  obtain ⟨w, hw⟩ := hend
  obtain ⟨init, e⟩ := List.getLast?_eq_some_iff.mp hw
  have hne : ((blockTokens cs (eng.currentPage s.eng) sty iss).foldl (placeHyph hyph mt width) ([], [])).2 ≠ [] := by
    rw [e, List.foldl_append, List.foldl_cons, List.foldl_nil]
    simp only [placeHyph]
    split
    · split <;> simp
    · simp
  rw [textLinesHyph_eq hm]
  unfold wrappedHyph
  simp only [if_pos (List.length_pos_iff.mpr hne), List.map_append, List.map_cons, List.map_nil]
  refine ⟨_, by rw [List.getLast?_append]; rfl, ?_⟩
  show writeHyphLine eng c width (lineOfH mt (_, true)) = writeItems eng c (lineOfH mt (_, true)).items
  unfold writeHyphLine
  exact if_pos (Or.inr rfl)

/-- C59, what holds in place of C40: the lines come in groups, one for every stretch between line break instructions.  A line is
kept from being stretched iff it is the last one (and the text does not end with a line break instruction) or if the line after
it is the last one of a group that a line break instruction ends. -/
theorem C59_unstretched (hm : Measures eng mt) : ∃ groups : List (List (List WPiece)),
    (textLinesHyphenated eng hyph cs iss width sty s).1.map (·.items) = (dropBlank groups.flatten).map setPieces ∧
    List.Forall₂ (fun g seg => ∃ ws, Spells g.flatten ws ∧ List.Forall₂ (fun v w => v = w ∨ v = (w.1, (hyph w.2).flatten)) ws seg)
      groups (segments (blockTokens cs (eng.currentPage s.eng) sty iss)) ∧
    ∀ (k : Nat) line, (textLinesHyphenated eng hyph cs iss width sty s).1[k]? = some line →
      (line.paragraph = true ↔
        k + 1 = groups.flatten.length ∨ ∃ i, i + 1 < groups.length ∧ k + 2 = (groups.take (i + 1)).flatten.length) := by
  obtain ⟨gs', ls', new, c, e1, ⟨e2, e2'⟩, e3, _⟩ := foldl_marked (mt := mt) (hyph := hyph) (width := width)
    (segments (blockTokens cs (eng.currentPage s.eng) sty iss)) [] [] (segments_ne _) ⟨rfl, by simp⟩
  rw [joinSegs_segments] at e1
  rw [List.nil_append] at e3
  have hfl : ((segments (blockTokens cs (eng.currentPage s.eng) sty iss)).map (segLinesH hyph mt width)).flatten =
      (ls'.map (·.1) ++ new) ++ [c] := by
    rw [← e3, e2]; simp
  refine ⟨(segments (blockTokens cs (eng.currentPage s.eng) sty iss)).map (segLinesH hyph mt width), ?_, ?_, ?_⟩
  · rw [textLinesHyph_eq hm, hfl]
    unfold wrappedHyph dropBlank
    simp only [e1, List.getLast?_append, List.getLast?_singleton, Option.some_or, Option.some.injEq, List.dropLast_concat]
    by_cases hc : c = []
    · simp [hc, lineOfH, Function.comp_def]
    · simp [hc, lineOfH, Function.comp_def, List.length_pos_iff]
  · generalize segments (blockTokens cs (eng.currentPage s.eng) sty iss) = segs
    induction segs with
    | nil => exact .nil
    | cons seg segs ih =>
      refine .cons ?_ ih
      obtain ⟨vs, h1, h2⟩ := foldl_spells (mt := mt) (width := width) (hyph := hyph)
        (P := fun v w => v = w ∨ v = (w.1, (hyph w.2).flatten)) (fun _ => Or.inl rfl) (fun w => Or.inr rfl) (seg.map some) ([], []) []
        (by simpa using Spells.nil)
      refine ⟨vs, ?_, by simpa using h1⟩
      simpa [segLinesH] using h2
  · intro k line hk
    have hle : ∀ i, (gs'.take i).flatten.length ≤ ls'.length := by
      intro i
      have : ls'.length = gs'.flatten.length := by rw [← e2]; simp
      rw [this]
      conv_rhs => rw [← List.take_append_drop i gs', List.flatten_append, List.length_append]
      omega
    have htot : (ls'.map (·.1) ++ new ++ [c]).length = ls'.length + new.length + 1 := by simp [Nat.add_assoc]
    have hex : (∃ i, i + 1 < ((segments (blockTokens cs (eng.currentPage s.eng) sty iss)).map (segLinesH hyph mt width)).length ∧
        k + 2 = (((segments (blockTokens cs (eng.currentPage s.eng) sty iss)).map (segLinesH hyph mt width)).take (i + 1)).flatten.length) ↔
        ∃ i < gs'.length, k + 2 = (gs'.take (i + 1)).flatten.length := by
      rw [← e3]
      simp only [List.length_append, List.length_cons, List.length_nil, Nat.zero_add, Nat.add_lt_add_iff_right]
      constructor <;> rintro ⟨i, hi, e⟩ <;> refine ⟨i, hi, ?_⟩
      · rwa [List.take_append_of_le_length (by omega)] at e
      · rwa [List.take_append_of_le_length (by omega)]
    rw [hex, hfl, htot]
    rw [textLinesHyph_eq hm, List.getElem?_map] at hk
    obtain ⟨x, hx, rfl⟩ := Option.map_eq_some_iff.mp hk
    show x.2 = true ↔ _
    unfold wrappedHyph at hx
    simp only [e1] at hx
    have low : k < ls'.length + new.length → (ls' ++ new.map fun l => (l, false))[k]? = some x →
        (x.2 = true ↔ k + 1 = ls'.length + new.length + 1 ∨ ∃ i < gs'.length, k + 2 = (gs'.take (i + 1)).flatten.length) := by
      intro hlt hx
      rcases Nat.lt_or_ge k ls'.length with hk1 | hk1
      · rw [List.getElem?_append_left hk1] at hx
        rw [e2' k x hx]
        constructor
        · exact Or.inr
        · rintro (h | h)
          · omega
          · exact h
      · rw [List.getElem?_append_right hk1, List.getElem?_map] at hx
        obtain ⟨z, _, rfl⟩ := Option.map_eq_some_iff.mp hx
        constructor
        · intro h; exact absurd h (by simp)
        · rintro (h | ⟨i, hi, e⟩)
          · omega
          · have := hle (i + 1); omega
    by_cases hc : c.length > 0
    · rw [if_pos hc] at hx
      rcases Nat.lt_or_ge k (ls'.length + new.length) with hlt | hge
      · rw [List.getElem?_append_left (by simpa using hlt)] at hx
        exact low hlt hx
      · rw [List.getElem?_append_right (by simpa using hge)] at hx
        have hk0 : k - (ls' ++ new.map fun l => (l, false)).length = 0 := by
          by_contra hne
          rw [List.getElem?_eq_none (by simp at hne ⊢; omega)] at hx
          exact absurd hx (by simp)
        rw [hk0] at hx
        simp at hx
        rw [← hx]
        simp only [true_iff]
        left
        simp at hk0
        omega
    · rw [if_neg hc] at hx
      have hlt : k < ls'.length + new.length := by
        have := (List.getElem?_eq_some_iff.mp hx).1
        simpa using this
      exact low hlt hx

/-- C41: the height measured for a text whose fonts all have the same height is the height of the lines that writing it takes, if the page is the same. -/
theorem C41_height (hm : Measures eng mt) {fh : Font → ℚ} (hf : ∀ f e, eng.fontHeight (eng.changeFont f e) = fh f)
    (hcol : ∀ col e, eng.currentPage (eng.setTextColor col e) = eng.currentPage e) {ctx : Ctx} {c : Calls E} {feeds : E → Int}
    (hc : CountsFeeds eng c feeds) (hone : ∀ st t, .paragraph st t ∈ iss → fh (st.mutatedStyles ctx.classes sty).font = fh sty.font)
    {s2 s3 : PState E} (hpage : eng.currentPage s2.eng = eng.currentPage s.eng)
    (hrun : writeTextFnc eng ctx c iss width sty s2 = some ((), s3)) :
    (textHeightFnc eng ctx sty iss width s).1 =
      ((feeds s3.eng - feeds s2.eng : Int) - 1) * (fh sty.font * sty.dim.lineSpacing) + fh sty.font := by
  have height : ∀ n : Nat, linesHeight n (fh sty.font) sty.dim.lineSpacing = ((n : Int) - 1 : ℚ) * (fh sty.font * sty.dim.lineSpacing) + fh sty.font := by
    intro n; unfold linesHeight; simp only; push_cast; ring
  unfold writeTextFnc at hrun
  unfold textHeightFnc
  split at hrun
  · rename_i hb
    rw [if_pos hb]
    unfold writeTextHyphenated at hrun
    obtain ⟨_, t1, h1, hrun⟩ := bind_some hrun
    obtain ⟨_, t2, h2, hrun⟩ := bind_some hrun
    obtain ⟨lines, t3, h3, hrun⟩ := bind_some hrun
    obtain ⟨xy, t4, h4, hrun⟩ := bind_some hrun
    simp only [upd, ask, Model.total, Option.some.injEq, Prod.mk.injEq] at h1 h2 h3 h4
    have hfe : feeds t4.eng = feeds s2.eng := by
      rw [← h4.2, show t3 = (textLinesHyphenated eng ctx.hyphenate ctx.classes iss width sty t2).2 from (congrArg Prod.snd h3).symm]
      have key : ∀ (iss : List Instr) acc (s : PState E), feeds (linesLoopHyph eng ctx.hyphenate ctx.classes width sty iss acc s).2.eng = feeds s.eng := by
        intro iss
        induction iss with
        | nil => intro acc s; rfl
        | cons is iss ih =>
          intro acc s
          cases is with
          | textBlock t => exact (ih _ _).trans (hc.font _ _)
          | paragraph st t => exact (ih _ _).trans (hc.font _ _)
          | _ => exact ih _ _
      unfold textLinesHyphenated
      simp only [key]
      rw [← h2.2, ← h1.2]
      simp only [hc.color, hc.font]
    have hn := writeHyphLines_feeds hc _ _ _ hrun
    have hlines : (textLinesHyphenated eng ctx.hyphenate ctx.classes iss width sty { s with eng := eng.changeFont sty.font s.eng }).1.length =
        lines.length := by
      have e3 : _ = lines := congrArg Prod.fst h3
      rw [← e3, textLinesHyph_eq hm, textLinesHyph_eq hm]
      have : eng.currentPage t2.eng = eng.currentPage (eng.changeFont sty.font s.eng) := by
        rw [← h2.2, ← h1.2]; simp only [hcol, hm.page, hpage]
      simp only [this, List.length_map]
    unfold textHeightHyphenated
    simp only
    rw [hlines]
    have := linesLoopHyph_font hf (hyph := ctx.hyphenate) (width := width) iss ([], TextLine.empty) { s with eng := eng.changeFont sty.font s.eng }
      hone (hf _ _)
    unfold textLinesHyphenated
    simp only [this]
    rw [height, hn, hfe]
    push_cast; ring
  · rename_i hb
    rw [if_neg hb]
    unfold Model.writeText at hrun
    obtain ⟨_, t1, h1, hrun⟩ := bind_some hrun
    obtain ⟨_, t2, h2, hrun⟩ := bind_some hrun
    obtain ⟨lines, t3, h3, hrun⟩ := bind_some hrun
    obtain ⟨xy, t4, h4, hrun⟩ := bind_some hrun
    simp only [upd, ask, Model.total, Option.some.injEq, Prod.mk.injEq] at h1 h2 h3 h4
    have hfe : feeds t4.eng = feeds s2.eng := by
      rw [← h4.2, show t3 = (textLines eng ctx.classes iss width sty t2).2 from (congrArg Prod.snd h3).symm]
      have key : ∀ (iss : List Instr) acc (s : PState E), feeds (linesLoop eng ctx.classes width sty iss acc s).2.eng = feeds s.eng := by
        intro iss
        induction iss with
        | nil => intro acc s; rfl
        | cons is iss ih =>
          intro acc s
          cases is with
          | textBlock t =>
            simp only [linesLoop, textOf]
            split
            · exact ih _ _
            · exact (ih _ _).trans (hc.font _ _)
          | paragraph st t =>
            simp only [linesLoop, textOf]
            split
            · exact ih _ _
            · exact (ih _ _).trans (hc.font _ _)
          | _ => exact ih _ _
      unfold textLines
      simp only [key]
      rw [← h2.2, ← h1.2]
      simp only [hc.color, hc.font]
    have hn := writeLines_feeds hc _ _ _ hrun
    have hlines : (textLines eng ctx.classes iss width sty { s with eng := eng.changeFont sty.font s.eng }).1.length = lines.length := by
      have e3 : _ = lines := congrArg Prod.fst h3
      rw [← e3, textLines_eq hm, textLines_eq hm]
      have : eng.currentPage t2.eng = eng.currentPage (eng.changeFont sty.font s.eng) := by
        rw [← h2.2, ← h1.2]; simp only [hcol, hm.page, hpage]
      simp only [this, List.length_map]
    unfold textHeight
    simp only
    rw [hlines]
    have := linesLoop_font hf (width := width) iss ([], TextLine.empty) { s with eng := eng.changeFont sty.font s.eng }
      hone (hf _ _)
    unfold textLines
    simp only [this]
    rw [height, hn, hfe]
    push_cast; ring

/-! ### The engine of the program meets the assumptions -/

theorem measures_fpdf (p : Paper) : Measures (Fpdf.engine p) p.metric := ⟨fun _ _ _ => rfl, fun _ _ => rfl⟩

/-- Where the texts on the pages are. -/
def spansOf (p : Paper) (e : Fpdf) : List (ℚ × ℚ) := e.out.filterMap fun
  | .text _ x _ f _ t => some (x, x + p.metric f t)
  | _ => none

/-- Room for a line of height `h` is enough to write texts in fonts up to that height. -/
theorem typesets_fpdf (p : Paper) (ctx : Ctx) (n : Nat) (right h : ℚ) : Typesets (Fpdf.engine p) (callsAt (Fpdf.engine p) ctx (n + 1)) right
    (fun f => f.pointSize * (127 / 360) ≤ h) (fun s => s.eng.y + h ≤ p.height - p.margins.bottom ∧ s.eng.font.pointSize * (127 / 360) ≤ h)
    (spansOf p) where
  font f s hf hI := ⟨⟨hI.1, hf⟩, rfl, rfl⟩
  setX x s hx hI := ⟨hI, by simp [Fpdf.engine, Fpdf.setX, hx], by simp [Fpdf.engine, Fpdf.setX, spansOf]⟩
  write t s hI _ _ := by
    have hn : ¬ (s.eng.y + Fpdf.fontHeight s.eng > p.height - p.margins.bottom ∧ (!s.eng.inHeaderFooter) = true) := by
      rintro ⟨h1, _⟩
      have h2 : Fpdf.fontHeight s.eng ≤ h := hI.2
      have := hI.1
      linarith
    refine ⟨{ s with eng := Fpdf.put p t s.eng }, ?_, hI, rfl, by simp [Fpdf.engine, Fpdf.put, spansOf]⟩
    show runProg _ _ (Fpdf.writeText p t s.eng) s = _
    unfold Fpdf.writeText
    rw [if_neg hn]
    rfl

/-- The line feeds in the output. -/
def feedsOf (e : Fpdf) : Int := (e.out.filter fun | .feed _ => true | _ => false).length

/-- Without header and footer, writing texts feeds no lines, even if a page ends. -/
theorem feeds_fpdf (p : Paper) {ctx : Ctx} (hh : ctx.header = []) (hf : ctx.footer = []) (n : Nat) :
    CountsFeeds (Fpdf.engine p) (callsAt (Fpdf.engine p) ctx (n + 1)) feedsOf where
  feed k e := by simp [Fpdf.engine, Fpdf.lineFeed, feedsOf]
  font f e := rfl
  color c e := rfl
  setX x e := rfl
  write t s s' h := by
    have hcb : ∀ (s s' : PState Fpdf) (b : Unit), callback (Fpdf.engine p) ctx (callsAt (Fpdf.engine p) ctx n) [] s = some (b, s') →
        feedsOf s'.eng = feedsOf s.eng := by
      intro s s' b h
      cases b
      simp only [callback, bind_eq, ask, upd, modify, modifyGet, MonadStateOf.modifyGet, StateT.modifyGet, processInstrs, pure, StateT.pure,
        Option.bind_some, Option.some.injEq, Prod.mk.injEq, true_and] at h
      rw [← h]
      rfl
    have hturn : ∀ (g : Font) (c : RGB) (e : Fpdf) (x : ℚ) (s s' : PState Fpdf) (b : Unit),
        runProg (callback (Fpdf.engine p) ctx (callsAt (Fpdf.engine p) ctx n) ctx.header)
          (callback (Fpdf.engine p) ctx (callsAt (Fpdf.engine p) ctx n) ctx.footer)
          (Fpdf.andThen (Fpdf.turn p g c e) fun e' _ => .done (Fpdf.put p t { e' with x := x }) ()) s = some (b, s') →
        feedsOf s'.eng = feedsOf e := by
      intro g c e x s s' b h
      simp only [Fpdf.turn, Fpdf.andThen, runProg, hh] at h
      split at h
      · exact absurd h (by simp)
      · rename_i b1 s1 h1
        simp only [Option.some.injEq, Prod.mk.injEq] at h
        have h0 := hcb _ _ _ h1
        rw [← h.2]
        have e1 : feedsOf (Fpdf.put p t { s1.eng with font := g, color := c, inHeaderFooter := false, x := x }) = feedsOf s1.eng := by
          simp [feedsOf, Fpdf.put]
        rw [e1, h0]
        simp [feedsOf]
    change runProg _ _ (Fpdf.writeText p t s.eng) s = _ at h
    unfold Fpdf.writeText at h
    split at h
    · unfold Fpdf.addPage at h
      split at h
      · simp only [Fpdf.andThen, runProg] at h
        split at h
        · exact absurd h (by simp)
        · rename_i b1 s1 h1
          rw [hf] at h1
          rw [hturn _ _ _ _ _ _ _ h]
          exact (hcb _ _ _ h1).trans rfl
      · exact hturn _ _ _ _ _ _ _ h
    · simp only [runProg, Option.some.injEq, Prod.mk.injEq, true_and] at h
      rw [← h]
      simp [feedsOf, Fpdf.put]

/-! ### Examples -/

/-- A page of 100 by 100; every letter is 2 wide. -/
def exPaper : Paper := ⟨100, 100, ⟨10, 10, 10, 10⟩, fun _ => true, fun _ t => 2 * t.length⟩

/-- A hyphenator that knows one word. -/
def exHyph (w : Str) : List Str := if w = b!"syllable" then [b!"syl", b!"la", b!"ble"] else [w]

example : ∀ w, (exHyph w).flatten = w := by
  intro w; unfold exHyph; split
  · rename_i h; rw [h]; decide
  · simp

private def exState : PState Fpdf := newProcessor { Fpdf.new exPaper with page := 7 }
private def exText : List Instr := [.textBlock b!" page {cp}\n of\tsyllable ", .lineBreak, .paragraph ⟨[], []⟩ b!"a bb syllable"]

/-- The metrics meet the assumptions of C36 and C39. -/
example : (∀ f w, exPaper.metric f w ≤ exPaper.metric f (32 :: w)) ∧ (∀ f t, 0 ≤ exPaper.metric f t) := by
  refine ⟨fun f w => ?_, fun f t => ?_⟩ <;> simp [exPaper]

private def textsOf (lines : List TextLine) : List (List Str × Bool) := lines.map fun l => (l.items.map (·.text), l.paragraph)

/-- Wrapping to a width of 22, that is 11 letters. -/
example : textsOf (textLines (Fpdf.engine exPaper) [] exText 22 defaultStyle exState).1 =
    [([b!"page", b!" 7", b!" of"], false), ([b!"syllable"], false), ([b!"a", b!" bb"], false), ([b!"syllable"], false)] := by
  decide +kernel

/-- The same as block text: `syllable` is broken where that helps. -/
example : textsOf (textLinesHyphenated (Fpdf.engine exPaper) exHyph [] exText 30 defaultStyle exState).1 =
    [([b!"page", b!" 7", b!" of", b!" syl-"], true), ([b!"lable"], false), ([b!"a", b!" bb", b!" syllable"], true)] := by
  decide +kernel

/-- C36 as stated is false for block text: this line is as wide as the available width. -/
theorem C36_exact_fit : textsOf (textLinesHyphenated (Fpdf.engine exPaper) exHyph [] [.textBlock b!"syllable syllable"] 16 defaultStyle
      exState).1 = [([b!" sylla-"], false), ([b!"ble", b!" syl-"], false), ([b!"lable"], true)] ∧
    naturalWidth exPaper.metric [⟨defaultStyle, b!"ble"⟩, ⟨defaultStyle, b!" syl-"⟩] = 16 := by
  decide +kernel

/-- C37 as stated is false: a first word that reaches the available width comes after a blank line. -/
theorem C37_blank : textsOf (textLines (Fpdf.engine exPaper) [] [.textBlock b!"syllable a"] 15 defaultStyle exState).1 =
    [([], false), ([b!"syllable"], false), ([b!"a"], false)] := by
  decide +kernel

/-- C40 as stated is false: a line ended by a line break is stretched, and so is the last line if a line break ends the text. -/
theorem C40_break_stretched : ((writeTextHyphenated (Fpdf.engine exPaper)
      { classes := [], header := [], footer := [], body := [], hyphenate := exHyph, resolve := id, describe := fun _ => none }
      (callsAt (Fpdf.engine exPaper) { classes := [], header := [], footer := [], body := [], hyphenate := exHyph, resolve := id, describe := fun _ => none } 1)
      [.textBlock b!"a b", .lineBreak] 60 defaultStyle) exState).map (fun r => spansOf exPaper r.2.eng) =
    some [(10, 12), (10 + 60 - 1 / 10 - 2, 10 + 60 - 1 / 10)] := by
  decide +kernel

end Verif.Props
