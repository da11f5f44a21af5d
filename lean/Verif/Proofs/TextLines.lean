import Verif.Spec.TextLines
import Verif.Props.Text
import Mathlib.Algebra.Order.Field.Rat
import Mathlib.Tactic.Linarith
import Mathlib.Tactic.Ring
import Mathlib.Tactic.NormNum
import Mathlib.Algebra.Order.BigOperators.Group.List
/-
Breaking text into lines.
-/
namespace Verif.Proofs
open Verif.Go Verif.Model Verif.Spec

variable {E : Type} {eng : Engine E} {mt : Font → Str → ℚ}

/-! ### split -/

theorem split_ne_nil (sep : UInt8) (s : Str) : split sep s ≠ [] := by
  induction s with
  | nil => simp [split]
  | cons c cs ih =>
    unfold split
    split
    · simp
    · split <;> simp

theorem split_cons_sep (sep : UInt8) (s : Str) : split sep (sep :: s) = [] :: split sep s := by
  conv_lhs => unfold split
  simp

theorem split_cons_ne {sep c : UInt8} (h : c ≠ sep) (s : Str) : ∃ p ps, split sep s = p :: ps ∧ split sep (c :: s) = (c :: p) :: ps := by
  cases hs : split sep s with
  | nil => exact absurd hs (split_ne_nil _ _)
  | cons p ps =>
    refine ⟨p, ps, rfl, ?_⟩
    conv_lhs => unfold split
    simp [h, hs]

/-- The pieces of a text without doubled, leading or trailing separators are not empty. -/
theorem split_pieces_ne (sep : UInt8) : ∀ (s : Str), ¬ [sep, sep] <:+: s → s.getLast? ≠ some sep → s ≠ [] →
    (s.head? ≠ some sep → ∀ p ∈ split sep s, p ≠ []) ∧ (s.head? = some sep → ∀ p ∈ (split sep s).tail, p ≠ []) := by
  intro s
  induction s with
  | nil => intro _ _ h; exact absurd rfl h
  | cons c cs ih =>
    intro h2 hl _
    have h2' : ¬ [sep, sep] <:+: cs := fun hc => h2 (hc.trans (List.infix_cons (List.infix_refl _)))
    cases hcs : cs with
    | nil =>
      subst hcs
      have hc : c ≠ sep := by intro hc; subst hc; simp at hl
      refine ⟨fun _ p hp => ?_, fun hh => ?_⟩
      · simp [split, hc] at hp; simp [hp]
      · simp at hh; exact absurd hh hc
    | cons d ds =>
      have hl' : cs.getLast? ≠ some sep := by rw [hcs]; rw [hcs] at hl; simpa [List.getLast?_cons_cons] using hl
      obtain ⟨i1, i2⟩ := ih h2' hl' (by rw [hcs]; simp)
      rw [← hcs]
      refine ⟨fun hh p hp => ?_, fun hh p hp => ?_⟩
      · have hc : c ≠ sep := by simpa using hh
        obtain ⟨q, qs, e1, e2⟩ := split_cons_ne hc cs
        rw [e2] at hp
        by_cases hd : cs.head? = some sep
        · have := i2 hd
          rw [e1] at this
          rcases List.mem_cons.mp hp with rfl | hp
          · simp
          · exact this p (by simpa using hp)
        · have := i1 hd
          rw [e1] at this
          rcases List.mem_cons.mp hp with rfl | hp
          · simp
          · exact this p (List.mem_cons_of_mem _ hp)
      · have hc : c = sep := by simpa using hh
        subst hc
        rw [split_cons_sep] at hp
        have hd : cs.head? ≠ some c := by
          intro hd
          rw [hcs] at hd
          simp only [List.head?_cons, Option.some.injEq] at hd
          exact h2 ⟨[], ds, by rw [hcs, hd]; rfl⟩
        exact i1 hd p (by simpa using hp)

theorem split_no_sep (sep : UInt8) : ∀ (s : Str), ∀ p ∈ split sep s, sep ∉ p := by
  intro s
  induction s with
  | nil => intro p hp; simp [split] at hp; simp [hp]
  | cons c cs ih =>
    intro p hp
    by_cases hc : c = sep
    · subst hc
      rw [split_cons_sep] at hp
      rcases List.mem_cons.mp hp with rfl | hp
      · simp
      · exact ih p hp
    · obtain ⟨q, qs, e1, e2⟩ := split_cons_ne hc cs
      rw [e1] at ih
      rw [e2] at hp
      rcases List.mem_cons.mp hp with rfl | hp
      · simp only [List.mem_cons, not_or]
        exact ⟨fun h => hc h.symm, ih q (by simp)⟩
      · exact ih p (List.mem_cons_of_mem _ hp)

/-- Every piece is a part of the text. -/
theorem split_infix (sep : UInt8) : ∀ (s : Str), ∃ p ps, split sep s = p :: ps ∧ p <+: s ∧ ∀ q ∈ ps, q <:+: s := by
  intro s
  induction s with
  | nil => exact ⟨[], [], rfl, List.prefix_refl _, by simp⟩
  | cons c cs ih =>
    obtain ⟨p, ps, e, h1, h2⟩ := ih
    by_cases hc : c = sep
    · subst hc
      refine ⟨[], p :: ps, by rw [split_cons_sep, e], List.nil_prefix, ?_⟩
      intro q hq
      rcases List.mem_cons.mp hq with rfl | hq
      · exact h1.isInfix.trans (List.infix_cons (List.infix_refl _))
      · exact (h2 q hq).trans (List.infix_cons (List.infix_refl _))
    · obtain ⟨q, qs, e1, e2⟩ := split_cons_ne hc cs
      rw [e] at e1
      simp only [List.cons.injEq] at e1
      obtain ⟨rfl, rfl⟩ := e1
      exact ⟨c :: p, ps, e2, List.cons_prefix_cons.mpr ⟨rfl, h1⟩, fun q hq => (h2 q hq).trans (List.infix_cons (List.infix_refl _))⟩

theorem mem_split_infix {sep : UInt8} {s q : Str} (h : q ∈ split sep s) : q <:+: s := by
  obtain ⟨p, ps, e, h1, h2⟩ := split_infix sep s
  rw [e] at h
  rcases List.mem_cons.mp h with rfl | h
  · exact h1.isInfix
  · exact h2 q h

/-- The words of a normalised text that is not empty. -/
theorem split_norm {s : Str} (h : whitespaceRectified s ≠ []) :
    (split 32 (whitespaceRectified s)).filter (· ≠ []) = split 32 (whitespaceRectified s) := by
  obtain ⟨_, _, _, h4, h5, h6, _, _⟩ := Verif.Props.C01_normal_form s
  rw [List.filter_eq_self]
  intro p hp
  simpa using (split_pieces_ne 32 _ h4 h6 h).1 h5 p hp

/-! ### The loop, on words -/

/-- One token, on words only. -/
def placeTok (mt : Font → Str → ℚ) (width : ℚ) (acc : List (List Word) × List Word) : Option Word → List (List Word) × List Word
  | none => (acc.1 ++ [acc.2], [])
  | some w => if spacedSum mt acc.2 + spaced mt w ≥ width then (acc.1 ++ [acc.2], [w]) else (acc.1, acc.2 ++ [w])

/-- The line with the given words. -/
def lineOf (mt : Font → Str → ℚ) (ws : List Word) : TextLine :=
  { items := setWords ws, width := spacedSum mt ws, pureTextWidth := 0, paragraph := false }

theorem lineOf_nil : lineOf mt [] = TextLine.empty := rfl

theorem setWords_append (ws : List Word) (w : Word) : setWords (ws ++ [w]) =
    setWords ws ++ [⟨w.1, if ws.length > 0 then 32 :: w.2 else w.2⟩] := by
  cases ws with
  | nil => simp [setWords]
  | cons a ws => simp [setWords]

theorem setWords_length (ws : List Word) : (setWords ws).length = ws.length := by
  cases ws <;> simp [setWords]

theorem total_append (ws : List Word) (w : Word) : spacedSum mt (ws ++ [w]) = spacedSum mt ws + spaced mt w := by simp [spacedSum]

theorem wrapWord_eq {width : ℚ} {sty : Styles} {tw : Str → ℚ} (htw : ∀ t, tw t = mt sty.font t) (acc : List (List Word) × List Word)
    (word : Str) : wrapWord tw width sty (acc.1.map (lineOf mt), lineOf mt acc.2) word =
      ((placeTok mt width acc (some (sty, word))).1.map (lineOf mt), lineOf mt (placeTok mt width acc (some (sty, word))).2) := by
  unfold wrapWord placeTok
  have e : tw (32 :: word) = spaced mt (sty, word) := htw _
  simp only [e, show (lineOf mt acc.2).width = spacedSum mt acc.2 from rfl]
  by_cases hc : spacedSum mt acc.2 + spaced mt (sty, word) ≥ width
  · simp only [if_pos hc, List.map_append, List.map_cons, List.map_nil]
    refine Prod.ext rfl ?_
    simp [TextLine.empty, lineOf, setWords, spacedSum]
  · simp only [if_neg hc]
    refine Prod.ext rfl ?_
    simp only [lineOf, setWords_append, total_append, setWords_length]

theorem wrapWords_eq {width : ℚ} {sty : Styles} {tw : Str → ℚ} (htw : ∀ t, tw t = mt sty.font t) : ∀ (words : List Str)
    (acc : List (List Word) × List Word), words.foldl (wrapWord tw width sty) (acc.1.map (lineOf mt), lineOf mt acc.2) =
      let r := (words.map fun w => some (sty, w)).foldl (placeTok mt width) acc
      (r.1.map (lineOf mt), lineOf mt r.2) := by
  intro words
  induction words with
  | nil => intro acc; rfl
  | cons w ws ih =>
    intro acc
    rw [List.foldl_cons, wrapWord_eq htw, ih, List.map_cons, List.foldl_cons]

/-- The font set last and the current page. -/
theorem linesLoop_eq (hm : Measures eng mt) {cs : Classes} {width : ℚ} {sty : Styles} : ∀ (iss : List Instr)
    (acc : List (List Word) × List Word) (s : PState E),
    let r := (tokens cs (eng.currentPage s.eng) sty iss).foldl (placeTok mt width) acc
    (linesLoop eng cs width sty iss (acc.1.map (lineOf mt), lineOf mt acc.2) s).1 = (r.1.map (lineOf mt), lineOf mt r.2) := by
  intro iss
  induction iss with
  | nil => intro acc s; simp [linesLoop, tokens]
  | cons is iss ih =>
    intro acc s
    have text : ∀ (isty : Styles) (t : Str), textOf cs sty is = some (isty, t) → is ≠ .lineBreak →
        tokens cs (eng.currentPage s.eng) sty (is :: iss) =
          (wordsOf (eng.currentPage s.eng) t).map (fun w => some (isty, w)) ++ tokens cs (eng.currentPage s.eng) sty iss →
        linesLoop eng cs width sty (is :: iss) (acc.1.map (lineOf mt), lineOf mt acc.2) s =
          (if norm eng s.eng t = [] then linesLoop eng cs width sty iss (acc.1.map (lineOf mt), lineOf mt acc.2) s
           else linesLoop eng cs width sty iss ((split 32 (norm eng s.eng t)).foldl
             (wrapWord (fun w => eng.textWidth w (changeFont eng isty.font s).eng) width isty) (acc.1.map (lineOf mt), lineOf mt acc.2))
             (changeFont eng isty.font s)) →
        let r := (tokens cs (eng.currentPage s.eng) sty (is :: iss)).foldl (placeTok mt width) acc
        (linesLoop eng cs width sty (is :: iss) (acc.1.map (lineOf mt), lineOf mt acc.2) s).1 = (r.1.map (lineOf mt), lineOf mt r.2) := by
      intro isty t _ _ htok hloop
      simp only [htok, hloop, List.foldl_append]
      have hn : wordsOf (eng.currentPage s.eng) t = (split 32 (norm eng s.eng t)).filter (· ≠ []) := by
        rw [wordsOf, piecesOf, ← Verif.Props.C02_exact]; rfl
      by_cases h0 : norm eng s.eng t = []
      · rw [if_pos h0, hn, h0]
        simpa [split] using ih acc s
      · rw [if_neg h0, hn]
        have := split_norm (s := tr eng s.eng t) h0
        rw [show whitespaceRectified (tr eng s.eng t) = norm eng s.eng t from rfl] at this
        rw [this, wrapWords_eq (mt := mt) (tw := fun w => eng.textWidth w (changeFont eng isty.font s).eng) (fun t => hm.width _ _ _)]
        have hpg : eng.currentPage s.eng = eng.currentPage (changeFont eng isty.font s).eng := (hm.page _ _).symm
        rw [hpg]
        exact ih _ _
    cases is with
    | textBlock t => exact text sty t rfl (by simp) rfl rfl
    | paragraph st t => exact text (st.mutatedStyles cs sty) t rfl (by simp) rfl rfl
    | lineBreak =>
      simp only [linesLoop, tokens, List.foldl_cons]
      have := ih (acc.1 ++ [acc.2], []) s
      simpa [placeTok, lineOf_nil] using this
    | _ => exact ih acc s

/-- The words of the lines. -/
def wrapped (mt : Font → Str → ℚ) (width : ℚ) (toks : List (Option Word)) : List (List Word) :=
  let r := toks.foldl (placeTok mt width) ([], [])
  if r.2.length > 0 then r.1 ++ [r.2] else r.1

theorem textLines_eq (hm : Measures eng mt) {cs : Classes} {width : ℚ} {sty : Styles} (iss : List Instr) (s : PState E) :
    (textLines eng cs iss width sty s).1 = (wrapped mt width (tokens cs (eng.currentPage s.eng) sty iss)).map (lineOf mt) := by
  unfold textLines wrapped closeLines
  have := linesLoop_eq hm (cs := cs) (width := width) (sty := sty) iss ([], []) s
  simp only [List.map_nil, lineOf_nil] at this
  simp only [this, show ∀ ws, (lineOf mt ws).items.length = ws.length from fun ws => setWords_length ws]
  split
  · simp
  · rfl

/-! ### Properties of the loop on words -/

theorem foldl_words {width : ℚ} : ∀ (toks : List (Option Word)) (acc : List (List Word) × List Word),
    (toks.foldl (placeTok mt width) acc).1.flatten ++ (toks.foldl (placeTok mt width) acc).2 =
      acc.1.flatten ++ acc.2 ++ toks.filterMap id := by
  intro toks
  induction toks with
  | nil => intro acc; simp
  | cons tk toks ih =>
    intro acc
    rw [List.foldl_cons, ih]
    cases tk with
    | none => simp [placeTok]
    | some w =>
      simp only [placeTok, List.filterMap_cons_some (b := w) (f := id) (a := some w) rfl]
      split <;> simp

theorem wrapped_words {width : ℚ} (toks : List (Option Word)) : (wrapped mt width toks).flatten = toks.filterMap id := by
  have := foldl_words (mt := mt) (width := width) toks ([], [])
  unfold wrapped
  simp only
  split
  · simpa using this
  · rename_i hc
    have hnil : (toks.foldl (placeTok mt width) ([], [])).2 = [] := List.length_eq_zero_iff.mp (by omega)
    rw [hnil] at this
    simpa using this

/-- A line of two or more words is narrower than `width`. -/
def Narrow (mt : Font → Str → ℚ) (width : ℚ) (l : List Word) : Prop := 2 ≤ l.length → spacedSum mt l < width

theorem foldl_narrow {width : ℚ} : ∀ (toks : List (Option Word)) (acc : List (List Word) × List Word),
    (∀ l ∈ acc.1, Narrow mt width l) → Narrow mt width acc.2 →
    (∀ l ∈ (toks.foldl (placeTok mt width) acc).1, Narrow mt width l) ∧ Narrow mt width (toks.foldl (placeTok mt width) acc).2 := by
  intro toks
  induction toks with
  | nil => intro acc h1 h2; exact ⟨h1, h2⟩
  | cons tk toks ih =>
    intro acc h1 h2
    rw [List.foldl_cons]
    have h1' : ∀ l ∈ acc.1 ++ [acc.2], Narrow mt width l := by
      intro l hl
      rcases List.mem_append.mp hl with hl | hl
      · exact h1 l hl
      · simp at hl; rw [hl]; exact h2
    cases tk with
    | none => exact ih _ h1' (by intro h; simp [placeTok] at h)
    | some w =>
      simp only [placeTok]
      split
      · exact ih _ h1' (by intro h; simp at h)
      · rename_i hc
        refine ih _ h1 ?_
        intro _
        rw [total_append]
        exact not_le.mp hc

theorem wrapped_narrow {width : ℚ} (toks : List (Option Word)) : ∀ l ∈ wrapped mt width toks, Narrow mt width l := by
  obtain ⟨h1, h2⟩ := foldl_narrow (mt := mt) (width := width) toks ([], []) (by simp) (by intro h; simp at h)
  intro l hl
  unfold wrapped at hl
  simp only at hl
  split at hl
  · rcases List.mem_append.mp hl with hl | hl
    · exact h1 l hl
    · simp at hl; rw [hl]; exact h2
  · exact h1 l hl

/-- The lines of one segment. -/
def segLines (mt : Font → Str → ℚ) (width : ℚ) (seg : List Word) : List (List Word) :=
  let r := (seg.map some).foldl (placeTok mt width) ([], [])
  r.1 ++ [r.2]

/-- Lines already finished do not matter. -/
theorem foldl_prefix {width : ℚ} : ∀ (toks : List (Option Word)) (ls : List (List Word)) (c : List Word),
    toks.foldl (placeTok mt width) (ls, c) =
      (ls ++ (toks.foldl (placeTok mt width) ([], c)).1, (toks.foldl (placeTok mt width) ([], c)).2) := by
  intro toks
  induction toks with
  | nil => intro ls c; simp
  | cons tk toks ih =>
    intro ls c
    rw [List.foldl_cons, List.foldl_cons]
    cases tk with
    | none =>
      simp only [placeTok, List.nil_append]
      rw [ih (ls ++ [c]), ih [c]]
      simp
    | some w =>
      simp only [placeTok]
      split
      · simp only [List.nil_append]
        rw [ih (ls ++ [c]), ih [c]]
        simp
      · exact ih ls _

/-- The tokens of segments. -/
def joinSegs {α : Type} : List (List α) → List (Option α)
  | [] => []
  | [seg] => seg.map some
  | seg :: seg' :: segs => seg.map some ++ none :: joinSegs (seg' :: segs)

theorem segments_ne {α : Type} (toks : List (Option α)) : segments toks ≠ [] := by
  cases toks with
  | nil => simp [segments]
  | cons tk toks =>
    cases tk with
    | none => simp [segments]
    | some w => unfold segments; split <;> simp

theorem joinSegs_segments {α : Type} (toks : List (Option α)) : joinSegs (segments toks) = toks := by
  induction toks with
  | nil => rfl
  | cons tk toks ih =>
    cases tk with
    | none =>
      unfold segments
      cases hs : segments toks with
      | nil => exact absurd hs (segments_ne _)
      | cons seg segs => rw [hs] at ih; simp [joinSegs, ih]
    | some w =>
      unfold segments
      cases hs : segments toks with
      | nil => exact absurd hs (segments_ne _)
      | cons seg segs =>
        rw [hs] at ih
        simp only
        cases segs with
        | nil => simp only [joinSegs] at ih ⊢; simp [ih]
        | cons seg' segs => simp only [joinSegs] at ih ⊢; simp [ih]

/-- All lines, including a last blank one. -/
theorem foldl_segments {width : ℚ} : ∀ (segs : List (List Word)), segs ≠ [] →
    ((joinSegs segs).foldl (placeTok mt width) ([], [])).1 ++ [((joinSegs segs).foldl (placeTok mt width) ([], [])).2] =
      segs.flatMap (segLines mt width) := by
  intro segs
  induction segs with
  | nil => intro h; exact absurd rfl h
  | cons seg segs ih =>
    intro _
    cases segs with
    | nil => simp [joinSegs, segLines]
    | cons seg' segs =>
      simp only [joinSegs, List.foldl_append, List.foldl_cons]
      have := ih (by simp)
      simp only [placeTok]
      rw [foldl_prefix (joinSegs (seg' :: segs)) _ []]
      simp only [List.append_assoc]
      rw [this, List.flatMap_cons]
      simp [segLines]

theorem segLines_words {width : ℚ} (seg : List Word) : (segLines mt width seg).flatten = seg := by
  have := foldl_words (mt := mt) (width := width) (seg.map some) ([], [])
  unfold segLines
  simpa using this

theorem greedy_snoc {width : ℚ} {ls : List (List Word)} {c : List Word} {w : Word} (h : Greedy mt width (ls ++ [c]))
    (hw : width ≤ spacedSum mt c + spaced mt w) : Greedy mt width (ls ++ [c] ++ [[w]]) := by
  intro pre l l' post he
  by_cases hp : post = []
  · subst hp
    have he' : ls ++ [c] ++ [[w]] = (pre ++ [l]) ++ [l'] := by rw [he]; simp
    obtain ⟨e1, e2⟩ := List.append_inj' he' rfl
    obtain ⟨_, e3⟩ := List.append_inj' e1 rfl
    simp only [List.cons.injEq, and_true] at e2 e3
    exact ⟨w, [], e2.symm, by rw [← e3]; exact hw⟩
  · obtain ⟨post', x, rfl⟩ := (List.eq_nil_or_concat post).resolve_left hp
    have he' : ls ++ [c] ++ [[w]] = (pre ++ l :: l' :: post') ++ [x] := by rw [he]; simp
    obtain ⟨e1, _⟩ := List.append_inj' he' rfl
    exact h pre l l' post' e1

theorem greedy_last {width : ℚ} {ls : List (List Word)} {c : List Word} {w : Word} (h : Greedy mt width (ls ++ [c]))
    (hc : ls ≠ [] → c ≠ []) : Greedy mt width (ls ++ [c ++ [w]]) := by
  intro pre l l' post he
  by_cases hp : post = []
  · subst hp
    have he' : ls ++ [c ++ [w]] = (pre ++ [l]) ++ [l'] := by rw [he]; simp
    obtain ⟨e1, e2⟩ := List.append_inj' he' rfl
    simp only [List.cons.injEq, and_true] at e2
    obtain ⟨v, r, e3, e4⟩ := h pre l c [] (by rw [e1]; simp)
    exact ⟨v, r ++ [w], by rw [← e2, e3]; rfl, e4⟩
  · obtain ⟨post', x, rfl⟩ := (List.eq_nil_or_concat post).resolve_left hp
    have he' : ls ++ [c ++ [w]] = (pre ++ l :: l' :: post') ++ [x] := by rw [he]; simp
    obtain ⟨e1, _⟩ := List.append_inj' he' rfl
    exact h pre l l' (post' ++ [c]) (by rw [e1]; simp)

theorem foldl_greedy {width : ℚ} : ∀ (seg : List Word) (acc : List (List Word) × List Word),
    Greedy mt width (acc.1 ++ [acc.2]) → (acc.1 ≠ [] → acc.2 ≠ []) →
    Greedy mt width (((seg.map some).foldl (placeTok mt width) acc).1 ++ [((seg.map some).foldl (placeTok mt width) acc).2]) := by
  intro seg
  induction seg with
  | nil => intro acc h _; exact h
  | cons w seg ih =>
    intro acc h hne
    rw [List.map_cons, List.foldl_cons]
    simp only [placeTok]
    split
    · rename_i hc
      exact ih _ (greedy_snoc h hc) (by simp)
    · exact ih _ (greedy_last h hne) (by simp)

theorem segLines_greedy {width : ℚ} (seg : List Word) : Greedy mt width (segLines mt width seg) := by
  refine foldl_greedy seg ([], []) ?_ (by simp)
  intro pre l l' post he
  have := congrArg List.length he
  simp at this
  omega

/-- Where blank lines come from. -/
theorem segLines_blank {width : ℚ} (seg : List Word) (h : [] ∈ segLines mt width seg) :
    segLines mt width seg = [[]] ∨ ∃ w r rest, segLines mt width seg = [] :: (w :: r) :: rest ∧ width ≤ spaced mt w := by
  have inv : ∀ (seg : List Word) (acc : List (List Word) × List Word), (∀ l ∈ (acc.1 ++ [acc.2]).tail, l ≠ []) →
      ∀ l ∈ (((seg.map some).foldl (placeTok mt width) acc).1 ++ [((seg.map some).foldl (placeTok mt width) acc).2]).tail, l ≠ [] := by
    intro seg
    induction seg with
    | nil => intro acc h; exact h
    | cons w seg ih =>
      intro acc h
      rw [List.map_cons, List.foldl_cons]
      refine ih _ ?_
      simp only [placeTok]
      split
      · cases hls : acc.1 with
        | nil => simp
        | cons a as =>
          rw [hls] at h
          intro l hl
          simp only [List.cons_append, List.tail_cons, List.append_assoc, List.mem_append, List.mem_cons, List.not_mem_nil, or_false] at hl
          rcases hl with hl | hl
          · exact h l (by simp [hl])
          · rcases hl with hl | hl
            · exact h l (by simp [hl])
            · simp at hl; simp [hl]
      · cases hls : acc.1 with
        | nil => simp
        | cons a as =>
          rw [hls] at h
          intro l hl
          simp only [List.cons_append, List.tail_cons, List.mem_append, List.mem_cons, List.not_mem_nil, or_false] at hl
          rcases hl with hl | hl
          · exact h l (by simp [hl])
          · simp [hl]
  have hinv := inv seg ([], []) (by simp)
  have hg := segLines_greedy (mt := mt) (width := width) seg
  change ∀ l ∈ (segLines mt width seg).tail, l ≠ [] at hinv
  cases hs : segLines mt width seg with
  | nil => rw [hs] at h; simp at h
  | cons a as =>
    rw [hs] at h hinv hg
    rcases List.mem_cons.mp h with h | h
    · subst h
      cases as with
      | nil => exact Or.inl rfl
      | cons b bs =>
        obtain ⟨w, r, e1, e2⟩ := hg [] [] b bs rfl
        refine Or.inr ⟨w, r, bs, by rw [e1], ?_⟩
        simpa [spacedSum] using e2
    · exact absurd rfl (hinv [] h)

/-- The lines, by segments. -/
theorem wrapped_segments {width : ℚ} (toks : List (Option Word)) :
    wrapped mt width toks = dropBlank ((segments toks).flatMap (segLines mt width)) := by
  have := foldl_segments (mt := mt) (width := width) (segments toks) (segments_ne toks)
  rw [joinSegs_segments] at this
  rw [← this]
  unfold wrapped dropBlank
  simp only [List.getLast?_append, List.getLast?_singleton, Option.some_or, Option.some.injEq, List.dropLast_concat]
  by_cases hc : (toks.foldl (placeTok mt width) ([], [])).2 = []
  · simp [hc]
  · rw [if_neg hc, if_pos (List.length_pos_iff.mpr hc)]

/-! ### Block text: the loop, on pieces -/

/-- The width counted for a piece. -/
def counted (mt : Font → Str → ℚ) : WPiece → ℚ
  | .whole w => mt w.1.font (32 :: w.2)
  | .head w => mt w.1.font (32 :: (w.2 ++ [45]))
  | .tail w => mt w.1.font w.2

/-- The width counted for a piece without space. -/
def pure1 (mt : Font → Str → ℚ) : WPiece → ℚ
  | .whole w => mt w.1.font w.2
  | .head w => mt w.1.font (trimSpace (32 :: (w.2 ++ [45])))
  | .tail w => mt w.1.font (trimSpace w.2)

def ctotal (mt : Font → Str → ℚ) (ps : List WPiece) : ℚ := (ps.map (counted mt)).sum
def ptotal (mt : Font → Str → ℚ) (ps : List WPiece) : ℚ := (ps.map (pure1 mt)).sum

/-- A line of pieces and its paragraph mark. -/
abbrev HLine := List WPiece × Bool

def markLastH : List HLine → List HLine
  | [] => []
  | [l] => [(l.1, true)]
  | l :: m :: ls => l :: markLastH (m :: ls)

/-- One token, on pieces. -/
def placeHyph (hyph : Str → List Str) (mt : Font → Str → ℚ) (width : ℚ) (acc : List HLine × List WPiece) :
    Option Word → List HLine × List WPiece
  | none => (markLastH acc.1 ++ [(acc.2, false)], [])
  | some w =>
    if ctotal mt acc.2 + spaced mt w ≥ width then
      match tryHyphenate hyph (mt w.1.font) width w.2 (ctotal mt acc.2) with
      | none => (acc.1 ++ [(acc.2, false)], [.whole w])
      | some (s1, s2) => (acc.1 ++ [(acc.2 ++ [.head (w.1, s1.tail.dropLast)], false)], [.tail (w.1, s2)])
    else (acc.1, acc.2 ++ [.whole w])

def lineOfH (mt : Font → Str → ℚ) (l : HLine) : TextLine :=
  { items := setPieces l.1, width := ctotal mt l.1, pureTextWidth := ptotal mt l.1, paragraph := l.2 }

theorem lineOfH_nil : lineOfH mt ([], false) = TextLine.empty := rfl

theorem setPieces_append (ps : List WPiece) (p : WPiece) : setPieces (ps ++ [p]) = setPieces ps ++ [p.item (ps.length = 0)] := by
  cases ps with
  | nil => simp [setPieces]
  | cons a ws => simp [setPieces]

theorem setPieces_length (ps : List WPiece) : (setPieces ps).length = ps.length := by
  cases ps <;> simp [setPieces]

theorem ctotal_append (ps : List WPiece) (p : WPiece) : ctotal mt (ps ++ [p]) = ctotal mt ps + counted mt p := by simp [ctotal]
theorem ptotal_append (ps : List WPiece) (p : WPiece) : ptotal mt (ps ++ [p]) = ptotal mt ps + pure1 mt p := by simp [ptotal]

theorem markLast_map : ∀ (ls : List HLine), markLast (ls.map (lineOfH mt)) = (markLastH ls).map (lineOfH mt)
  | [] => rfl
  | [l] => rfl
  | l :: m :: ls => by
    simp only [List.map_cons, markLast, markLastH]
    rw [← markLast_map (m :: ls)]
    rfl

theorem join_nil_eq : ∀ (parts : List Str), join parts [] = parts.flatten
  | [] => rfl
  | [p] => by simp [join]
  | p :: q :: ps => by
    unfold join
    rw [join_nil_eq (q :: ps)]
    simp

/-- What tryHyphenate finds. -/
theorem tryParts_some {tw : Str → ℚ} {avail : ℚ} {parts : List Str} : ∀ {n : Nat} {s1 s2 : Str},
    tryParts tw avail parts n = some (s1, s2) → ∃ i, 1 ≤ i ∧ i ≤ n ∧ s1 = 32 :: ((parts.take i).flatten ++ [45]) ∧
      s2 = (parts.drop i).flatten ∧ tw s1 ≤ avail := by
  intro n
  induction n with
  | zero => intro s1 s2 h; simp [tryParts] at h
  | succ n ih =>
    intro s1 s2 h
    unfold tryParts at h
    simp only at h
    split at h
    · rename_i hc
      simp only [Option.some.injEq, Prod.mk.injEq] at h
      obtain ⟨rfl, rfl⟩ := h
      exact ⟨n + 1, by omega, le_refl _, by rw [join_nil_eq], by rw [join_nil_eq], hc⟩
    · obtain ⟨i, h1, h2, h3⟩ := ih h
      exact ⟨i, h1, by omega, h3⟩

theorem tryHyphenate_some {hyph : Str → List Str} {tw : Str → ℚ} {width cw : ℚ} {s s1 s2 : Str}
    (h : tryHyphenate hyph tw width s cw = some (s1, s2)) : ∃ i, 1 ≤ i ∧ i < (hyph s).length ∧
      s1 = 32 :: (((hyph s).take i).flatten ++ [45]) ∧ s2 = ((hyph s).drop i).flatten ∧ tw s1 ≤ width - cw := by
  unfold tryHyphenate at h
  simp only at h
  split at h
  · simp at h
  · obtain ⟨i, h1, h2, h3⟩ := tryParts_some h
    exact ⟨i, h1, by omega, h3⟩

theorem wrapWordHyph_eq {hyph : Str → List Str} {width : ℚ} {sty : Styles} {tw : Str → ℚ} (htw : ∀ t, tw t = mt sty.font t)
    (acc : List HLine × List WPiece) (word : Str) :
    wrapWordHyph hyph tw width sty (acc.1.map (lineOfH mt), lineOfH mt (acc.2, false)) word =
      ((placeHyph hyph mt width acc (some (sty, word))).1.map (lineOfH mt),
        lineOfH mt ((placeHyph hyph mt width acc (some (sty, word))).2, false)) := by
  obtain rfl : tw = mt sty.font := funext htw
  unfold wrapWordHyph placeHyph
  simp only [show (lineOfH mt (acc.2, false)).width = ctotal mt acc.2 from rfl, spaced]
  by_cases hc : ctotal mt acc.2 + mt sty.font (32 :: word) ≥ width
  · simp only [ge_iff_le] at hc ⊢
    simp only [hc, if_true]
    cases ht : tryHyphenate hyph (mt sty.font) width word (ctotal mt acc.2) with
    | none =>
      simp only [List.map_append, List.map_cons, List.map_nil]
      refine Prod.ext rfl ?_
      simp [TextLine.empty, lineOfH, setPieces, WPiece.item, ctotal, ptotal, counted, pure1]
    | some r =>
      obtain ⟨s1, s2⟩ := r
      obtain ⟨i, _, _, e1, e2, _⟩ := tryHyphenate_some ht
      have es : 32 :: (s1.tail.dropLast ++ [45]) = s1 := by rw [e1]; simp
      simp only [List.map_append, List.map_cons, List.map_nil]
      refine Prod.ext ?_ ?_
      · simp [lineOfH, setPieces_append, WPiece.item, ctotal_append, ptotal_append, counted, pure1, es]
      · simp [TextLine.empty, lineOfH, setPieces, WPiece.item, ctotal, ptotal, counted, pure1]
  · simp only [ge_iff_le] at hc ⊢
    simp only [hc, if_false]
    refine Prod.ext rfl ?_
    simp only [lineOfH, setPieces_append, ctotal_append, ptotal_append, setPieces_length, counted, pure1, WPiece.item]
    cases hl : acc.2 <;> simp

theorem wrapWordsHyph_eq {hyph : Str → List Str} {width : ℚ} {sty : Styles} {tw : Str → ℚ} (htw : ∀ t, tw t = mt sty.font t) :
    ∀ (words : List Str) (acc : List HLine × List WPiece),
    words.foldl (wrapWordHyph hyph tw width sty) (acc.1.map (lineOfH mt), lineOfH mt (acc.2, false)) =
      let r := (words.map fun w => some (sty, w)).foldl (placeHyph hyph mt width) acc
      (r.1.map (lineOfH mt), lineOfH mt (r.2, false)) := by
  intro words
  induction words with
  | nil => intro acc; rfl
  | cons w ws ih =>
    intro acc
    rw [List.foldl_cons, wrapWordHyph_eq htw, ih, List.map_cons, List.foldl_cons]

theorem linesLoopHyph_eq (hm : Measures eng mt) {hyph : Str → List Str} {cs : Classes} {width : ℚ} {sty : Styles} :
    ∀ (iss : List Instr) (acc : List HLine × List WPiece) (s : PState E),
    let r := (blockTokens cs (eng.currentPage s.eng) sty iss).foldl (placeHyph hyph mt width) acc
    (linesLoopHyph eng hyph cs width sty iss (acc.1.map (lineOfH mt), lineOfH mt (acc.2, false)) s).1 =
      (r.1.map (lineOfH mt), lineOfH mt (r.2, false)) := by
  intro iss
  induction iss with
  | nil => intro acc s; simp [linesLoopHyph, blockTokens]
  | cons is iss ih =>
    intro acc s
    have text : ∀ (isty : Styles) (t : Str),
        blockTokens cs (eng.currentPage s.eng) sty (is :: iss) =
          (piecesOf (eng.currentPage s.eng) t).map (fun w => some (isty, w)) ++ blockTokens cs (eng.currentPage s.eng) sty iss →
        linesLoopHyph eng hyph cs width sty (is :: iss) (acc.1.map (lineOfH mt), lineOfH mt (acc.2, false)) s =
          linesLoopHyph eng hyph cs width sty iss ((split 32 (norm eng s.eng t)).foldl
             (wrapWordHyph hyph (fun w => eng.textWidth w (changeFont eng isty.font s).eng) width isty)
             (acc.1.map (lineOfH mt), lineOfH mt (acc.2, false)))
             (changeFont eng isty.font s) →
        let r := (blockTokens cs (eng.currentPage s.eng) sty (is :: iss)).foldl (placeHyph hyph mt width) acc
        (linesLoopHyph eng hyph cs width sty (is :: iss) (acc.1.map (lineOfH mt), lineOfH mt (acc.2, false)) s).1 =
          (r.1.map (lineOfH mt), lineOfH mt (r.2, false)) := by
      intro isty t htok hloop
      simp only [htok, hloop, List.foldl_append]
      have hn : piecesOf (eng.currentPage s.eng) t = split 32 (norm eng s.eng t) := by
        rw [piecesOf, ← Verif.Props.C02_exact]; rfl
      rw [hn, wrapWordsHyph_eq (mt := mt) (tw := fun w => eng.textWidth w (changeFont eng isty.font s).eng) (fun t => hm.width _ _ _)]
      have hpg : eng.currentPage s.eng = eng.currentPage (changeFont eng isty.font s).eng := (hm.page _ _).symm
      rw [hpg]
      exact ih _ _
    cases is with
    | textBlock t => exact text sty t rfl rfl
    | paragraph st t => exact text (st.mutatedStyles cs sty) t rfl rfl
    | lineBreak =>
      simp only [linesLoopHyph, blockTokens, List.foldl_cons]
      have := ih (markLastH acc.1 ++ [(acc.2, false)], []) s
      simpa [placeHyph, lineOfH_nil, markLast_map] using this
    | _ => exact ih acc s

/-- The pieces of the lines. -/
def wrappedHyph (hyph : Str → List Str) (mt : Font → Str → ℚ) (width : ℚ) (toks : List (Option Word)) : List HLine :=
  let r := toks.foldl (placeHyph hyph mt width) ([], [])
  if r.2.length > 0 then r.1 ++ [(r.2, true)] else r.1

theorem textLinesHyph_eq (hm : Measures eng mt) {hyph : Str → List Str} {cs : Classes} {width : ℚ} {sty : Styles} (iss : List Instr)
    (s : PState E) : (textLinesHyphenated eng hyph cs iss width sty s).1 =
      (wrappedHyph hyph mt width (blockTokens cs (eng.currentPage s.eng) sty iss)).map (lineOfH mt) := by
  unfold textLinesHyphenated wrappedHyph closeLinesHyph
  have := linesLoopHyph_eq hm (hyph := hyph) (cs := cs) (width := width) (sty := sty) iss ([], []) s
  simp only [List.map_nil, lineOfH_nil] at this
  simp only [this, show ∀ ws, (lineOfH mt ws).items.length = ws.1.length from fun ws => setPieces_length ws.1]
  split
  · simp [lineOfH]
  · rfl

theorem markLastH_fst (ls : List HLine) : (markLastH ls).map (·.1) = ls.map (·.1) := by
  induction ls with
  | nil => rfl
  | cons l ls ih =>
    cases ls with
    | nil => rfl
    | cons m ls => simp only [markLastH, List.map_cons] at ih ⊢; rw [ih]

theorem spells_append {a b : List WPiece} {u v : List Word} (h : Spells a u) (h' : Spells b v) : Spells (a ++ b) (u ++ v) := by
  induction h with
  | nil => exact h'
  | whole _ ih => exact .whole ih
  | broken _ ih => exact .broken ih

/-- The pieces of all lines. -/
theorem foldl_spells {hyph : Str → List Str} {width : ℚ} {P : Word → Word → Prop} (hself : ∀ w, P w w)
    (hcut : ∀ w : Word, P (w.1, (hyph w.2).flatten) w) : ∀ (toks : List (Option Word)) (acc : List HLine × List WPiece) (ws : List Word),
    Spells ((acc.1.map (·.1)).flatten ++ acc.2) ws →
    ∃ vs, List.Forall₂ P vs (toks.filterMap id) ∧
      Spells (((toks.foldl (placeHyph hyph mt width) acc).1.map (·.1)).flatten ++ (toks.foldl (placeHyph hyph mt width) acc).2) (ws ++ vs) := by
  intro toks
  induction toks with
  | nil => intro acc ws h; exact ⟨[], by simp, by simpa using h⟩
  | cons tk toks ih =>
    intro acc ws h
    rw [List.foldl_cons]
    cases tk with
    | none =>
      obtain ⟨vs, h1, h2⟩ := ih (placeHyph hyph mt width acc none) ws (by simpa [placeHyph, markLastH_fst] using h)
      exact ⟨vs, by simpa using h1, h2⟩
    | some w =>
      have key : ∃ v, P v w ∧ Spells (((placeHyph hyph mt width acc (some w)).1.map (·.1)).flatten ++
          (placeHyph hyph mt width acc (some w)).2) (ws ++ [v]) := by
        unfold placeHyph
        simp only
        split
        · cases ht : tryHyphenate hyph (mt w.1.font) width w.2 (ctotal mt acc.2) with
          | none =>
            refine ⟨w, hself w, ?_⟩
            have := spells_append h (.whole (w := w) .nil)
            simpa using this
          | some r =>
            obtain ⟨s1, s2⟩ := r
            obtain ⟨i, _, _, e1, e2, _⟩ := tryHyphenate_some ht
            have e3 : s1.tail.dropLast ++ s2 = (hyph w.2).flatten := by
              rw [e1, e2]
              simp [← List.flatten_append]
            refine ⟨(w.1, (hyph w.2).flatten), hcut w, ?_⟩
            have := spells_append h (.broken (sty := w.1) (a := s1.tail.dropLast) (b := s2) .nil)
            rw [e3] at this
            simpa using this
        · refine ⟨w, hself w, ?_⟩
          have := spells_append h (.whole (w := w) .nil)
          simpa using this
      obtain ⟨v, hv, hs⟩ := key
      obtain ⟨vs, h1, h2⟩ := ih _ _ hs
      exact ⟨v :: vs, by simpa using ⟨hv, h1⟩, by simpa using h2⟩

theorem wrappedHyph_flatten {hyph : Str → List Str} {width : ℚ} (toks : List (Option Word)) :
    ((wrappedHyph hyph mt width toks).map (·.1)).flatten = ((toks.foldl (placeHyph hyph mt width) ([], [])).1.map (·.1)).flatten ++
      (toks.foldl (placeHyph hyph mt width) ([], [])).2 := by
  unfold wrappedHyph
  simp only
  split
  · simp
  · rename_i hc
    have hnil : (toks.foldl (placeHyph hyph mt width) ([], [])).2 = [] := List.length_eq_zero_iff.mp (by omega)
    rw [hnil]
    simp

theorem wrappedHyph_spells {hyph : Str → List Str} {width : ℚ} {P : Word → Word → Prop} (hself : ∀ w, P w w)
    (hcut : ∀ w : Word, P (w.1, (hyph w.2).flatten) w) (toks : List (Option Word)) :
    ∃ vs, List.Forall₂ P vs (toks.filterMap id) ∧ Spells ((wrappedHyph hyph mt width toks).map (·.1)).flatten vs := by
  obtain ⟨vs, h1, h2⟩ := foldl_spells (mt := mt) (width := width) hself hcut toks ([], []) [] (by simpa using Spells.nil)
  exact ⟨vs, h1, by rw [wrappedHyph_flatten]; simpa using h2⟩

/-- One line of `BrokenAtEnds`. -/
def EndsOnly (l : List WPiece) : Prop :=
  ∀ pre p post, l = pre ++ p :: post → (∀ w, p = .head w → post = []) ∧ (∀ w, p = .tail w → pre = [])

theorem endsOnly_nil : EndsOnly [] := by intro pre p post h; simp at h

theorem endsOnly_snoc {l : List WPiece} {p : WPiece} (h : EndsOnly l) (hh : ∀ w, WPiece.head w ∉ l) (ht : ∀ w, p = .tail w → l = []) :
    EndsOnly (l ++ [p]) := by
  intro pre q post he
  by_cases hp : post = []
  · subst hp
    obtain ⟨e1, e2⟩ := List.append_inj' he rfl
    simp only [List.cons.injEq, and_true] at e2
    exact ⟨fun _ _ => rfl, fun w hw => by rw [← e1]; exact ht w (e2.trans hw)⟩
  · obtain ⟨post', x, rfl⟩ := (List.eq_nil_or_concat post).resolve_left hp
    have he' : l ++ [p] = (pre ++ q :: post') ++ [x] := by rw [he]; simp
    obtain ⟨e1, _⟩ := List.append_inj' he' rfl
    refine ⟨fun w hw => ?_, fun w hw => (h pre q post' e1).2 w hw⟩
    exact absurd (by rw [e1, hw]; simp) (hh w)

/-- An invariant of the lines and of the current line. -/
theorem foldl_hyph_inv {hyph : Str → List Str} {width : ℚ} {P Q : List WPiece → Prop} (h0 : Q [])
    (hclose : ∀ l, Q l → P l) (hwhole : ∀ l w, Q l → ctotal mt l + spaced mt w < width → Q (l ++ [.whole w]))
    (hone : ∀ w, Q [.whole w]) (htail : ∀ w, Q [.tail w])
    (hhead : ∀ l (w : Word), Q l → mt w.1.font (32 :: (w.2 ++ [45])) ≤ width - ctotal mt l → P (l ++ [.head w])) :
    ∀ (toks : List (Option Word)) (acc : List HLine × List WPiece),
    (∀ l ∈ acc.1.map (·.1), P l) → Q acc.2 →
    (∀ l ∈ (toks.foldl (placeHyph hyph mt width) acc).1.map (·.1), P l) ∧ Q (toks.foldl (placeHyph hyph mt width) acc).2 := by
  intro toks
  induction toks with
  | nil => intro acc h1 h2; exact ⟨h1, h2⟩
  | cons tk toks ih =>
    intro acc h1 h2
    rw [List.foldl_cons]
    have snoc : ∀ x, P x → ∀ l ∈ acc.1.map (·.1) ++ [x], P l := by
      intro x hx l hl
      rcases List.mem_append.mp hl with hl | hl
      · exact h1 l hl
      · simp at hl; rw [hl]; exact hx
    cases tk with
    | none =>
      refine ih _ ?_ h0
      simp only [placeHyph, List.map_append, markLastH_fst]
      exact snoc acc.2 (hclose _ h2)
    | some w =>
      simp only [placeHyph]
      split
      · cases ht : tryHyphenate hyph (mt w.1.font) width w.2 (ctotal mt acc.2) with
        | none =>
          refine ih _ ?_ (hone w)
          simp only [List.map_append]
          exact snoc acc.2 (hclose _ h2)
        | some r =>
          obtain ⟨s1, s2⟩ := r
          obtain ⟨i, _, _, e1, e2, e3⟩ := tryHyphenate_some ht
          refine ih _ ?_ (htail _)
          simp only [List.map_append]
          refine snoc _ (hhead _ _ h2 ?_)
          have es : 32 :: (s1.tail.dropLast ++ [45]) = s1 := by rw [e1]; simp
          rw [es]; exact e3
      · rename_i hc
        exact ih _ h1 (hwhole _ _ h2 (not_le.mp hc))

theorem wrappedHyph_inv {hyph : Str → List Str} {width : ℚ} {P Q : List WPiece → Prop} (h0 : Q [])
    (hclose : ∀ l, Q l → P l) (hwhole : ∀ l w, Q l → ctotal mt l + spaced mt w < width → Q (l ++ [.whole w]))
    (hone : ∀ w, Q [.whole w]) (htail : ∀ w, Q [.tail w])
    (hhead : ∀ l (w : Word), Q l → mt w.1.font (32 :: (w.2 ++ [45])) ≤ width - ctotal mt l → P (l ++ [.head w]))
    (toks : List (Option Word)) : ∀ l ∈ (wrappedHyph hyph mt width toks).map (·.1), P l := by
  obtain ⟨h1, h2⟩ := foldl_hyph_inv (hyph := hyph) h0 hclose hwhole hone htail hhead toks ([], []) (by simp) h0
  unfold wrappedHyph
  simp only
  split
  · intro l hl
    rw [List.map_append] at hl
    rcases List.mem_append.mp hl with hl | hl
    · exact h1 l hl
    · simp at hl; rw [hl]; exact hclose _ h2
  · exact h1

theorem wrappedHyph_ends {hyph : Str → List Str} {width : ℚ} (toks : List (Option Word)) :
    BrokenAtEnds ((wrappedHyph hyph mt width toks).map (·.1)) := by
  refine wrappedHyph_inv (P := EndsOnly) (Q := fun l => EndsOnly l ∧ ∀ w, WPiece.head w ∉ l) ?_ ?_ ?_ ?_ ?_ ?_ toks
  · exact ⟨endsOnly_nil, by simp⟩
  · exact fun l h => h.1
  · intro l w ⟨h1, h2⟩ _
    exact ⟨endsOnly_snoc h1 h2 (by simp), by simpa using h2⟩
  · intro w
    exact ⟨endsOnly_snoc endsOnly_nil (by simp) (by simp), by simp⟩
  · intro w
    exact ⟨endsOnly_snoc endsOnly_nil (by simp) (by simp), by simp⟩
  · intro l w ⟨h1, h2⟩ _
    exact endsOnly_snoc h1 h2 (by simp)

/-- The counted width of lines of more than one piece: at most the available one, and less if the line does not end in a first
part of a word. -/
theorem wrappedHyph_width {hyph : Str → List Str} {width : ℚ} (toks : List (Option Word)) :
    ∀ l ∈ (wrappedHyph hyph mt width toks).map (·.1), 2 ≤ l.length →
      ctotal mt l ≤ width ∧ ((∀ w, l.getLast? ≠ some (.head w)) → ctotal mt l < width) := by
  refine wrappedHyph_inv (P := fun l => 2 ≤ l.length → ctotal mt l ≤ width ∧ ((∀ w, l.getLast? ≠ some (.head w)) → ctotal mt l < width))
    (Q := fun l => 2 ≤ l.length → ctotal mt l < width) ?_ ?_ ?_ ?_ ?_ ?_ toks
  · intro h; simp at h
  · intro l h h2
    exact ⟨le_of_lt (h h2), fun _ => h h2⟩
  · intro l w _ hw _
    rw [ctotal_append]; exact hw
  · intro w h; simp at h
  · intro w h; simp at h
  · intro l w _ hw _
    refine ⟨?_, fun h => absurd (by simp) (h w)⟩
    rw [ctotal_append]
    simp only [counted]
    linarith

theorem natural_le {mt : Font → Str → ℚ} (hsp : ∀ f w, mt f w ≤ mt f (32 :: w)) (ws : List Word) :
    naturalWidth mt (setWords ws) ≤ spacedSum mt ws := by
  cases ws with
  | nil => simp [setWords, naturalWidth, spacedSum]
  | cons w ws =>
    simp only [setWords, naturalWidth, spacedSum, List.map_cons, List.sum_cons, List.map_map]
    have := hsp w.1.font w.2
    simp only [spaced]
    have e : (List.map ((fun i : TextItem => mt i.sty.font i.text) ∘ fun v : Word => (⟨v.1, 32 :: v.2⟩ : TextItem)) ws).sum =
        (List.map (fun w : Word => mt w.1.font (32 :: w.2)) ws).sum := rfl
    show _ ≤ mt w.1.font (32 :: w.2) + (List.map (fun w : Word => mt w.1.font (32 :: w.2)) ws).sum
    rw [e]
    linarith

theorem natural_le_hyph {mt : Font → Str → ℚ} (hsp : ∀ f w, mt f w ≤ mt f (32 :: w)) (ps : List WPiece)
    (he : EndsOnly ps) : naturalWidth mt (setPieces ps) ≤ ctotal mt ps := by
  cases ps with
  | nil => simp [setPieces, naturalWidth, ctotal]
  | cons p ps =>
    simp only [setPieces, naturalWidth, ctotal, List.map_cons, List.sum_cons, List.map_map]
    have e : ps.map ((fun i : TextItem => mt i.sty.font i.text) ∘ WPiece.item false) = ps.map (counted mt) := by
      refine List.map_congr_left fun q hq => ?_
      obtain ⟨a, b, rfl⟩ := List.append_of_mem hq
      cases q with
      | whole w => simp [WPiece.item, counted]
      | head w => simp [WPiece.item, counted]
      | tail w => exact absurd ((he (p :: a) (.tail w) b rfl).2 w rfl) (by simp)
    rw [e]
    have : mt (WPiece.item true p).sty.font (WPiece.item true p).text ≤ counted mt p := by
      cases p with
      | whole w => simpa [WPiece.item, counted] using hsp w.1.font w.2
      | head w => simp [WPiece.item, counted]
      | tail w => simp [WPiece.item, counted]
    linarith

/-! ### Words without spaces -/

theorem trimRight_nosp : ∀ {w : Str}, (32 : UInt8) ∉ w → trimRight (· == 32) w = w
  | [], _ => rfl
  | c :: cs, h => by
    simp only [List.mem_cons, not_or] at h
    unfold trimRight
    rw [trimRight_nosp h.2]
    cases cs with
    | nil => simp [Ne.symm h.1]
    | cons d ds => rfl

theorem trimSpace_id {w : Str} (h : (32 : UInt8) ∉ w) : trimSpace w = w := by
  unfold trimSpace trim trimLeft
  have h1 : w.dropWhile (· == 32) = w := by
    cases w with
    | nil => rfl
    | cons a w => simp at h; simp [Ne.symm h.1]
  rw [h1, trimRight_nosp h]

theorem trimSpace_cons (w : Str) : trimSpace (32 :: w) = trimSpace w := by
  unfold trimSpace trim
  congr 1

/-- All words of the tokens have no spaces. -/
theorem blockTokens_nosp {cs : Classes} {page : Int} {sty : Styles} : ∀ (iss : List Instr), ∀ w : Word,
    some w ∈ blockTokens cs page sty iss → (32 : UInt8) ∉ w.2 := by
  intro iss
  induction iss with
  | nil => intro w h; simp [blockTokens] at h
  | cons is iss ih =>
    intro w h
    have text : ∀ (isty : Styles) (t : Str), blockTokens cs page sty (is :: iss) =
        (piecesOf page t).map (fun w => some (isty, w)) ++ blockTokens cs page sty iss → (32 : UInt8) ∉ w.2 := by
      intro isty t e
      rw [e] at h
      rcases List.mem_append.mp h with h | h
      · obtain ⟨v, hv, e⟩ := List.mem_map.mp h
        simp only [Option.some.injEq] at e
        rw [← e]
        exact split_no_sep 32 _ v hv
      · exact ih w h
    cases is with
    | textBlock t => exact text _ t rfl
    | paragraph st t => exact text _ t rfl
    | lineBreak => simp [blockTokens] at h; exact ih w h
    | _ => exact ih w h

/-- The whole words on the lines have no spaces. -/
theorem foldl_whole {hyph : Str → List Str} {width : ℚ} : ∀ (toks : List (Option Word)) (acc : List HLine × List WPiece),
    (∀ w : Word, some w ∈ toks → (32 : UInt8) ∉ w.2) →
    (∀ l ∈ acc.1.map (·.1), ∀ w, WPiece.whole w ∈ l → (32 : UInt8) ∉ w.2) → (∀ w, WPiece.whole w ∈ acc.2 → (32 : UInt8) ∉ w.2) →
    (∀ l ∈ (toks.foldl (placeHyph hyph mt width) acc).1.map (·.1), ∀ w, WPiece.whole w ∈ l → (32 : UInt8) ∉ w.2) ∧
      (∀ w, WPiece.whole w ∈ (toks.foldl (placeHyph hyph mt width) acc).2 → (32 : UInt8) ∉ w.2) := by
  intro toks
  induction toks with
  | nil => intro acc _ h1 h2; exact ⟨h1, h2⟩
  | cons tk toks ih =>
    intro acc ht h1 h2
    rw [List.foldl_cons]
    have ht' : ∀ w : Word, some w ∈ toks → (32 : UInt8) ∉ w.2 := fun w hw => ht w (List.mem_cons_of_mem _ hw)
    have snoc : ∀ x, (∀ w, WPiece.whole w ∈ x → (32 : UInt8) ∉ w.2) → ∀ l ∈ acc.1.map (·.1) ++ [x], ∀ w, WPiece.whole w ∈ l → (32 : UInt8) ∉ w.2 := by
      intro x hx l hl
      rcases List.mem_append.mp hl with hl | hl
      · exact h1 l hl
      · simp at hl; rw [hl]; exact hx
    cases tk with
    | none =>
      refine ih _ ht' ?_ (by simp [placeHyph])
      simp only [placeHyph, List.map_append, markLastH_fst]
      exact snoc acc.2 h2
    | some w =>
      have hw := ht w (by simp)
      simp only [placeHyph]
      split
      · cases tryHyphenate hyph (mt w.1.font) width w.2 (ctotal mt acc.2) with
        | none =>
          refine ih _ ht' ?_ (by simpa using hw)
          simp only [List.map_append]
          exact snoc acc.2 h2
        | some r =>
          refine ih _ ht' ?_ (by simp)
          simp only [List.map_append]
          refine snoc _ ?_
          intro v hv
          simp at hv
          exact h2 v hv
      · refine ih _ ht' h1 ?_
        intro v hv
        rcases List.mem_append.mp hv with hv | hv
        · exact h2 v hv
        · simp at hv; rw [hv]; exact hw

theorem wrappedHyph_whole {hyph : Str → List Str} {width : ℚ} (toks : List (Option Word)) (ht : ∀ w : Word, some w ∈ toks → (32 : UInt8) ∉ w.2) :
    ∀ l ∈ (wrappedHyph hyph mt width toks).map (·.1), ∀ w, WPiece.whole w ∈ l → (32 : UInt8) ∉ w.2 := by
  obtain ⟨h1, h2⟩ := foldl_whole (mt := mt) (hyph := hyph) (width := width) toks ([], []) ht (by simp) (by simp)
  unfold wrappedHyph
  simp only
  split
  · intro l hl
    rw [List.map_append] at hl
    rcases List.mem_append.mp hl with hl | hl
    · exact h1 l hl
    · simp at hl; rw [hl]; exact h2
  · exact h1

theorem pure_eq (ps : List WPiece) (hw : ∀ w, WPiece.whole w ∈ ps → (32 : UInt8) ∉ w.2) :
    ptotal mt ps = pureWidth mt (setPieces ps) := by
  have one : ∀ p ∈ ps, ∀ b, pure1 mt p = mt (p.item b).sty.font (trimSpace (p.item b).text) := by
    intro p hp b
    cases p with
    | whole w =>
      have := trimSpace_id (hw w hp)
      cases b <;> simp [pure1, WPiece.item, trimSpace_cons, this]
    | head w => simp [pure1, WPiece.item]
    | tail w => cases b <;> simp [pure1, WPiece.item, trimSpace_cons]
  cases ps with
  | nil => simp [ptotal, pureWidth, setPieces]
  | cons p ps =>
    simp only [ptotal, pureWidth, setPieces, List.map_cons, List.sum_cons, List.map_map]
    rw [one p (by simp) true]
    congr 2
    exact List.map_congr_left fun q hq => one q (List.mem_cons_of_mem _ hq) false

/-! ### Paragraph marks -/

theorem markLastH_get : ∀ (ls : List HLine) (k : Nat), (markLastH ls)[k]? = (ls[k]?).map fun x => (x.1, x.2 || decide (k + 1 = ls.length))
  | [], k => by simp [markLastH]
  | [l], k => by cases k <;> simp [markLastH]
  | l :: m :: ls, k => by
    cases k with
    | zero => simp [markLastH]
    | succ k =>
      simp only [markLastH, List.getElem?_cons_succ]
      rw [markLastH_get (m :: ls) k]
      simp

theorem markLastH_length (ls : List HLine) : (markLastH ls).length = ls.length := by
  have := congrArg List.length (markLastH_fst ls)
  simpa using this

/-- Words only: the lines closed meanwhile have no mark. -/
theorem foldl_seg {hyph : Str → List Str} {width : ℚ} : ∀ (seg : List Word) (ls : List HLine) (c : List WPiece),
    ∃ new : List (List WPiece), (seg.map some).foldl (placeHyph hyph mt width) (ls, c) =
      (ls ++ new.map (fun l => (l, false)), ((seg.map some).foldl (placeHyph hyph mt width) ([], c)).2) ∧
      ((seg.map some).foldl (placeHyph hyph mt width) ([], c)).1 = new.map (fun l => (l, false)) ∧
      (seg ≠ [] → ((seg.map some).foldl (placeHyph hyph mt width) ([], c)).2 ≠ []) := by
  intro seg
  induction seg with
  | nil => intro ls c; exact ⟨[], by simp, by simp, by simp⟩
  | cons w seg ih =>
    intro ls c
    have close : ∀ (x : HLine) (c' : List WPiece), x.2 = false → c' ≠ [] → placeHyph hyph mt width (ls, c) (some w) = (ls ++ [x], c') →
        placeHyph hyph mt width ([], c) (some w) = ([] ++ [x], c') → ∃ new : List (List WPiece),
        ((w :: seg).map some).foldl (placeHyph hyph mt width) (ls, c) =
          (ls ++ new.map (fun l => (l, false)), (((w :: seg).map some).foldl (placeHyph hyph mt width) ([], c)).2) ∧
        (((w :: seg).map some).foldl (placeHyph hyph mt width) ([], c)).1 = new.map (fun l => (l, false)) ∧
        (w :: seg ≠ [] → (((w :: seg).map some).foldl (placeHyph hyph mt width) ([], c)).2 ≠ []) := by
      intro x c' hx hc' e1 e2
      simp only [List.map_cons, List.foldl_cons, e1, e2]
      obtain ⟨new, h1, h2, h3⟩ := ih (ls ++ [x]) c'
      obtain ⟨new', h1', h2', h3'⟩ := ih ([] ++ [x]) c'
      have hnew : new = new' := by
        rw [h2] at h2'
        exact List.map_injective_iff.mpr (fun a b h => by simpa using h) h2'
      subst hnew
      have hx' : x = (x.1, false) := by rw [← hx]
      refine ⟨x.1 :: new, ?_, ?_, fun _ => ?_⟩
      · rw [h1, h1']
        simp [← hx']
      · rw [h1']
        simp [← hx']
      · rw [h1']
        cases seg with
        | nil => simpa using hc'
        | cons v seg => exact h3 (by simp)
    by_cases hc : ctotal mt c + spaced mt w ≥ width
    · cases ht : tryHyphenate hyph (mt w.1.font) width w.2 (ctotal mt c) with
      | none => exact close (c, false) [.whole w] rfl (by simp) (by simp only [placeHyph, if_pos hc, ht]) (by simp only [placeHyph, if_pos hc, ht])
      | some r =>
        obtain ⟨s1, s2⟩ := r
        exact close (c ++ [.head (w.1, s1.tail.dropLast)], false) [.tail (w.1, s2)] rfl (by simp)
          (by simp only [placeHyph, if_pos hc, ht]) (by simp only [placeHyph, if_pos hc, ht])
    · have e : ∀ ls, placeHyph hyph mt width (ls, c) (some w) = (ls, c ++ [.whole w]) := by
        intro ls; simp only [placeHyph, if_neg hc]
      simp only [List.map_cons, List.foldl_cons, e]
      obtain ⟨new, h1, h2, h3⟩ := ih ls (c ++ [.whole w])
      refine ⟨new, h1, h2, fun _ => ?_⟩
      cases seg with
      | nil => simp
      | cons v seg => exact h3 (by simp)

/-- The lines of one segment of block text. -/
def segLinesH (hyph : Str → List Str) (mt : Font → Str → ℚ) (width : ℚ) (seg : List Word) : List (List WPiece) :=
  let r := (seg.map some).foldl (placeHyph hyph mt width) ([], [])
  r.1.map (·.1) ++ [r.2]

/-- The marks after the groups `gs` of lines, all of them ended by a line break. -/
def Marked (gs : List (List (List WPiece))) (ls : List HLine) : Prop :=
  ls.map (·.1) = gs.flatten ∧ ∀ (k : Nat) x, ls[k]? = some x → (x.2 = true ↔ ∃ i < gs.length, k + 2 = (gs.take (i + 1)).flatten.length)

theorem marked_step {gs : List (List (List WPiece))} {ls : List HLine} (h : Marked gs ls) (new : List (List WPiece)) (c : List WPiece) :
    Marked (gs ++ [new ++ [c]]) (markLastH (ls ++ new.map (fun l => (l, false))) ++ [(c, false)]) := by
  obtain ⟨h1, h2⟩ := h
  have hlen : ls.length = gs.flatten.length := by rw [← h1]; simp
  refine ⟨by simp [markLastH_fst, h1, Function.comp_def], ?_⟩
  intro k x hk
  have htake : ∀ i < gs.length, (gs ++ [new ++ [c]]).take (i + 1) = gs.take (i + 1) := by
    intro i hi
    rw [List.take_append_of_le_length (by omega)]
  have hle : ∀ i, (gs.take i).flatten.length ≤ gs.flatten.length := by
    intro i
    conv_rhs => rw [← List.take_append_drop i gs, List.flatten_append, List.length_append]
    omega
  have hex : (∃ i < (gs ++ [new ++ [c]]).length, k + 2 = ((gs ++ [new ++ [c]]).take (i + 1)).flatten.length) ↔
      (∃ i < gs.length, k + 2 = (gs.take (i + 1)).flatten.length) ∨ k + 2 = gs.flatten.length + new.length + 1 := by
    constructor
    · rintro ⟨i, hi, e⟩
      by_cases hi' : i < gs.length
      · rw [htake i hi'] at e
        exact Or.inl ⟨i, hi', e⟩
      · have : i = gs.length := by simp at hi; omega
        subst this
        rw [List.take_of_length_le (by simp)] at e
        simp at e
        right; simp; omega
    · rintro (⟨i, hi, e⟩ | e)
      · exact ⟨i, by simp; omega, by rw [htake i hi]; exact e⟩
      · refine ⟨gs.length, by simp, ?_⟩
        rw [List.take_of_length_le (by simp)]
        simp at e ⊢
        omega
  rw [hex]
  have hl : (ls ++ new.map (fun l => (l, false))).length = gs.flatten.length + new.length := by simp [hlen]
  rcases Nat.lt_or_ge k (gs.flatten.length + new.length) with hlt | hge
  · rw [List.getElem?_append_left (by rw [markLastH_length, hl]; exact hlt), markLastH_get] at hk
    obtain ⟨y, hy, rfl⟩ := Option.map_eq_some_iff.mp hk
    simp only [Bool.or_eq_true, decide_eq_true_eq, hl]
    rcases Nat.lt_or_ge k ls.length with hk1 | hk1
    · rw [List.getElem?_append_left hk1] at hy
      rw [h2 k y hy]
      constructor <;> rintro (h | h)
      · exact Or.inl h
      · right; omega
      · exact Or.inl h
      · right; omega
    · rw [List.getElem?_append_right hk1, List.getElem?_map] at hy
      obtain ⟨z, _, rfl⟩ := Option.map_eq_some_iff.mp hy
      constructor
      · rintro (h | h)
        · exact absurd h (by simp)
        · right; omega
      · rintro (⟨i, hi, e⟩ | h)
        · have := hle (i + 1); omega
        · right; omega
  · rw [List.getElem?_append_right (by rw [markLastH_length, hl]; exact hge)] at hk
    have hk0 : k - (markLastH (ls ++ new.map (fun l => (l, false)))).length = 0 := by
      by_contra hne
      rw [List.getElem?_eq_none (by simp; omega)] at hk
      exact absurd hk (by simp)
    rw [hk0] at hk
    simp at hk
    rw [markLastH_length, hl] at hk0
    rw [← hk]
    constructor
    · intro h; exact absurd h (by simp)
    · rintro (⟨i, hi, e⟩ | h)
      · have := hle (i + 1); omega
      · omega

theorem foldl_marked {hyph : Str → List Str} {width : ℚ} : ∀ (segs : List (List Word)) (gs : List (List (List WPiece))) (ls : List HLine),
    segs ≠ [] → Marked gs ls → ∃ (gs' : List (List (List WPiece))) (ls' : List HLine) (new : List (List WPiece)) (c : List WPiece),
      (joinSegs segs).foldl (placeHyph hyph mt width) (ls, []) = (ls' ++ new.map (fun l => (l, false)), c) ∧
      Marked gs' ls' ∧ gs' ++ [new ++ [c]] = gs ++ segs.map (segLinesH hyph mt width) ∧
      (segs.getLast? ≠ some [] → c ≠ []) := by
  intro segs
  induction segs with
  | nil => intro gs ls h; exact absurd rfl h
  | cons seg segs ih =>
    intro gs ls _ hm
    obtain ⟨new, h1, h2, h3⟩ := foldl_seg (mt := mt) (hyph := hyph) (width := width) seg ls []
    have hseg : segLinesH hyph mt width seg = new ++ [((seg.map some).foldl (placeHyph hyph mt width) ([], [])).2] := by
      unfold segLinesH
      simp only [h2]
      simp [Function.comp_def]
    cases segs with
    | nil =>
      refine ⟨gs, ls, new, _, by simpa [joinSegs] using h1, hm, by simp [hseg], ?_⟩
      intro h
      exact h3 (by simpa using h)
    | cons seg' segs =>
      simp only [joinSegs, List.foldl_append, List.foldl_cons, h1, placeHyph]
      obtain ⟨gs', ls', new', c', e1, e2, e3, e4⟩ := ih _ _ (by simp)
        (marked_step hm new ((seg.map some).foldl (placeHyph hyph mt width) ([], [])).2)
      refine ⟨gs', ls', new', c', e1, e2, ?_, ?_⟩
      · rw [e3, ← hseg]; simp
      · simpa [List.getLast?_cons_cons] using e4

/-! ### Writing -/

theorem bind_eq {α β : Type} (m : M E α) (k : α → M E β) (s : PState E) : (m >>= k) s = (m s).bind fun r => k r.1 r.2 := by
  show (StateT.bind m k) s = _
  unfold StateT.bind
  cases m s <;> rfl

theorem writeSpaced_spans (hm : Measures eng mt) {c : Calls E} {right : ℚ} {F : Font → Prop} {I : PState E → Prop} {spans : E → List (ℚ × ℚ)}
    (ht : Typesets eng c right F I spans) {gap : ℚ} (hg : 0 ≤ gap) (hnn : ∀ f t, 0 ≤ mt f t) : ∀ (items : List TextItem) (s : PState E) (x y : ℚ),
    I s → eng.getXY s.eng = (x, y) → 0 ≤ x → (∀ i ∈ items, F i.sty.font) →
    x + pureWidth mt items + gap * (items.length - 1 : ℚ) ≤ right → ∃ s', writeSpaced eng c gap items s = some ((), s') ∧ I s' ∧
      spans s'.eng = spans s.eng ++ laid gap x (items.map fun i => mt i.sty.font (trimSpace i.text)) := by
  intro items
  induction items with
  | nil => intro s x y hI _ _ _ _; exact ⟨s, rfl, hI, by simp [laid]⟩
  | cons i items ih =>
    intro s x y hI hxy hx hF hr
    obtain ⟨f1, f2, f3⟩ := ht.font i.sty.font s (hF i (by simp)) hI
    have hw : eng.textWidth (trimSpace i.text) (changeFont eng i.sty.font s).eng = mt i.sty.font (trimSpace i.text) := hm.width _ _ _
    have hx' : (eng.getXY (changeFont eng i.sty.font s).eng).1 = x := by rw [f2, hxy]
    have hpw : pureWidth mt (i :: items) = mt i.sty.font (trimSpace i.text) + pureWidth mt items := by simp [pureWidth]
    have hpn : 0 ≤ pureWidth mt items := by
      unfold pureWidth
      exact List.sum_nonneg (by intro a ha; obtain ⟨j, _, rfl⟩ := List.mem_map.mp ha; exact hnn _ _)
    have hlen : ((i :: items).length - 1 : ℚ) = items.length := by simp
    rw [hpw, hlen] at hr
    have hgl : 0 ≤ gap * (items.length : ℚ) := mul_nonneg hg (by exact_mod_cast Nat.zero_le _)
    obtain ⟨s1, w1, w2, w3, w4⟩ := ht.write (trimSpace i.text) _ f1 (by rw [hx']; exact hx) (by rw [hx', hw]; linarith)
    rw [hx', hw] at w3 w4
    have hwn := hnn i.sty.font (trimSpace i.text)
    have hnx : 0 ≤ (eng.getXY s1.eng).1 + gap := by rw [w3]; simp only; linarith
    obtain ⟨x1, x2, x3⟩ := ht.setX ((eng.getXY s1.eng).1 + gap) s1 hnx w2
    have hend : ∃ s', writeSpaced eng c gap items { s1 with eng := eng.setX ((eng.getXY s1.eng).1 + gap) s1.eng } = some ((), s') ∧ I s' ∧
        spans s'.eng = spans (eng.setX ((eng.getXY s1.eng).1 + gap) s1.eng) ++
          laid gap (x + mt i.sty.font (trimSpace i.text) + gap) (items.map fun i => mt i.sty.font (trimSpace i.text)) := by
      cases items with
      | nil => exact ⟨_, rfl, x1, by simp [laid]⟩
      | cons j items =>
        refine ih _ _ _ x1 (by rw [x2, w3]) (by linarith) (fun k hk => hF k (List.mem_cons_of_mem _ hk)) ?_
        have : ((j :: items).length : ℚ) = ((j :: items).length - 1 : ℚ) + 1 := by ring
        rw [this] at hr
        linarith
    obtain ⟨s', e1, e2, e3⟩ := hend
    refine ⟨s', ?_, e2, ?_⟩
    · unfold writeSpaced
      simp only [bind_eq, changeFontM, Option.bind_some, w1, ask, upd, e1]
    · rw [e3, x3, w4, f3]
      simp [laid]

theorem laid_last (gap : ℚ) : ∀ (ws : List ℚ) (x : ℚ), ws ≠ [] →
    (laid gap x ws).getLast?.map (·.2) = some (x + ws.sum + gap * (ws.length - 1 : ℚ))
  | [], _, h => absurd rfl h
  | [w], x, _ => by simp [laid]
  | w :: v :: ws, x, _ => by
    have := laid_last gap (v :: ws) (x + w + gap) (by simp)
    simp only [laid] at this ⊢
    rw [List.getLast?_cons_cons, this]
    simp only [List.sum_cons, List.length_cons]
    push_cast
    congr 1
    ring

/-- Trimming leaves at least a tenth if there is more than one piece. -/
theorem room {mt : Font → Str → ℚ} (hsp : ∀ f w, mt f (trimSpace w) + 1 / 10 ≤ mt f (32 :: w)) (htr : ∀ f w, mt f (trimSpace w) ≤ mt f w)
    {ps : List WPiece} (he : EndsOnly ps) (hw : ∀ w, WPiece.whole w ∈ ps → (32 : UInt8) ∉ w.2) (h2 : 2 ≤ ps.length) :
    ptotal mt ps ≤ ctotal mt ps - 1 / 10 := by
  have one : ∀ p ∈ ps, pure1 mt p ≤ counted mt p := by
    intro p hp
    cases p with
    | whole w =>
      have := hsp w.1.font w.2
      rw [trimSpace_id (hw w hp)] at this
      simp only [pure1, counted]; linarith
    | head w =>
      have := hsp w.1.font (w.2 ++ [45])
      simp only [pure1, counted, trimSpace_cons]; linarith
    | tail w => exact htr _ _
  match ps, h2 with
  | p :: q :: ps, _ =>
    have hq : pure1 mt q + 1 / 10 ≤ counted mt q := by
      cases q with
      | whole w =>
        have := hsp w.1.font w.2
        rw [trimSpace_id (hw w (by simp))] at this
        simpa only [pure1, counted] using this
      | head w =>
        have := hsp w.1.font (w.2 ++ [45])
        simpa only [pure1, counted, trimSpace_cons] using this
      | tail w => exact absurd ((he [p] (.tail w) ps rfl).2 w rfl) (by simp)
    have hp := one p (by simp)
    have hrest : (ps.map (pure1 mt)).sum ≤ (ps.map (counted mt)).sum :=
      List.sum_le_sum fun r hr => one r (by simp [hr])
    simp only [ptotal, ctotal, List.map_cons, List.sum_cons]
    linarith

/-! ### Counting lines -/

theorem bind_some {α β : Type} {m : M E α} {k : α → M E β} {s : PState E} {r : β × PState E} (h : (m >>= k) s = some r) :
    ∃ a s1, m s = some (a, s1) ∧ k a s1 = some r := by
  rw [bind_eq] at h
  cases hm : m s with
  | none => rw [hm] at h; simp at h
  | some x => exact ⟨x.1, x.2, rfl, by rw [hm] at h; simpa using h⟩

theorem writeItems_feeds {c : Calls E} {feeds : E → Int} (hc : CountsFeeds eng c feeds) : ∀ (items : List TextItem) (s s' : PState E),
    writeItems eng c items s = some ((), s') → feeds s'.eng = feeds s.eng := by
  intro items
  induction items with
  | nil => intro s s' h; simp only [writeItems, pure, StateT.pure, Option.some.injEq, Prod.mk.injEq] at h; rw [← h.2]
  | cons i items ih =>
    intro s s' h
    unfold writeItems at h
    obtain ⟨_, s1, h1, h⟩ := bind_some h
    obtain ⟨_, s2, h2, h⟩ := bind_some h
    simp only [changeFontM, Option.some.injEq, Prod.mk.injEq] at h1
    rw [ih _ _ h, hc.write _ _ _ h2, ← h1.2]
    exact hc.font _ _

theorem writeSpaced_feeds {c : Calls E} {feeds : E → Int} (hc : CountsFeeds eng c feeds) {gap : ℚ} : ∀ (items : List TextItem)
    (s s' : PState E), writeSpaced eng c gap items s = some ((), s') → feeds s'.eng = feeds s.eng := by
  intro items
  induction items with
  | nil => intro s s' h; simp only [writeSpaced, pure, StateT.pure, Option.some.injEq, Prod.mk.injEq] at h; rw [← h.2]
  | cons i items ih =>
    intro s s' h
    unfold writeSpaced at h
    obtain ⟨_, s1, h1, h⟩ := bind_some h
    obtain ⟨_, s2, h2, h⟩ := bind_some h
    obtain ⟨xy, s3, h3, h⟩ := bind_some h
    obtain ⟨_, s4, h4, h⟩ := bind_some h
    simp only [changeFontM, ask, upd, Option.some.injEq, Prod.mk.injEq] at h1 h3 h4
    rw [ih _ _ h, ← h4.2]
    simp only [hc.setX]
    rw [← h3.2, hc.write _ _ _ h2, ← h1.2]
    exact hc.font _ _

theorem writeLines_feeds {c : Calls E} {feeds : E → Int} (hc : CountsFeeds eng c feeds) {sty : Styles} {x w : ℚ} : ∀ (lines : List TextLine)
    (s s' : PState E), writeLines eng c sty x w lines s = some ((), s') → feeds s'.eng = feeds s.eng + lines.length := by
  intro lines
  induction lines with
  | nil => intro s s' h; simp only [writeLines, pure, StateT.pure, Option.some.injEq, Prod.mk.injEq] at h; rw [← h.2]; simp
  | cons l lines ih =>
    intro s s' h
    unfold writeLines at h
    obtain ⟨_, s1, h1, h⟩ := bind_some h
    obtain ⟨_, s2, h2, h⟩ := bind_some h
    obtain ⟨_, s3, h3, h⟩ := bind_some h
    have e1 : feeds s1.eng = feeds s.eng := by
      unfold alignLine at h1
      split at h1
      · simp only [upd, Option.some.injEq, Prod.mk.injEq] at h1; rw [← h1.2]; exact hc.setX _ _
      · split at h1
        · simp only [upd, Option.some.injEq, Prod.mk.injEq] at h1; rw [← h1.2]; exact hc.setX _ _
        · split at h1
          · simp only [upd, Option.some.injEq, Prod.mk.injEq] at h1; rw [← h1.2]; exact hc.setX _ _
          · simp only [pure, StateT.pure, Option.some.injEq, Prod.mk.injEq] at h1; rw [← h1.2]
    simp only [upd, Option.some.injEq, Prod.mk.injEq] at h3
    rw [ih _ _ h, ← h3.2]
    simp only [hc.feed, writeItems_feeds hc _ _ _ h2, e1, List.length_cons]
    push_cast; ring

theorem writeHyphLines_feeds {c : Calls E} {feeds : E → Int} (hc : CountsFeeds eng c feeds) {sty : Styles} {x w : ℚ} : ∀ (lines : List TextLine)
    (s s' : PState E), writeHyphLines eng c sty x w lines s = some ((), s') → feeds s'.eng = feeds s.eng + lines.length := by
  intro lines
  induction lines with
  | nil => intro s s' h; simp only [writeHyphLines, pure, StateT.pure, Option.some.injEq, Prod.mk.injEq] at h; rw [← h.2]; simp
  | cons l lines ih =>
    intro s s' h
    unfold writeHyphLines at h
    obtain ⟨_, s1, h1, h⟩ := bind_some h
    obtain ⟨_, s2, h2, h⟩ := bind_some h
    obtain ⟨_, s3, h3, h⟩ := bind_some h
    simp only [upd, Option.some.injEq, Prod.mk.injEq] at h1 h3
    have e2 : feeds s2.eng = feeds s1.eng := by
      unfold writeHyphLine at h2
      split at h2
      · exact writeItems_feeds hc _ _ _ h2
      · exact writeSpaced_feeds hc _ _ _ h2
    rw [ih _ _ h, ← h3.2]
    simp only [hc.feed, e2, ← h1.2, hc.setX, List.length_cons]
    push_cast; ring

/-- Measuring leaves the engine in a font of the height it had if all fonts of the text have that height. -/
theorem linesLoop_font {fh : Font → ℚ} (hf : ∀ f e, eng.fontHeight (eng.changeFont f e) = fh f) {cs : Classes} {width : ℚ} {sty : Styles} :
    ∀ (iss : List Instr) (acc : List TextLine × TextLine) (s : PState E),
    (∀ st t, .paragraph st t ∈ iss → fh (st.mutatedStyles cs sty).font = fh sty.font) → eng.fontHeight s.eng = fh sty.font →
    eng.fontHeight (linesLoop eng cs width sty iss acc s).2.eng = fh sty.font := by
  intro iss
  induction iss with
  | nil => intro acc s _ h; exact h
  | cons is iss ih =>
    intro acc s hp h
    have hp' : ∀ st t, .paragraph st t ∈ iss → fh (st.mutatedStyles cs sty).font = fh sty.font := fun st t hm => hp st t (List.mem_cons_of_mem _ hm)
    cases is with
    | textBlock t =>
      simp only [linesLoop, textOf]
      split
      · exact ih _ _ hp' h
      · exact ih _ _ hp' (hf _ _)
    | paragraph st t =>
      simp only [linesLoop, textOf]
      split
      · exact ih _ _ hp' h
      · exact ih _ _ hp' (by rw [← hp st t (by simp)]; exact hf _ _)
    | _ => exact ih _ _ hp' h

theorem linesLoopHyph_font {fh : Font → ℚ} (hf : ∀ f e, eng.fontHeight (eng.changeFont f e) = fh f) {hyph : Str → List Str} {cs : Classes}
    {width : ℚ} {sty : Styles} : ∀ (iss : List Instr) (acc : List TextLine × TextLine) (s : PState E),
    (∀ st t, .paragraph st t ∈ iss → fh (st.mutatedStyles cs sty).font = fh sty.font) → eng.fontHeight s.eng = fh sty.font →
    eng.fontHeight (linesLoopHyph eng hyph cs width sty iss acc s).2.eng = fh sty.font := by
  intro iss
  induction iss with
  | nil => intro acc s _ h; exact h
  | cons is iss ih =>
    intro acc s hp h
    have hp' : ∀ st t, .paragraph st t ∈ iss → fh (st.mutatedStyles cs sty).font = fh sty.font := fun st t hm => hp st t (List.mem_cons_of_mem _ hm)
    cases is with
    | textBlock t => exact ih _ _ hp' (hf _ _)
    | paragraph st t => exact ih _ _ hp' (by rw [← hp st t (by simp)]; exact hf _ _)
    | _ => exact ih _ _ hp' h

end Verif.Proofs
