import Verif.Spec.Fill
import Verif.Proofs.Late
import Verif.Proofs.Fewest
/-
The lines of a text, exactly (C121).
-/
namespace Verif.Proofs
open Verif.Go Verif.Model Verif.Spec

variable {hyph : Str → List Str} {mt : Font → Str → ℚ} {width : ℚ}

theorem foldl_fill : ∀ (ws : List Word) (c : List Word),
    ((ws.map some).foldl (placeTok mt width) ([], c)).1 ++ [((ws.map some).foldl (placeTok mt width) ([], c)).2] = fillLines mt width c ws := by
  intro ws
  induction ws with
  | nil => intro c; rfl
  | cons w ws ih =>
    intro c
    rw [List.map_cons, List.foldl_cons, fillLines]
    by_cases h : spacedSum mt c + spaced mt w < width
    · rw [if_pos h, ← ih]
      simp only [placeTok, ge_iff_le, if_neg (not_le.mpr h)]
    · rw [if_neg h, ← ih]
      simp only [placeTok, ge_iff_le, if_pos (not_lt.mp h)]
      rw [foldl_prefix]
      simp

theorem segLines_fill (seg : List Word) : segLines mt width seg = fillLines mt width [] seg := foldl_fill seg []

/-- The most syllables, as the code finds them. -/
theorem tryHyphenate_most (w : Word) (used : ℚ) : tryHyphenate hyph (mt w.1.font) width w.2 used =
    (mostSyllables hyph mt (width - used) w).map fun k => (32 :: ((syllables hyph k w).2 ++ [45]), (restOf hyph k w).2) := by
  unfold tryHyphenate mostSyllables
  simp only
  generalize width - used = room
  have key : ∀ n, tryParts (mt w.1.font) room (hyph w.2) n =
      ((List.range (n + 1)).filter fun k => 1 ≤ k ∧ spaced mt (hyphened (syllables hyph k w)) ≤ room).getLast?.map
        fun k => (32 :: ((syllables hyph k w).2 ++ [45]), (restOf hyph k w).2) := by
    intro n
    induction n with
    | zero => rfl
    | succ n ih =>
      rw [List.range_succ, List.filter_append, tryParts]
      simp only [join_nil_eq]
      by_cases h : mt w.1.font (32 :: (((hyph w.2).take (n + 1)).flatten ++ [45])) ≤ room
      · rw [if_pos h]
        have : ([n + 1].filter fun k => decide (1 ≤ k ∧ spaced mt (hyphened (syllables hyph k w)) ≤ room)) = [n + 1] := by
          rw [List.filter_singleton, decide_eq_true (show 1 ≤ n + 1 ∧ spaced mt (hyphened (syllables hyph (n + 1) w)) ≤ room from ⟨by omega, h⟩)]
          rfl
        rw [this, List.getLast?_concat]
        rfl
      · rw [if_neg h, ih]
        have : ([n + 1].filter fun k => decide (1 ≤ k ∧ spaced mt (hyphened (syllables hyph k w)) ≤ room)) = [] := by
          rw [List.filter_singleton, decide_eq_false (show ¬ (1 ≤ n + 1 ∧ spaced mt (hyphened (syllables hyph (n + 1) w)) ≤ room) from fun hd => h hd.2)]
          rfl
        rw [this, List.append_nil]
  split
  · rename_i h
    have : ((List.range (hyph w.2).length).filter fun k => decide (1 ≤ k ∧ spaced mt (hyphened (syllables hyph k w)) ≤ room)) = [] := by
      rw [List.filter_eq_nil_iff]
      intro k hk hd
      have := (of_decide_eq_true hd).1
      have := List.mem_range.mp hk
      omega
    rw [this]
    rfl
  · rename_i h
    rw [key]
    congr 4
    omega

theorem foldl_fillBlock : ∀ (ws : List Word) (ls : List HLine) (c : List WPiece),
    ((ws.map some).foldl (placeHyph hyph mt width) (ls, c)).1.map (·.1) ++ [((ws.map some).foldl (placeHyph hyph mt width) (ls, c)).2] =
      ls.map (·.1) ++ fillBlock hyph mt width c ws := by
  intro ws
  induction ws with
  | nil => intro ls c; rfl
  | cons w ws ih =>
    intro ls c
    rw [List.map_cons, List.foldl_cons, fillBlock]
    by_cases h : piecesWidth mt c + spaced mt w < width
    · rw [if_pos h, ← ih]
      simp only [placeHyph, ctotal_eq, ge_iff_le, if_neg (not_le.mpr h)]
    · rw [if_neg h]
      simp only [placeHyph, ctotal_eq, ge_iff_le, if_pos (not_lt.mp h), tryHyphenate_most]
      cases mostSyllables hyph mt (width - piecesWidth mt c) w with
      | none => simp only [Option.map_none]; rw [ih]; simp
      | some k =>
        simp only [Option.map_some]
        rw [ih]
        simp only [List.map_append, List.map_cons, List.map_nil, List.tail_cons, List.dropLast_concat, List.append_assoc, List.singleton_append]
        rfl

theorem segLinesH_fill (seg : List Word) : segLinesH hyph mt width seg = fillBlock hyph mt width [] seg := by
  have := foldl_fillBlock (hyph := hyph) (mt := mt) (width := width) seg [] []
  exact this

theorem wrapped_fill (ts : List (Option Word)) : (wrapped mt width ts).map (lineOf mt) = linesSet mt width ts := by
  rw [wrapped_segments]
  unfold linesSet
  rw [List.flatMap_def, List.map_congr_left fun seg _ => segLines_fill seg]
  rfl

theorem fillBlock_ne : ∀ (ws : List Word) (l : List WPiece), fillBlock hyph mt width l ws ≠ [] := by
  intro ws
  induction ws with
  | nil => intro l; simp [fillBlock]
  | cons w ws ih =>
    intro l
    rw [fillBlock]
    split
    · exact ih _
    · split <;> simp

theorem wrappedHyph_fill (ts : List (Option Word)) : (wrappedHyph hyph mt width ts).map (lineOfH mt) = blockLinesSet hyph mt width ts := by
  obtain ⟨gs', ls', new, c, e1, ⟨e2, e2'⟩, e3, _⟩ := foldl_marked (mt := mt) (hyph := hyph) (width := width) (segments ts) [] [] (segments_ne _) ⟨rfl, by simp⟩
  rw [joinSegs_segments] at e1
  rw [List.nil_append, List.map_congr_left fun seg _ => segLinesH_fill seg] at e3
  unfold blockLinesSet
  simp only
  rw [← e3]
  have hl : ls'.length = gs'.flatten.length := by rw [← e2]; simp
  have hfl : (gs' ++ [new ++ [c]]).flatten = ls'.map (·.1) ++ new ++ [c] := by simp [e2]
  have bits : ∀ k, unstretched (gs' ++ [new ++ [c]]) k = decide (k = ls'.length + new.length ∨ ∃ i < gs'.length, k + 2 = (gs'.take (i + 1)).flatten.length) := by
    intro k
    unfold unstretched
    have h1 : (gs' ++ [new ++ [c]]).length - 1 = gs'.length := by simp
    rw [hfl, h1]
    congr 1
    apply propext
    apply or_congr
    · simp; omega
    · constructor
      · rintro ⟨i, hi, h⟩; exact ⟨i, hi, by rwa [List.take_append_of_le_length (by omega)] at h⟩
      · rintro ⟨i, hi, h⟩; exact ⟨i, hi, by rwa [List.take_append_of_le_length (by omega)]⟩
  have le : ∀ i, ((gs'.take (i + 1)).flatten).length ≤ ls'.length := by
    intro i
    rw [hl]
    conv_rhs => rw [← List.take_append_drop (i + 1) gs', List.flatten_append, List.length_append]
    exact Nat.le_add_right _ _
  -- the lines before the last one
  have init : (ls' ++ new.map fun l => (l, false)).map (lineOfH mt) =
      (ls'.map (·.1) ++ new).zipIdx.map fun l => ({ items := setPieces l.1, width := piecesWidth mt l.1, pureTextWidth := (l.1.map (WPiece.bare mt)).sum, paragraph := unstretched (gs' ++ [new ++ [c]]) l.2 } : TextLine) := by
    apply List.ext_getElem?
    intro k
    rw [List.getElem?_map, List.getElem?_map, List.getElem?_zipIdx]
    rcases Nat.lt_or_ge k ls'.length with hk | hk
    · rw [List.getElem?_append_left hk, List.getElem?_append_left (by simpa using hk), List.getElem?_map]
      cases hx : ls'[k]? with
      | none => rfl
      | some x =>
        simp only [Option.map_some, Option.some.injEq, bits, Nat.zero_add]
        have hm := e2' k x hx
        have hb : x.2 = decide (k = ls'.length + new.length ∨ ∃ i < gs'.length, k + 2 = (gs'.take (i + 1)).flatten.length) := by
          rw [Bool.eq_iff_iff, decide_eq_true_iff, hm]
          constructor
          · exact Or.inr
          · rintro (h | h)
            · omega
            · exact h
        unfold lineOfH
        rw [ctotal_eq, ← hb]
        rfl
    · rw [List.getElem?_append_right hk, List.getElem?_append_right (by simpa using hk), List.getElem?_map, List.length_map]
      cases hx : new[k - ls'.length]? with
      | none => rfl
      | some x =>
        simp only [Option.map_some, Option.some.injEq, bits, Nat.zero_add]
        have hlt := (List.getElem?_eq_some_iff.mp hx).1
        have hb : decide (k = ls'.length + new.length ∨ ∃ i < gs'.length, k + 2 = (gs'.take (i + 1)).flatten.length) = false := by
          rw [decide_eq_false_iff_not]
          rintro (h | ⟨i, _, h⟩)
          · omega
          · have := le i; omega
        unfold lineOfH
        rw [ctotal_eq, hb]
        rfl
  unfold wrappedHyph dropBlank
  simp only [e1]
  rw [hfl, List.getLast?_concat]
  by_cases hc : c = []
  · rw [if_neg (by simp [hc]), if_pos (by rw [hc]), List.dropLast_concat]
    exact init
  · rw [if_pos (List.length_pos_iff.mpr hc), if_neg (by simpa using hc), List.map_append, init,
      List.zipIdx_append (xs := ls'.map (·.1) ++ new), List.map_append]
    congr 1
    simp only [List.map_cons, List.map_nil, List.zipIdx_singleton, bits, List.length_append, List.length_map, Nat.zero_add]
    unfold lineOfH
    rw [ctotal_eq]
    simp only [true_or, decide_true]
    rfl

/-! ### There is no other way -/

theorem broken_fill (h0 : ∀ f w, 0 ≤ mt f w) : ∀ (ws l0 l1 : List Word) (rest : List (List Word)), l1 ++ rest.flatten = ws →
    Greedy mt width ((l0 ++ l1) :: rest) → (∀ l ∈ rest, 2 ≤ l.length → spacedSum mt l < width) → (l1 ≠ [] → spacedSum mt (l0 ++ l1) < width) →
    fillLines mt width l0 ws = (l0 ++ l1) :: rest := by
  intro ws
  induction ws with
  | nil =>
    intro l0 l1 rest hw hg hn hf
    obtain ⟨rfl, hr⟩ := List.append_eq_nil_iff.mp hw
    cases rest with
    | nil => simp [fillLines]
    | cons l rest =>
      obtain ⟨w, r, e, _⟩ := hg [] _ l rest rfl
      rw [e] at hr
      simp at hr
  | cons w ws ih =>
    intro l0 l1 rest hw hg hn hf
    cases l1 with
    | nil =>
      cases rest with
      | nil => simp at hw
      | cons l rest =>
        obtain ⟨v, r, rfl, hv⟩ := hg [] _ l rest rfl
        simp only [List.nil_append, List.flatten_cons, List.cons_append, List.cons.injEq] at hw
        obtain ⟨rfl, hw⟩ := hw
        rw [List.append_nil] at hv ⊢
        rw [fillLines, if_neg (not_lt.mpr hv)]
        congr 1
        refine ih [v] r rest hw ?_ (fun l hl => hn l (List.mem_cons_of_mem _ hl)) ?_
        · intro pre a b post e
          exact hg ((l0 ++ []) :: pre) a b post (by rw [List.cons_append, ← e]; rfl)
        · intro hr
          refine hn _ (by simp) ?_
          have := List.length_pos_iff.mpr hr
          simp; omega
    | cons v l1 =>
      simp only [List.cons_append, List.cons.injEq] at hw
      obtain ⟨rfl, hw⟩ := hw
      have hlt := hf (by simp)
      have hpos : ∀ l : List Word, 0 ≤ spacedSum mt l := by
        intro l
        unfold spacedSum
        exact List.sum_nonneg (by intro x hx; obtain ⟨y, _, rfl⟩ := List.mem_map.mp hx; exact h0 _ _)
      have e : l0 ++ v :: l1 = (l0 ++ [v]) ++ l1 := by simp
      have hlt' : spacedSum mt l0 + spaced mt v < width := by
        have h1 : spacedSum mt (l0 ++ v :: l1) = spacedSum mt l0 + (spaced mt v + spacedSum mt l1) := by simp [spacedSum]
        have := hpos l1
        linarith
      rw [fillLines, if_pos hlt', e]
      rw [e] at hg hlt
      exact ih (l0 ++ [v]) l1 rest hw hg hn fun _ => hlt

theorem broken_unique (h0 : ∀ f w, 0 ≤ mt f w) {seg : List Word} {g : List (List Word)} (h : Broken mt width seg g) : g = fillLines mt width [] seg := by
  obtain ⟨hw, hl, hg, hn, hf⟩ := h
  cases g with
  | nil => exact absurd rfl hl
  | cons l rest =>
    exact (broken_fill h0 seg [] l rest hw hg (fun l hl => hn l (List.mem_cons_of_mem _ hl)) (hf l rfl)).symm

theorem fillLines_head : ∀ (ws c l : List Word), (fillLines mt width c ws).head? = some l → l = c ∨ spacedSum mt l < width := by
  intro ws
  induction ws with
  | nil => intro c l h; exact Or.inl (Option.some.inj h).symm
  | cons w ws ih =>
    intro c l h
    rw [fillLines] at h
    split at h
    · rename_i hc
      rcases ih _ _ h with rfl | h'
      · refine Or.inr ?_
        have : spacedSum mt (c ++ [w]) = spacedSum mt c + spaced mt w := by simp [spacedSum]
        rw [this]
        exact hc
      · exact Or.inr h'
    · exact Or.inl (Option.some.inj h).symm

theorem fillLines_broken (seg : List Word) : Broken mt width seg (fillLines mt width [] seg) := by
  rw [← segLines_fill]
  refine ⟨segLines_words seg, segLines_ne seg, segLines_greedy seg, segLines_fits seg, ?_⟩
  intro l hl hne
  rw [segLines_fill] at hl
  exact (fillLines_head seg [] l hl).resolve_left hne

end Verif.Proofs
