import Verif.Proofs.TextLines
import Verif.Spec.Fewest
/-
Breaking lines late gives the fewest lines.
-/
namespace Verif.Proofs
open Verif.Go Verif.Model Verif.Spec

variable {mt : Font → Str → ℚ} {width width' : ℚ}

theorem spacedSum_nonneg (h0 : ∀ f w, 0 ≤ mt f w) (ws : List Word) : 0 ≤ spacedSum mt ws :=
  List.sum_nonneg (by intro x hx; obtain ⟨w, _, rfl⟩ := List.mem_map.mp hx; exact h0 _ _)

theorem spacedSum_append (a b : List Word) : spacedSum mt (a ++ b) = spacedSum mt a + spacedSum mt b := by simp [spacedSum]

theorem greedy_tail {l : List Word} {ls : List (List Word)} (h : Greedy mt width (l :: ls)) : Greedy mt width ls :=
  fun pre a b post he => h (l :: pre) a b post (by rw [he]; rfl)

theorem greedy_nonblank {l : List Word} {ls : List (List Word)} (h : Greedy mt width (l :: ls)) : ∀ m ∈ ls, m ≠ [] := by
  intro m hm
  obtain ⟨a, b, hab⟩ := List.append_of_mem hm
  rcases List.eq_nil_or_concat a with rfl | ⟨a', x, rfl⟩
  · obtain ⟨w, r, h1, _⟩ := h [] l m b (by rw [hab]; rfl)
    rw [h1]; simp
  · obtain ⟨w, r, h1, _⟩ := h (l :: a') x m b (by rw [hab]; simp)
    rw [h1]; simp

/-- Greedy lines stay ahead of other lines. -/
theorem greedy_ahead (h0 : ∀ f w, 0 ≤ mt f w) : ∀ (o g : List (List Word)), Greedy mt width g → (∀ l ∈ g, l ≠ []) →
    (∀ l ∈ o, 2 ≤ l.length → spacedSum mt l < width) → g.flatten <:+ o.flatten → g.length ≤ o.length
  | [], g, _, hne, _, hs => by
    have : g.flatten = [] := List.suffix_nil.mp hs
    cases g with
    | nil => simp
    | cons l g => exact absurd (List.append_eq_nil_iff.mp this).1 (hne l (by simp))
  | l :: o, [], _, _, _, _ => by simp
  | l :: o, l0 :: g, hg, hne, ho, hs => by
    have ih := greedy_ahead h0 o g (greedy_tail hg) (fun m hm => hne m (by simp [hm])) (fun m hm => ho m (by simp [hm]))
    suffices g.flatten <:+ o.flatten by simpa using ih this
    obtain ⟨x, hx⟩ := hs
    simp only [List.flatten_cons] at hx
    rw [← List.append_assoc] at hx
    rcases List.append_eq_append_iff.mp hx with ⟨y, h1, h2⟩ | ⟨y, h1, h2⟩
    · -- the other line has words of later lines
      cases y with
      | nil => rw [h2]; simp
      | cons w y =>
        exfalso
        cases g with
        | nil => simp at h2
        | cons l1 g =>
          obtain ⟨w', r, e1, e2⟩ := hg [] l0 l1 g rfl
          rw [e1] at h2
          simp only [List.flatten_cons, List.cons_append, List.cons.injEq] at h2
          have hl : 2 ≤ l.length := by
            have : l0 ≠ [] := hne l0 (by simp)
            have : 0 < l0.length := List.length_pos_of_ne_nil this
            rw [h1]; simp; omega
          have := ho l (by simp) hl
          rw [h1, spacedSum_append, spacedSum_append] at this
          have h3 : spacedSum mt (w :: y) = spaced mt w + spacedSum mt y := by simp [spacedSum]
          have h4 := spacedSum_nonneg h0 x
          have h5 := spacedSum_nonneg h0 y
          rw [h2.1] at e2
          linarith
    · exact ⟨y, h2.symm⟩

/-! ### The lines of one stretch -/

theorem segLines_fits (seg : List Word) : ∀ l ∈ segLines mt width seg, 2 ≤ l.length → spacedSum mt l < width := by
  have inv : ∀ (seg : List Word) (acc : List (List Word) × List Word), (∀ l ∈ acc.1 ++ [acc.2], 2 ≤ l.length → spacedSum mt l < width) →
      ∀ l ∈ ((seg.map some).foldl (placeTok mt width) acc).1 ++ [((seg.map some).foldl (placeTok mt width) acc).2], 2 ≤ l.length → spacedSum mt l < width := by
    intro seg
    induction seg with
    | nil => intro acc h; exact h
    | cons w seg ih =>
      intro acc h
      rw [List.map_cons, List.foldl_cons]
      refine ih _ ?_
      simp only [placeTok]
      split
      · intro l hl
        simp only [List.mem_append, List.mem_singleton] at hl
        rcases hl with hl | rfl
        · exact h l (by simpa using hl)
        · simp
      · rename_i hlt
        intro l hl
        simp only [List.mem_append, List.mem_singleton] at hl
        rcases hl with hl | rfl
        · exact h l (by simp [hl])
        · intro _
          rw [spacedSum_append]
          simp only [spacedSum, List.map_cons, List.map_nil, List.sum_cons, List.sum_nil, add_zero] at hlt ⊢
          exact not_le.mp hlt
  exact inv seg ([], []) (by simp)

/-- The first word alone reaches the width. -/
def wideStart (mt : Font → Str → ℚ) (width : ℚ) (seg : List Word) : Bool := seg.head?.any fun w => width ≤ spaced mt w

/-- A stretch that begins with a wide word has a blank line first. -/
theorem segLines_wide {seg : List Word} (h : wideStart mt width seg = true) : ∃ rest, segLines mt width seg = [] :: rest := by
  cases seg with
  | nil => simp [wideStart] at h
  | cons w r =>
    have hw : width ≤ spaced mt w := by simpa [wideStart] using h
    have h1 : placeTok mt width ([], []) (some w) = ([[]], [w]) := by
      simp only [placeTok, spacedSum, List.map_nil, List.sum_nil, zero_add]
      rw [if_pos hw]; rfl
    unfold segLines
    rw [List.map_cons, List.foldl_cons, h1, foldl_prefix]
    exact ⟨_, rfl⟩

theorem segLines_ne (seg : List Word) : segLines mt width seg ≠ [] := by simp [segLines]

theorem segLines_nil : segLines mt width [] = [[]] := rfl

/-- The lines of a stretch that are not blank. -/
theorem segLines_split {seg : List Word} (hne : seg ≠ []) : ∃ ls, (∀ l ∈ ls, l ≠ []) ∧ ls.flatten = seg ∧ Greedy mt width ls ∧ ls ≠ [] ∧
    segLines mt width seg = (if wideStart mt width seg then [[]] else []) ++ ls := by
  have hg := segLines_greedy (mt := mt) (width := width) seg
  have hf := segLines_words (mt := mt) (width := width) seg
  have hnil : ∀ ls : List (List Word), ls.flatten = seg → ls ≠ [] := by
    rintro ls h rfl
    exact hne (by simpa using h.symm)
  by_cases hw : wideStart mt width seg = true
  · obtain ⟨rest, hr⟩ := segLines_wide hw
    rw [hr] at hg hf
    refine ⟨rest, greedy_nonblank hg, by simpa using hf, greedy_tail hg, hnil _ (by simpa using hf), by rw [if_pos hw, hr]; rfl⟩
  · refine ⟨segLines mt width seg, fun l hl hb => ?_, hf, hg, segLines_ne _, by rw [if_neg hw]; rfl⟩
    rw [hb] at hl
    rcases segLines_blank seg hl with h | ⟨w, r, rest, h, h1⟩
    · rw [h] at hf
      exact hne (by simpa using hf.symm)
    · rw [h] at hf
      refine hw ?_
      rw [← hf]
      simpa [wideStart] using h1

/-- No other lines of a stretch are fewer. -/
theorem segLines_fewest (h0 : ∀ f w, 0 ≤ mt f w) {seg : List Word} {g : List (List Word)} (hf : g.flatten = seg) (hn : g ≠ [])
    (hl : ∀ l ∈ g, 2 ≤ l.length → spacedSum mt l < width) : (segLines mt width seg).length ≤ g.length + if wideStart mt width seg then 1 else 0 := by
  by_cases hne : seg = []
  · rw [hne, segLines_nil]
    have := List.length_pos_of_ne_nil hn
    simp; omega
  · obtain ⟨ls, h1, h2, h3, _, h5⟩ := segLines_split (mt := mt) (width := width) hne
    have := greedy_ahead h0 g ls h3 h1 hl (by rw [h2, hf]; exact List.suffix_refl _)
    rw [h5]
    split <;> simp <;> omega

/-- With more width there are not more lines. -/
theorem segLines_wider (h0 : ∀ f w, 0 ≤ mt f w) (hw : width ≤ width') (seg : List Word) : (segLines mt width' seg).length ≤ (segLines mt width seg).length := by
  by_cases hne : seg = []
  · rw [hne, segLines_nil, segLines_nil]
  · obtain ⟨ls, _, h2, _, h4, h5⟩ := segLines_split (mt := mt) (width := width) hne
    have hfit := segLines_fits (mt := mt) (width := width) seg
    have := segLines_fewest (width := width') h0 h2 h4 fun l hl h => lt_of_lt_of_le (hfit l (by rw [h5]; simp [hl]) h) hw
    have hs : wideStart mt width' seg = true → wideStart mt width seg = true := by
      cases seg with
      | nil => simp [wideStart]
      | cons w r => simpa [wideStart] using fun h => le_trans hw h
    rw [h5]
    by_cases hb : wideStart mt width' seg = true
    · rw [if_pos hb] at this
      rw [if_pos (hs hb)]
      simp; omega
    · rw [if_neg hb] at this
      split <;> simp <;> omega

/-! ### All lines -/

theorem getLast_flatten_groups {α : Type} (gs : List (List α)) (h : ∀ g ∈ gs, g ≠ []) : gs.flatten.getLast? = gs.getLast?.bind List.getLast? := by
  rcases List.eq_nil_or_concat gs with rfl | ⟨gs', g, rfl⟩
  · rfl
  · have hg := h g (by simp)
    simp only [List.concat_eq_append, List.flatten_append, List.flatten_cons, List.flatten_nil, List.append_nil, List.getLast?_append, List.getLast?_singleton]
    cases hl : g.getLast? with
    | none => exact absurd (List.getLast?_eq_none_iff.mp hl) hg
    | some x => simp [hl]

/-- The lines end with a blank one if the last stretch is empty. -/
theorem segLines_last (segs : List (List Word)) : (segs.map (segLines mt width)).flatten.getLast? = some [] ↔ segs.getLast? = some [] := by
  rw [getLast_flatten_groups _ (by intro g hg; obtain ⟨seg, _, rfl⟩ := List.mem_map.mp hg; exact segLines_ne seg), List.getLast?_map]
  cases segs.getLast? with
  | none => simp
  | some seg =>
    simp only [Option.map_some, Option.bind_some, Option.some.injEq]
    constructor
    · intro h
      by_contra hne
      obtain ⟨ls, h1, _, _, h4, h5⟩ := segLines_split (mt := mt) (width := width) hne
      rw [h5, List.getLast?_append] at h
      cases hl : ls.getLast? with
      | none => exact h4 (List.getLast?_eq_none_iff.mp hl)
      | some x =>
        rw [hl] at h
        simp only [Option.some_or, Option.some.injEq] at h
        exact h1 x (List.mem_of_getLast? hl) h
    · rintro rfl; rfl

/-- The blank line at the end counts in neither. -/
theorem dropBlank_length_le {ls ms : List (List Word)} (hlast : ms.getLast? = some [] → ls.getLast? = some []) (k : Nat) (h : ls.length ≤ ms.length + k) :
    (dropBlank ls).length ≤ (dropBlank ms).length + k := by
  unfold dropBlank
  by_cases h1 : ms.getLast? = some []
  · rw [if_pos h1, if_pos (hlast h1), List.length_dropLast, List.length_dropLast]
    have : 0 < ms.length := by
      cases ms with
      | nil => simp at h1
      | cons => simp
    omega
  · rw [if_neg h1]
    split
    · rw [List.length_dropLast]; omega
    · exact h

theorem lines_fewest (h0 : ∀ f w, 0 ≤ mt f w) : ∀ {segs : List (List Word)} {groups : List (List (List Word))}, Breaking mt width segs groups →
    ((segs.map (segLines mt width)).flatten).length ≤ groups.flatten.length + wideStarts mt width segs
  | [], gs, _ => by simp
  | seg :: segs, [], h => absurd h.words (by simp)
  | seg :: segs, g :: gs, h => by
    have hw := h.words
    simp only [List.map_cons, List.cons.injEq] at hw
    have ih := lines_fewest h0 (segs := segs) (groups := gs) ⟨hw.2, fun g hg => h.some g (by simp [hg]), fun g hg => h.blank g (by simp [hg]),
      fun g hg => h.narrow g (by simp [hg])⟩
    have h1 := segLines_fewest h0 hw.1 (h.some g (by simp)) (h.narrow g (by simp))
    simp only [List.map_cons, List.flatten_cons, List.length_append, wideStarts, List.countP_cons] at ih ⊢
    change _ ≤ _ + (_ + if wideStart mt width seg = true then 1 else 0)
    omega

theorem lines_wider (h0 : ∀ f w, 0 ≤ mt f w) (hw : width ≤ width') (segs : List (List Word)) :
    ((segs.map (segLines mt width')).flatten).length ≤ ((segs.map (segLines mt width)).flatten).length := by
  induction segs with
  | nil => simp
  | cons seg segs ih =>
    have := segLines_wider h0 hw seg
    simp only [List.map_cons, List.flatten_cons, List.length_append]
    omega

/-- The last of other lines. -/
theorem breaking_last {segs : List (List Word)} {groups : List (List (List Word))} (h : Breaking mt width segs groups) (hl : groups.flatten.getLast? = some []) :
    segs.getLast? = some [] := by
  rw [getLast_flatten_groups _ h.some] at hl
  rw [← h.words, List.getLast?_map]
  cases hg : groups.getLast? with
  | none => rw [hg] at hl; simp at hl
  | some g =>
    rw [hg] at hl
    simp only [Option.bind_some] at hl
    have hm := List.mem_of_getLast? hg
    rw [Option.map_some, h.blank g hm (List.mem_of_getLast? hl)]
    rfl

/-! ### The state -/

/-- Breaking a text leaves the same state whatever the width. -/
theorem linesLoop_state {E : Type} (eng : Engine E) (cs : Classes) (sty : Styles) : ∀ (iss : List Instr) (a a' : List TextLine × TextLine) (s : PState E),
    (linesLoop eng cs width sty iss a s).2 = (linesLoop eng cs width' sty iss a' s).2 := by
  intro iss
  induction iss with
  | nil => intro a a' s; rfl
  | cons i iss ih =>
    intro a a' s
    cases i
    case lineBreak => exact ih _ _ s
    all_goals
      unfold linesLoop
      simp only [textOf]
      try exact ih _ _ s
    all_goals
      split
      · exact ih _ _ _
      · exact ih _ _ _

/-- After breaking a text, the font is one of the text, or the one of before. -/
theorem linesLoop_nonneg {E : Type} {eng : Engine E} {fh : Font → ℚ} (hf : ∀ f e, eng.fontHeight (eng.changeFont f e) = fh f) {cs : Classes} {sty : Styles} (h0 : 0 ≤ fh sty.font) :
    ∀ (iss : List Instr) (acc : List TextLine × TextLine) (s : PState E), (∀ st t, .paragraph st t ∈ iss → 0 ≤ fh (st.mutatedStyles cs sty).font) →
    0 ≤ eng.fontHeight s.eng → 0 ≤ eng.fontHeight (linesLoop eng cs width sty iss acc s).2.eng := by
  intro iss
  induction iss with
  | nil => intro acc s _ h; exact h
  | cons i iss ih =>
    intro acc s hp h
    have hp' : ∀ st t, .paragraph st t ∈ iss → 0 ≤ fh (st.mutatedStyles cs sty).font := fun st t hm => hp st t (by simp [hm])
    cases i with
    | textBlock t =>
      simp only [linesLoop, textOf]
      split
      · exact ih _ _ hp' h
      · exact ih _ _ hp' (le_of_le_of_eq h0 (hf sty.font s.eng).symm)
    | paragraph st t =>
      simp only [linesLoop, textOf]
      split
      · exact ih _ _ hp' h
      · exact ih _ _ hp' (le_of_le_of_eq (hp st t (by simp)) (hf _ s.eng).symm)
    | _ => exact ih _ _ hp' h

end Verif.Proofs
