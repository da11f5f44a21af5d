import Verif.Proofs.Writing
import Verif.Proofs.TextLines
import Verif.Spec.Inside
/-
Texts within boxes and cells (C78, C79).
-/
namespace Verif.Proofs
open Verif.Go Verif.Model Verif.Spec

variable {E : Type} {eng : Engine E} {c : Calls E} {mt : Font → Str → ℚ} {fh : Font → ℚ} {right bottom : ℚ} {look : E → Look}
  {placed : E → List TextAt} {hyph : Str → List Str} {cs : Classes} {iss : List Instr} {width : ℚ} {sty : Styles}

/-- The words of a text are words of the block text. -/
theorem tokens_block {page : Int} : ∀ (iss : List Instr), ∀ w ∈ (tokens cs page sty iss).filterMap id,
    w ∈ (blockTokens cs page sty iss).filterMap id := by
  intro iss
  induction iss with
  | nil => intro w h; simp [tokens] at h
  | cons i iss ih =>
    intro w h
    cases i with
    | lineBreak => simp only [tokens, blockTokens, List.filterMap_cons, id] at h ⊢; exact ih w h
    | textBlock t =>
      simp only [tokens, blockTokens, filterMap_somes, List.mem_append, List.mem_map, wordsOf, List.mem_filter] at h ⊢
      rcases h with ⟨v, ⟨hv, _⟩, e⟩ | h
      · exact Or.inl ⟨v, hv, e⟩
      · exact Or.inr (ih w h)
    | paragraph st t =>
      simp only [tokens, blockTokens, filterMap_somes, List.mem_append, List.mem_map, wordsOf, List.mem_filter] at h ⊢
      rcases h with ⟨v, ⟨hv, _⟩, e⟩ | h
      · exact Or.inl ⟨v, hv, e⟩
      · exact Or.inr (ih w h)
    | _ => exact ih w h

/-- All words have a font as high as that of the text. -/
theorem blockTokens_font {page : Int} : ∀ (iss : List Instr), (∀ st t, .paragraph st t ∈ iss → fh (st.mutatedStyles cs sty).font = fh sty.font) →
    ∀ w ∈ (blockTokens cs page sty iss).filterMap id, fh w.1.font = fh sty.font := by
  intro iss
  induction iss with
  | nil => intro _ w h; simp [blockTokens] at h
  | cons i iss ih =>
    intro hp w h
    have hp' : ∀ st t, .paragraph st t ∈ iss → fh (st.mutatedStyles cs sty).font = fh sty.font := fun st t hm => hp st t (List.mem_cons_of_mem _ hm)
    cases i with
    | lineBreak => simp only [blockTokens, List.filterMap_cons, id] at h; exact ih hp' w h
    | textBlock t =>
      simp only [blockTokens, filterMap_somes, List.mem_append, List.mem_map] at h
      rcases h with ⟨v, hv, rfl⟩ | h
      · rfl
      · exact ih hp' w h
    | paragraph st t =>
      simp only [blockTokens, filterMap_somes, List.mem_append, List.mem_map] at h
      rcases h with ⟨v, hv, rfl⟩ | h
      · exact hp st t (by simp)
      · exact ih hp' w h
    | _ => exact ih hp' w h

/-- Texts in a run are between its ends. -/
theorem runFrom_within (hnn : ∀ f t, 0 ≤ mt f t) {gap : ℚ} (hg : 0 ≤ gap) : ∀ (ts : List (Font × Str)) (x : ℚ), ∀ i ∈ runFrom mt gap x ts,
    (i.2.1, i.2.2) ∈ ts ∧ x ≤ i.1 ∧ i.1 + mt i.2.1 i.2.2 ≤ x + (ts.map fun t => mt t.1 t.2).sum + gap * (ts.length - 1 : ℚ) := by
  intro ts
  induction ts with
  | nil => intro x i h; simp [runFrom] at h
  | cons t ts ih =>
    intro x i h
    have hs : 0 ≤ (ts.map fun t => mt t.1 t.2).sum := List.sum_nonneg (by
      intro a ha
      obtain ⟨u, _, rfl⟩ := List.mem_map.mp ha
      exact hnn _ _)
    have hl : (0 : ℚ) ≤ ts.length := Nat.cast_nonneg _
    have hgl : 0 ≤ gap * ts.length := mul_nonneg hg hl
    have ht := hnn t.1 t.2
    simp only [runFrom, List.mem_cons] at h
    simp only [List.map_cons, List.sum_cons, List.length_cons]
    push_cast
    rcases h with rfl | h
    · refine ⟨by simp, le_refl _, ?_⟩
      simp only
      linarith
    · obtain ⟨h1, h2, h3⟩ := ih _ i h
      refine ⟨by simp [h1], by linarith, ?_⟩
      linarith

/-- Texts below each other in fonts of one height. -/
theorem stack_one {spacing : ℚ} {color : RGB} {F : Font} {H : ℚ} : ∀ (lines : List SetLine) (y : ℚ), fh F = H → (∀ l ∈ lines, ∀ i ∈ l, fh i.2.1 = H) →
    ∀ t ∈ stack fh spacing color y F lines, ∃ k : Nat, k < lines.length ∧ t.y = y + k * (spacing * H) ∧
      ∃ l ∈ lines, (t.x, t.font, t.text) ∈ l := by
  intro lines
  induction lines generalizing F with
  | nil => intro y _ _ t h; simp [stack] at h
  | cons l ls ih =>
    intro y h0 hF t h
    have hlast : fh ((l.getLast?.map (·.2.1)).getD F) = H := by
      cases hl : l.getLast? with
      | none => exact h0
      | some i => exact hF l (by simp) i (List.mem_of_getLast? hl)
    simp only [stack, hlast, List.mem_append, List.mem_map] at h
    rcases h with ⟨i, hi, rfl⟩ | h
    · exact ⟨0, by simp, by simp, l, by simp, hi⟩
    · obtain ⟨k, h1, h2, l', h3, h4⟩ := ih _ hlast (fun l hl => hF l (List.mem_cons_of_mem _ hl)) t h
      refine ⟨k + 1, by simp; omega, ?_, l', List.mem_cons_of_mem _ h3, h4⟩
      rw [h2]; push_cast; ring

/-- Texts in lines of fonts of one height are within the lines. -/
theorem stack_within {spacing : ℚ} {color : RGB} {F : Font} {H x y : ℚ} {lines : List SetLine} (h0 : 0 ≤ spacing * H) (hF : fh F = H)
    (hl : ∀ l ∈ lines, ∀ i ∈ l, fh i.2.1 = H ∧ x ≤ i.1 ∧ i.1 + mt i.2.1 i.2.2 ≤ x + width) :
    ∀ t ∈ stack fh spacing color y F lines, TextIn mt fh x y (x + width) (y + linesHeight lines.length H spacing) t := by
  intro t ht
  obtain ⟨k, h1, h2, l, h3, h4⟩ := stack_one lines y hF (fun l hl' i hi => (hl l hl' i hi).1) t ht
  obtain ⟨e1, e2, e3⟩ := hl l h3 _ h4
  have hk : (0 : ℚ) ≤ k := Nat.cast_nonneg _
  have hk' : (k : ℚ) + 1 ≤ lines.length := by exact_mod_cast h1
  simp only at e1 e2 e3
  refine ⟨e2, e3, ?_, ?_⟩
  · rw [h2]; have := mul_nonneg hk h0; linarith
  · rw [h2, e1]
    unfold linesHeight
    simp only
    have := mul_nonneg (sub_nonneg.mpr hk') h0
    linarith

/-- Texts below each other are not lower than they would be in the highest font. -/
theorem stack_low {spacing : ℚ} {color : RGB} {H : ℚ} : ∀ (lines : List SetLine) (y : ℚ) (F : Font), 0 ≤ spacing * fh F → spacing * fh F ≤ spacing * H →
    (∀ l ∈ lines, ∀ i ∈ l, 0 ≤ spacing * fh i.2.1 ∧ spacing * fh i.2.1 ≤ spacing * H) →
    ∀ t ∈ stack fh spacing color y F lines, y ≤ t.y ∧ t.y ≤ y + (lines.length - 1 : ℚ) * (spacing * H) := by
  intro lines
  induction lines with
  | nil => intro y F _ _ _ t h; simp [stack] at h
  | cons l ls ih =>
    intro y F h0 h1 hl t h
    have hH : 0 ≤ spacing * H := h0.trans h1
    obtain ⟨F', hF'⟩ : ∃ F', F' = (l.getLast?.map (·.2.1)).getD F := ⟨_, rfl⟩
    have hlast : 0 ≤ spacing * fh F' ∧ spacing * fh F' ≤ spacing * H := by
      rw [hF']
      cases hq : l.getLast? with
      | none => exact ⟨h0, h1⟩
      | some i => exact hl l (by simp) i (List.mem_of_getLast? hq)
    simp only [stack, ← hF', List.mem_append, List.mem_map] at h
    have hn : (0 : ℚ) ≤ ls.length * (spacing * H) := mul_nonneg (Nat.cast_nonneg _) hH
    simp only [List.length_cons]
    push_cast
    rcases h with ⟨i, hi, rfl⟩ | h
    · exact ⟨le_refl _, by simp only; linarith⟩
    · obtain ⟨k1, k2⟩ := ih _ _ hlast.1 hlast.2 (fun l h => hl l (List.mem_cons_of_mem _ h)) t h
      exact ⟨by linarith [hlast.1], by linarith [hlast.2]⟩

theorem stack_mem {spacing : ℚ} {color : RGB} : ∀ (lines : List SetLine) (y : ℚ) (F : Font), ∀ t ∈ stack fh spacing color y F lines,
    ∃ l ∈ lines, (t.x, t.font, t.text) ∈ l := by
  intro lines
  induction lines with
  | nil => intro y F t h; simp [stack] at h
  | cons l ls ih =>
    intro y F t h
    simp only [stack, List.mem_append, List.mem_map] at h
    rcases h with ⟨i, hi, rfl⟩ | h
    · exact ⟨l, by simp, hi⟩
    · obtain ⟨l', h1, h2⟩ := ih _ _ t h
      exact ⟨l', List.mem_cons_of_mem _ h1, h2⟩

/-- No word is higher than the last one. -/
def Under (fh : Font → ℚ) (spacing : ℚ) (sty : Styles) (ws : List Word) : Prop :=
  ∀ w ∈ ws, fh w.1.font ≤ fh (lastFont sty ws) ∧ 0 ≤ spacing * fh w.1.font ∧ spacing * fh w.1.font ≤ spacing * fh (lastFont sty ws)

/-- Texts in lines of words that are not higher than the last one are within the height of so many lines of it. -/
theorem stack_under {spacing : ℚ} {color : RGB} {ws : List Word} {x y : ℚ} {lines : List SetLine} (hu : Under fh spacing sty ws)
    (hl : ∀ l ∈ lines, ∀ i ∈ l, (∃ w ∈ ws, i.2.1 = w.1.font) ∧ x ≤ i.1 ∧ i.1 + mt i.2.1 i.2.2 ≤ x + width) :
    ∀ t ∈ stack fh spacing color y (lastFont sty ws) lines,
      TextIn mt fh x y (x + width) (y + linesHeight lines.length (fh (lastFont sty ws)) spacing) t := by
  intro t ht
  obtain ⟨l, h1, h2⟩ := stack_mem lines _ _ t ht
  obtain ⟨⟨w, hw, e⟩, e2, e3⟩ := hl l h1 _ h2
  obtain ⟨k1, k2, k3⟩ := hu w hw
  simp only at e e2 e3
  have hf : 0 ≤ spacing * fh (lastFont sty ws) := k2.trans k3
  obtain ⟨k4, k5⟩ := stack_low lines y _ hf (le_refl _) (fun l hl' i hi => by
    obtain ⟨⟨v, hv, ev⟩, _⟩ := hl l hl' i hi
    rw [ev]
    exact (hu v hv).2) t ht
  refine ⟨e2, e3, k4, ?_⟩
  rw [e]
  unfold linesHeight
  simp only
  linarith

/-- The height of the font after looking through a text. -/
theorem linesLoop_last (hm : Measures eng mt) (hf : ∀ f e, eng.fontHeight (eng.changeFont f e) = fh f) : ∀ (iss : List Instr) (acc : List TextLine × TextLine)
    (s : PState E) (F : Font), eng.fontHeight s.eng = fh F →
    eng.fontHeight (linesLoop eng cs width sty iss acc s).2.eng = fh (fontOver F ((tokens cs (eng.currentPage s.eng) sty iss).filterMap id)) := by
  intro iss
  induction iss with
  | nil => intro acc s F h; exact h
  | cons is iss ih =>
    intro acc s F hF
    have text : ∀ (isty : Styles) (t : Str),
        tokens cs (eng.currentPage s.eng) sty (is :: iss) =
          (wordsOf (eng.currentPage s.eng) t).map (fun w => some (isty, w)) ++ tokens cs (eng.currentPage s.eng) sty iss →
        (∃ acc', linesLoop eng cs width sty (is :: iss) acc s =
          (if norm eng s.eng t = [] then linesLoop eng cs width sty iss acc s
           else linesLoop eng cs width sty iss acc' (changeFont eng isty.font s))) →
        eng.fontHeight (linesLoop eng cs width sty (is :: iss) acc s).2.eng = fh (fontOver F ((tokens cs (eng.currentPage s.eng) sty (is :: iss)).filterMap id)) := by
      rintro isty t htok ⟨acc', hloop⟩
      have hn : wordsOf (eng.currentPage s.eng) t = (split 32 (norm eng s.eng t)).filter (· ≠ []) := by
        rw [wordsOf, piecesOf, ← Verif.Props.C02_exact]; rfl
      rw [hloop, htok, filterMap_somes, fontOver_append]
      by_cases h0 : norm eng s.eng t = []
      · rw [if_pos h0, hn, h0]
        exact ih acc s F hF
      · rw [if_neg h0]
        have h1 := split_norm (s := tr eng s.eng t) h0
        have h2 : wordsOf (eng.currentPage s.eng) t ≠ [] := by
          rw [hn]
          exact fun h => split_ne_nil 32 (norm eng s.eng t) (h1.symm.trans h)
        rw [fontOver_same _ _ h2]
        have hpg : eng.currentPage s.eng = eng.currentPage (changeFont eng isty.font s).eng := (hm.page _ _).symm
        rw [hpg]
        exact ih acc' (changeFont eng isty.font s) _ (hf _ _)
    cases is with
    | textBlock t => exact text sty t rfl ⟨_, rfl⟩
    | paragraph st t => exact text (st.mutatedStyles cs sty) t rfl ⟨_, rfl⟩
    | lineBreak => exact ih _ s F hF
    | _ => exact ih acc s F hF

theorem linesLoopHyph_last (hm : Measures eng mt) (hf : ∀ f e, eng.fontHeight (eng.changeFont f e) = fh f) : ∀ (iss : List Instr) (acc : List TextLine × TextLine)
    (s : PState E) (F : Font), eng.fontHeight s.eng = fh F →
    eng.fontHeight (linesLoopHyph eng hyph cs width sty iss acc s).2.eng = fh (fontOver F ((blockTokens cs (eng.currentPage s.eng) sty iss).filterMap id)) := by
  intro iss
  induction iss with
  | nil => intro acc s F h; exact h
  | cons is iss ih =>
    intro acc s F hF
    have text : ∀ (isty : Styles) (t : Str),
        blockTokens cs (eng.currentPage s.eng) sty (is :: iss) =
          (piecesOf (eng.currentPage s.eng) t).map (fun w => some (isty, w)) ++ blockTokens cs (eng.currentPage s.eng) sty iss →
        (∃ acc', linesLoopHyph eng hyph cs width sty (is :: iss) acc s = linesLoopHyph eng hyph cs width sty iss acc' (changeFont eng isty.font s)) →
        eng.fontHeight (linesLoopHyph eng hyph cs width sty (is :: iss) acc s).2.eng =
          fh (fontOver F ((blockTokens cs (eng.currentPage s.eng) sty (is :: iss)).filterMap id)) := by
      rintro isty t htok ⟨acc', hloop⟩
      rw [hloop, htok, filterMap_somes, fontOver_append, fontOver_same _ _ (ws := piecesOf (eng.currentPage s.eng) t) (split_ne_nil _ _)]
      have hpg : eng.currentPage s.eng = eng.currentPage (changeFont eng isty.font s).eng := (hm.page _ _).symm
      rw [hpg]
      exact ih acc' (changeFont eng isty.font s) _ (hf _ _)
    cases is with
    | textBlock t => exact text sty t rfl ⟨_, rfl⟩
    | paragraph st t => exact text (st.mutatedStyles cs sty) t rfl ⟨_, rfl⟩
    | lineBreak => exact ih _ s F hF
    | _ => exact ih acc s F hF

/-- Texts in a run are one behind the other. -/
theorem runFrom_order (hnn : ∀ f t, 0 ≤ mt f t) {gap : ℚ} (hg : 0 ≤ gap) : ∀ (ts : List (Font × Str)) (x : ℚ),
    (runFrom mt gap x ts).Pairwise fun i j => i.1 + mt i.2.1 i.2.2 ≤ j.1
  | [], _ => List.Pairwise.nil
  | t :: ts, x => List.pairwise_cons.mpr ⟨fun j hj => by
      have := (runFrom_within hnn hg ts _ j hj).2.1
      simp only
      linarith, runFrom_order hnn hg ts _⟩

/-- Texts in lines of fonts of one height, not closer than the fonts are high, are below or behind each other. -/
theorem stack_order {spacing : ℚ} {color : RGB} {F : Font} {H : ℚ} (h0 : 0 ≤ H) (h1 : H ≤ spacing * H) (hF : fh F = H) :
    ∀ (lines : List SetLine) (y : ℚ), (∀ l ∈ lines, (∀ i ∈ l, fh i.2.1 = H) ∧ l.Pairwise fun i j => i.1 + mt i.2.1 i.2.2 ≤ j.1) →
    (stack fh spacing color y F lines).Pairwise (TextAfter mt fh) := by
  intro lines
  induction lines generalizing F with
  | nil => intro _ _; exact List.Pairwise.nil
  | cons l ls ih =>
    intro y hl
    have hlast : fh ((l.getLast?.map (·.2.1)).getD F) = H := by
      cases hq : l.getLast? with
      | none => exact hF
      | some i => exact (hl l (by simp)).1 i (List.mem_of_getLast? hq)
    simp only [stack, hlast]
    refine List.pairwise_append.mpr ⟨?_, ih hlast _ fun l h => hl l (List.mem_cons_of_mem _ h), ?_⟩
    · rw [List.pairwise_map]
      exact (hl l (by simp)).2.imp fun h => Or.inr ⟨rfl, h⟩
    · intro t ht u hu
      obtain ⟨i, hi, rfl⟩ := List.mem_map.mp ht
      obtain ⟨k, -, e, -⟩ := stack_one ls _ hlast (fun l h => (hl l (List.mem_cons_of_mem _ h)).1) u hu
      refine Or.inl ?_
      have hk : (0 : ℚ) ≤ k * (spacing * H) := mul_nonneg (Nat.cast_nonneg _) (h0.trans h1)
      simp only [(hl l (by simp)).1 i hi]
      rw [e]
      linarith

/-- Where the pieces of block text come from. -/
def PieceOf (hyph : Str → List Str) (mt : Font → Str → ℚ) (width : ℚ) (ws : List Word) : WPiece → Prop
  | .whole w => w ∈ ws
  | .head w => (∃ v ∈ ws, v.1 = w.1) ∧ mt w.1.font (32 :: (w.2 ++ [45])) ≤ width
  | .tail w => ∃ v ∈ ws, v.1 = w.1 ∧ ∃ k, w.2 = ((hyph v.2).drop k).flatten

theorem ctotal_nonneg (hnn : ∀ f t, 0 ≤ mt f t) (ps : List WPiece) : 0 ≤ ctotal mt ps := by
  unfold ctotal
  refine List.sum_nonneg ?_
  intro x hx
  obtain ⟨p, _, rfl⟩ := List.mem_map.mp hx
  cases p <;> exact hnn _ _

theorem foldl_pieceOf (hnn : ∀ f t, 0 ≤ mt f t) {ws : List Word} : ∀ (toks : List (Option Word)) (acc : List HLine × List WPiece),
    (∀ w : Word, some w ∈ toks → w ∈ ws) →
    (∀ l ∈ acc.1.map (·.1), ∀ p ∈ l, PieceOf hyph mt width ws p) → (∀ p ∈ acc.2, PieceOf hyph mt width ws p) →
    (∀ l ∈ (toks.foldl (placeHyph hyph mt width) acc).1.map (·.1), ∀ p ∈ l, PieceOf hyph mt width ws p) ∧
      (∀ p ∈ (toks.foldl (placeHyph hyph mt width) acc).2, PieceOf hyph mt width ws p) := by
  intro toks
  induction toks with
  | nil => intro acc _ h1 h2; exact ⟨h1, h2⟩
  | cons tk toks ih =>
    intro acc ht h1 h2
    rw [List.foldl_cons]
    have ht' : ∀ w : Word, some w ∈ toks → w ∈ ws := fun w hw => ht w (List.mem_cons_of_mem _ hw)
    have snoc : ∀ x, (∀ p ∈ x, PieceOf hyph mt width ws p) → ∀ l ∈ acc.1.map (·.1) ++ [x], ∀ p ∈ l, PieceOf hyph mt width ws p := by
      intro x hx l hl
      rcases List.mem_append.mp hl with hl | hl
      · exact h1 l hl
      · simp at hl; rw [hl]; exact hx
    cases tk with
    | none =>
      refine ih _ ht' ?_ (by simp [placeHyph])
      simp only [placeHyph, List.map_append, markLastH_fst]
      exact snoc acc.2 h2
    | some w =>
      have hw := ht w (by simp)
      simp only [placeHyph]
      split
      · cases hr : tryHyphenate hyph (mt w.1.font) width w.2 (ctotal mt acc.2) with
        | none =>
          refine ih _ ht' ?_ (by simpa [PieceOf] using hw)
          simp only [List.map_append]
          exact snoc acc.2 h2
        | some r =>
          obtain ⟨s1, s2⟩ := r
          obtain ⟨i, _, _, e1, e2, e3⟩ := tryHyphenate_some hr
          have hc := ctotal_nonneg hnn acc.2
          refine ih _ ht' ?_ ?_
          · simp only [List.map_append]
            refine snoc _ ?_
            intro p hp
            rcases List.mem_append.mp hp with hp | hp
            · exact h2 p hp
            · simp only [List.mem_singleton] at hp
              rw [hp]
              refine ⟨⟨w, hw, rfl⟩, ?_⟩
              have : (32 :: (s1.tail.dropLast ++ [45]) : Str) = s1 := by rw [e1]; simp
              simp only [this]
              linarith
          · intro p hp
            simp only [List.mem_singleton] at hp
            rw [hp]
            exact ⟨w, hw, rfl, i, e2⟩
      · refine ih _ ht' h1 ?_
        intro p hp
        rcases List.mem_append.mp hp with hp | hp
        · exact h2 p hp
        · simp only [List.mem_singleton] at hp; rw [hp]; exact hw

theorem wrappedHyph_pieceOf (hnn : ∀ f t, 0 ≤ mt f t) (toks : List (Option Word)) :
    ∀ l ∈ (wrappedHyph hyph mt width toks).map (·.1), ∀ p ∈ l, PieceOf hyph mt width (toks.filterMap id) p := by
  obtain ⟨h1, h2⟩ := foldl_pieceOf (hyph := hyph) (width := width) (ws := toks.filterMap id) hnn toks ([], []) (by simp) (by simp) (by simp)
  unfold wrappedHyph
  simp only
  split
  · intro l hl
    rw [List.map_append] at hl
    rcases List.mem_append.mp hl with hl | hl
    · exact h1 l hl
    · simp at hl; rw [hl]; exact h2
  · exact h1

/-- The font and width of a piece. -/
theorem pieceOf_item (hm : Metrics eng hyph mt fh) {ws : List Word} (hfits : ∀ w ∈ ws, spaced mt w ≤ width) {p : WPiece} (h : PieceOf hyph mt width ws p) :
    ∃ w ∈ ws, (p.item true).sty.font = w.1.font ∧ (p.item false).sty.font = w.1.font ∧ mt (p.item true).sty.font (p.item true).text ≤ width := by
  cases p with
  | whole w => exact ⟨w, h, rfl, rfl, le_trans (hm.lead _ _) (hfits w h)⟩
  | head w =>
    obtain ⟨⟨v, hv, e⟩, h2⟩ := h
    exact ⟨v, hv, by rw [e]; rfl, by rw [e]; rfl, h2⟩
  | tail w =>
    obtain ⟨v, hv, e, k, h2⟩ := h
    refine ⟨v, hv, by rw [e]; rfl, by rw [e]; rfl, ?_⟩
    simp only [WPiece.item, if_true]
    rw [h2, ← e]
    exact le_trans (hm.rest _ _ _) (le_trans (hm.lead _ _) (hfits v hv))

end Verif.Proofs
