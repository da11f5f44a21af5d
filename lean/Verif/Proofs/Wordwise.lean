import Verif.Spec.Wordwise
import Verif.Proofs.Spacing
/-
How a text is divided into pieces and paragraphs makes no difference.
-/
namespace Verif.Proofs
open Verif.Go Verif.Model Verif.Spec

/-! ### Texts -/

/-- Place holders do not reach over white space. -/
theorem replace_over {old new : Str} (h0 : old ≠ []) (ho : ∀ c ∈ old, blank c = false) (r s : Str) :
    replaceAux old new 0 (s ++ 32 :: r) = replaceAux old new 0 s ++ 32 :: replaceAux old new 0 r := by
  have hend : ∀ s : Str, old <+: s ++ 32 :: r → old <+: s := by
    intro s h
    rcases Nat.lt_or_ge s.length old.length with hl | hl
    · have hm : (32 : UInt8) ∈ old := by
        obtain ⟨q, hq⟩ := h
        have : old[s.length]? = some 32 := by
          have h1 : (old ++ q)[s.length]? = some 32 := by rw [hq]; simp
          rwa [List.getElem?_append_left hl] at h1
        exact List.mem_of_getElem? this
      exact absurd (ho 32 hm) (by decide)
    · exact List.prefix_of_prefix_length_le h (List.prefix_append _ _) hl
  refine replace_induction h0 (P := fun s => replaceAux old new 0 (s ++ 32 :: r) = replaceAux old new 0 s ++ 32 :: replaceAux old new 0 r) ?_ ?_ ?_ s
  · rw [List.nil_append, replaceAux_not_prefix (fun h => h0 (List.prefix_nil.mp (hend [] h)))]; rfl
  · intro r ih
    rw [List.append_assoc, replaceAux_prefix h0, ih, replaceAux_prefix h0, List.append_assoc]
  · intro c cs hp ih
    have : ¬ old <+: c :: (cs ++ 32 :: r) := fun h => hp (hend (c :: cs) h)
    rw [List.cons_append, replaceAux_not_prefix this, ih, replaceAux_not_prefix hp]; rfl

/-- What is in a text after replacing was in it before or has been put in. -/
theorem replace_mem {old new : Str} (h0 : old ≠ []) (s : Str) : ∀ c ∈ replaceAux old new 0 s, c ∈ s ∨ c ∈ new := by
  refine replace_induction h0 (P := fun s => ∀ c ∈ replaceAux old new 0 s, c ∈ s ∨ c ∈ new) ?_ ?_ ?_ s
  · intro c hc; simp [replaceAux] at hc
  · intro r ih c hc
    rw [replaceAux_prefix h0] at hc
    rcases List.mem_append.mp hc with h | h
    · exact .inr h
    · rcases ih c h with h | h
      · exact .inl (List.mem_append_right _ h)
      · exact .inr h
  · intro d cs hp ih c hc
    rw [replaceAux_not_prefix hp] at hc
    rcases List.mem_cons.mp hc with h | h
    · exact .inl (by simp [h])
    · rcases ih c h with h | h
      · exact .inl (List.mem_cons_of_mem _ h)
      · exact .inr h

theorem replace_ne {old new : Str} (h0 : old ≠ []) (hn : new ≠ []) (s : Str) : s ≠ [] → replaceAux old new 0 s ≠ [] := by
  refine replace_induction h0 (P := fun s => s ≠ [] → replaceAux old new 0 s ≠ []) ?_ ?_ ?_ s
  · intro h; exact absurd rfl h
  · intro r _ _; rw [replaceAux_prefix h0]; simp [hn]
  · intro d cs hp _ _; rw [replaceAux_not_prefix hp]; simp

/-- A word: not empty, without white space and backslashes. -/
def IsWord (w : Str) : Prop := w ≠ [] ∧ ∀ c ∈ w, blank c = false ∧ c ≠ 92

theorem cutFrom_isWord : ∀ (t w : Str), 92 ∉ t → (∀ c ∈ w, blank c = false ∧ c ≠ 92) → ∀ v ∈ cutFrom w t, IsWord v
  | [], w, _, hw, v, hv => by
    simp only [cutFrom, List.mem_filter, List.mem_singleton, decide_eq_true_eq] at hv
    obtain ⟨rfl, h⟩ := hv
    exact ⟨h, hw⟩
  | c :: t, w, h92, hw, v, hv => by
    have ht : 92 ∉ t := fun h => h92 (List.mem_cons_of_mem _ h)
    by_cases hc : blank c = true
    · simp only [cutFrom, hc, if_true, List.mem_append, List.mem_filter, List.mem_singleton, decide_eq_true_eq] at hv
      rcases hv with ⟨rfl, h⟩ | hv
      · exact ⟨h, hw⟩
      · exact cutFrom_isWord t [] ht (by simp) v hv
    · simp only [Bool.not_eq_true] at hc
      simp only [cutFrom, hc, Bool.false_eq_true, if_false] at hv
      refine cutFrom_isWord t _ ht (fun d hd => ?_) v hv
      rcases List.mem_append.mp hd with hd | hd
      · exact hw d hd
      · rw [List.mem_singleton.mp hd]
        exact ⟨hc, fun h => h92 (by rw [h]; exact List.mem_cons_self ..)⟩

theorem cutWords_isWord {t : Str} (h : 92 ∉ t) : ∀ w ∈ cutWords t, IsWord w := cutFrom_isWord t [] h (by simp)

/-- After a letter a word is copied. -/
theorem rectified_letters : ∀ (w : Str) (p : UInt8) (r : Str), (∀ c ∈ w, blank c = false) → ∃ q, (q = p ∨ q ∈ w) ∧
    rectified (some p) false (w ++ r) = w ++ rectified (some q) false r
  | [], p, r, _ => ⟨p, .inl rfl, rfl⟩
  | c :: w, p, r, h => by
    obtain ⟨q, hq, he⟩ := rectified_letters w c r (fun d hd => h d (List.mem_cons_of_mem _ hd))
    refine ⟨q, .inr ?_, ?_⟩
    · rcases hq with rfl | hq
      · exact List.mem_cons_self ..
      · exact List.mem_cons_of_mem _ hq
    · simp only [List.cons_append, rectified, h c (List.mem_cons_self ..), Bool.false_eq_true, if_false, Bool.false_and, he]

/-- Words with a space after each, after some other word. -/
theorem rectified_more : ∀ (ws : List Str) (p : UInt8), (∀ w ∈ ws, IsWord w) → p ≠ 92 →
    rectified (some p) true (ws.flatMap (· ++ [32])) = ws.flatMap (32 :: ·)
  | [], p, _, _ => rfl
  | w :: ws, p, h, hp => by
    obtain ⟨hw, hl⟩ := h w (List.mem_cons_self ..)
    have h32 : blank 32 = true := by decide
    cases w with
    | nil => exact absurd rfl hw
    | cons c w =>
      have hc := hl c (List.mem_cons_self ..)
      obtain ⟨q, hq, he⟩ := rectified_letters w c (32 :: ws.flatMap (· ++ [32])) (fun d hd => (hl d (List.mem_cons_of_mem _ hd)).1)
      have hq92 : q ≠ 92 := by
        rcases hq with rfl | hq
        · exact hc.2
        · exact (hl q (List.mem_cons_of_mem _ hq)).2
      simp only [List.flatMap_cons, List.cons_append, List.append_assoc, List.nil_append, rectified, hc.1, Bool.false_eq_true, if_false]
      rw [if_pos (by simp [hp, hc.2]), he]
      simp only [rectified, h32, if_true]
      rw [rectified_more ws q (fun v hv => h v (List.mem_cons_of_mem _ hv)) hq92]

/-- Words with a space after each. -/
theorem rectified_line (w : Str) (ws : List Str) (h : ∀ v ∈ w :: ws, IsWord v) :
    rectified none false ((w :: ws).flatMap (· ++ [32])) = w ++ ws.flatMap (32 :: ·) := by
  obtain ⟨hw, hl⟩ := h w (List.mem_cons_self ..)
  have h32 : blank 32 = true := by decide
  cases w with
  | nil => exact absurd rfl hw
  | cons c w =>
    have hc := hl c (List.mem_cons_self ..)
    obtain ⟨q, hq, he⟩ := rectified_letters w c (32 :: ws.flatMap (· ++ [32])) (fun d hd => (hl d (List.mem_cons_of_mem _ hd)).1)
    have hq92 : q ≠ 92 := by
      rcases hq with rfl | hq
      · exact hc.2
      · exact (hl q (List.mem_cons_of_mem _ hq)).2
    simp only [List.flatMap_cons, List.cons_append, List.append_assoc, List.nil_append, rectified, hc.1, Bool.false_eq_true, if_false]
    rw [he]
    simp only [rectified, h32, if_true]
    rw [rectified_more ws q (fun v hv => h v (List.mem_cons_of_mem _ hv)) hq92]

theorem split_words : ∀ (w : Str) (ws : List Str), (∀ v ∈ w :: ws, IsWord v) → split 32 (w ++ ws.flatMap (32 :: ·)) = w :: ws
  | w, [], h => by
    have : (32 : UInt8) ∉ w := fun hm => absurd ((h w (List.mem_cons_self ..)).2 32 hm).1 (by decide)
    simpa using split_line w this
  | w, v :: ws, h => by
    have : (32 : UInt8) ∉ w := fun hm => absurd ((h w (List.mem_cons_self ..)).2 32 hm).1 (by decide)
    simp only [List.flatMap_cons, List.cons_append]
    rw [split_append_sep w _ this, split_words v ws (fun u hu => h u (List.mem_cons_of_mem _ hu))]

section
variable {E : Type} (eng : Engine E)

/-- A word with the page number in it. -/
def onPage (e : E) (w : Str) : Str := replaceAux b!"{cp}" (itoa (eng.currentPage e)) 0 w

theorem onPage_isWord (e : E) {w : Str} (h : IsWord w) : IsWord (onPage eng e w) := by
  have hi := itoa_chars (eng.currentPage e)
  refine ⟨replace_ne (by simp) hi.1 w h.1, fun c hc => ?_⟩
  rcases replace_mem (by simp) w c hc with hc | hc
  · exact h.2 c hc
  · rcases hi.2 c hc with rfl | ⟨h1, h2⟩
    · decide
    · refine ⟨?_, ?_⟩
      · simp only [blank, Bool.or_eq_false_iff, beq_eq_false_iff_ne]
        refine ⟨⟨⟨?_, ?_⟩, ?_⟩, ?_⟩ <;> rintro rfl <;> exact absurd h1 (by decide)
      · rintro rfl; exact absurd h2 (by decide)

theorem replace_lines (e : E) : ∀ ws : List Str, replaceAux b!"{cp}" (itoa (eng.currentPage e)) 0 (ws.flatMap (· ++ [32])) =
    (ws.map (onPage eng e)).flatMap (· ++ [32])
  | [] => rfl
  | w :: ws => by
    simp only [List.flatMap_cons, List.map_cons, List.append_assoc, List.cons_append, List.nil_append]
    rw [replace_over (by simp) (by decide), replace_lines e ws]; rfl

/-- The pieces the processor cuts a text into are its words, with the page number in them. -/
theorem split_norm_words (e : E) {t : Str} (h : Worded t) :
    split 32 (norm eng e t) = (cutWords t).map (onPage eng e) ∧ norm eng e t ≠ [] := by
  have hw := cutWords_isWord h.2
  rw [← norm_sameWords]
  simp only [norm, tr, whitespaceRectified_eq, replaceAll]
  rw [if_neg (by simp), replace_lines]
  cases hc : cutWords t with
  | nil => exact absurd hc h.1
  | cons w ws =>
    rw [hc] at hw
    have hm : ∀ v ∈ onPage eng e w :: ws.map (onPage eng e), IsWord v := by
      intro v hv
      rw [← List.map_cons, List.mem_map] at hv
      obtain ⟨u, hu, rfl⟩ := hv
      exact onPage_isWord eng e (hw u hu)
    simp only [List.map_cons]
    rw [rectified_line _ _ hm]
    refine ⟨split_words _ _ hm, ?_⟩
    have := (hm _ (List.mem_cons_self ..)).1
    simp [this]

theorem cutFrom_letters : ∀ (w v : Str), (∀ c ∈ w, blank c = false) → cutFrom v w = [v ++ w].filter (· ≠ [])
  | [], v, _ => by simp [cutFrom]
  | c :: w, v, h => by
    simp only [cutFrom, h c (List.mem_cons_self ..), Bool.false_eq_true, if_false]
    rw [cutFrom_letters w _ (fun d hd => h d (List.mem_cons_of_mem _ hd))]
    simp

theorem word_worded {w : Str} (h : IsWord w) : Worded w ∧ cutWords w = [w] := by
  have : cutWords w = [w] := by
    rw [cutWords, cutFrom_letters w [] (fun c hc => (h.2 c hc).1)]
    simp [h.1]
  exact ⟨⟨by simp [this], fun hm => (h.2 92 hm).2 rfl⟩, this⟩

theorem split_norm_word (e : E) {w : Str} (h : IsWord w) : split 32 (norm eng e w) = [onPage eng e w] ∧ norm eng e w ≠ [] := by
  have := split_norm_words eng e (word_worded h).1
  rwa [(word_worded h).2] at this

variable (k : FontAgain eng) (cs : Classes)
include k

theorem changeFont_again (f : Font) (s : PState E) : changeFont eng f (changeFont eng f s) = changeFont eng f s := by
  simp only [changeFont, k.again]

theorem onPage_font (f : Font) (s : PState E) (w : Str) : onPage eng (changeFont eng f s).eng w = onPage eng s.eng w := by
  simp only [onPage, changeFont, k.page]

/-- Paragraphs of a word each, in the same style, the font of which is chosen already. -/
theorem linesLoop_words (width : ℚ) (sty : Styles) (st : Styled) (iss : List Instr) (s : PState E) :
    ∀ (ws : List Str), (∀ w ∈ ws, IsWord w) → ∀ acc,
    linesLoop eng cs width sty (ws.map (.paragraph st) ++ iss) acc (changeFont eng (st.mutatedStyles cs sty).font s) =
      linesLoop eng cs width sty iss ((ws.map (onPage eng s.eng)).foldl
        (wrapWord (fun w => eng.textWidth w (changeFont eng (st.mutatedStyles cs sty).font s).eng) width (st.mutatedStyles cs sty)) acc)
        (changeFont eng (st.mutatedStyles cs sty).font s)
  | [], _, _ => rfl
  | w :: ws, h, acc => by
    have hw := split_norm_word eng (changeFont eng (st.mutatedStyles cs sty).font s).eng (h w (List.mem_cons_self ..))
    have ih := linesLoop_words width sty st iss s ws (fun v hv => h v (List.mem_cons_of_mem _ hv))
    rw [onPage_font eng k] at hw
    simp only [List.map_cons, List.cons_append]
    rw [linesLoop_step eng width sty (by simp)]
    simp only [Model.textOf, hw.1, if_neg hw.2, changeFont_again eng k, List.foldl_cons, List.foldl_nil, ih]

theorem linesLoopHyph_words (hyph : Str → List Str) (width : ℚ) (sty : Styles) (st : Styled) (iss : List Instr) (s : PState E) :
    ∀ (ws : List Str), (∀ w ∈ ws, IsWord w) → ∀ acc,
    linesLoopHyph eng hyph cs width sty (ws.map (.paragraph st) ++ iss) acc (changeFont eng (st.mutatedStyles cs sty).font s) =
      linesLoopHyph eng hyph cs width sty iss ((ws.map (onPage eng s.eng)).foldl
        (wrapWordHyph hyph (fun w => eng.textWidth w (changeFont eng (st.mutatedStyles cs sty).font s).eng) width (st.mutatedStyles cs sty)) acc)
        (changeFont eng (st.mutatedStyles cs sty).font s)
  | [], _, _ => rfl
  | w :: ws, h, acc => by
    have hw := split_norm_word eng (changeFont eng (st.mutatedStyles cs sty).font s).eng (h w (List.mem_cons_self ..))
    have ih := linesLoopHyph_words hyph width sty st iss s ws (fun v hv => h v (List.mem_cons_of_mem _ hv))
    rw [onPage_font eng k] at hw
    simp only [List.map_cons, List.cons_append]
    rw [linesLoopHyph_step eng hyph width sty (by simp)]
    simp only [Model.textOf, hw.1, changeFont_again eng k, List.foldl_cons, List.foldl_nil, ih]

omit k in
/-- The first word chooses the font. -/
theorem linesLoop_chosen (width : ℚ) (sty : Styles) (st : Styled) (iss : List Instr) (s : PState E) (k : FontAgain eng)
    {ws : List Str} (h0 : ws ≠ []) (h : ∀ w ∈ ws, IsWord w) (acc) :
    linesLoop eng cs width sty (ws.map (.paragraph st) ++ iss) acc s =
      linesLoop eng cs width sty (ws.map (.paragraph st) ++ iss) acc (changeFont eng (st.mutatedStyles cs sty).font s) := by
  cases ws with
  | nil => exact absurd rfl h0
  | cons w ws =>
    have hw := split_norm_word eng (changeFont eng (st.mutatedStyles cs sty).font s).eng (h w (List.mem_cons_self ..))
    have hw' := split_norm_word eng s.eng (h w (List.mem_cons_self ..))
    rw [onPage_font eng k] at hw
    simp only [List.map_cons, List.cons_append]
    rw [linesLoop_step eng width sty (by simp), linesLoop_step eng width sty (by simp)]
    simp only [Model.textOf, hw.1, if_neg hw.2, hw'.1, if_neg hw'.2, changeFont_again eng k]

omit k in
theorem linesLoopHyph_chosen (hyph : Str → List Str) (width : ℚ) (sty : Styles) (st : Styled) (iss : List Instr) (s : PState E) (k : FontAgain eng)
    {ws : List Str} (h0 : ws ≠ []) (h : ∀ w ∈ ws, IsWord w) (acc) :
    linesLoopHyph eng hyph cs width sty (ws.map (.paragraph st) ++ iss) acc s =
      linesLoopHyph eng hyph cs width sty (ws.map (.paragraph st) ++ iss) acc (changeFont eng (st.mutatedStyles cs sty).font s) := by
  cases ws with
  | nil => exact absurd rfl h0
  | cons w ws =>
    have hw := split_norm_word eng (changeFont eng (st.mutatedStyles cs sty).font s).eng (h w (List.mem_cons_self ..))
    have hw' := split_norm_word eng s.eng (h w (List.mem_cons_self ..))
    rw [onPage_font eng k] at hw
    simp only [List.map_cons, List.cons_append]
    rw [linesLoopHyph_step eng hyph width sty (by simp), linesLoopHyph_step eng hyph width sty (by simp)]
    simp only [Model.textOf, hw.1, hw'.1, changeFont_again eng k]

omit k in
theorem AllWorded.tail {i : Instr} {iss : List Instr} (h : AllWorded (i :: iss)) : AllWorded iss :=
  ⟨fun t ht => h.1 t (List.mem_cons_of_mem _ ht), fun st t ht => h.2 st t (List.mem_cons_of_mem _ ht)⟩

theorem linesLoop_wordwise (width : ℚ) (sty : Styles) : ∀ (iss : List Instr), AllWorded iss → ∀ acc s,
    linesLoop eng cs width sty (wordwise iss) acc s = linesLoop eng cs width sty iss acc s
  | [], _, _, _ => rfl
  | i :: iss, h, acc, s => by
    have ih := linesLoop_wordwise width sty iss (AllWorded.tail h)
    have text : ∀ (st : Styled) (t : Str), Worded t → Model.textOf cs sty i = some (st.mutatedStyles cs sty, t) → i ≠ .lineBreak →
        linesLoop eng cs width sty ((cutWords t).map (.paragraph st) ++ wordwise iss) acc s = linesLoop eng cs width sty (i :: iss) acc s := by
      intro st t ht hi hb
      rw [linesLoop_chosen eng cs width sty st _ s k ht.1 (cutWords_isWord ht.2), linesLoop_words eng k cs width sty st _ s _ (cutWords_isWord ht.2),
        linesLoop_step eng width sty hb, hi]
      have := split_norm_words eng s.eng ht
      simp only [this.1, if_neg this.2, ih]
    cases i with
    | textBlock t => exact text ⟨[], []⟩ t (h.1 t (List.mem_cons_self ..)) rfl (by simp)
    | paragraph st t => exact text st t (h.2 st t (List.mem_cons_self ..)) rfl (by simp)
    | _ => simp only [wordwise, linesLoop, Model.textOf, ih]

theorem linesLoopHyph_wordwise (hyph : Str → List Str) (width : ℚ) (sty : Styles) : ∀ (iss : List Instr), AllWorded iss → ∀ acc s,
    linesLoopHyph eng hyph cs width sty (wordwise iss) acc s = linesLoopHyph eng hyph cs width sty iss acc s
  | [], _, _, _ => rfl
  | i :: iss, h, acc, s => by
    have ih := linesLoopHyph_wordwise hyph width sty iss (AllWorded.tail h)
    have text : ∀ (st : Styled) (t : Str), Worded t → Model.textOf cs sty i = some (st.mutatedStyles cs sty, t) → i ≠ .lineBreak →
        linesLoopHyph eng hyph cs width sty ((cutWords t).map (.paragraph st) ++ wordwise iss) acc s =
          linesLoopHyph eng hyph cs width sty (i :: iss) acc s := by
      intro st t ht hi hb
      rw [linesLoopHyph_chosen eng cs hyph width sty st _ s k ht.1 (cutWords_isWord ht.2),
        linesLoopHyph_words eng k cs hyph width sty st _ s _ (cutWords_isWord ht.2), linesLoopHyph_step eng hyph width sty hb, hi]
      have := split_norm_words eng s.eng ht
      simp only [this.1, ih]
    cases i with
    | textBlock t => exact text ⟨[], []⟩ t (h.1 t (List.mem_cons_self ..)) rfl (by simp)
    | paragraph st t => exact text st t (h.2 st t (List.mem_cons_self ..)) rfl (by simp)
    | _ => simp only [wordwise, linesLoopHyph, Model.textOf, ih]

omit k in
theorem linesLoop_boxwise (width : ℚ) (sty : Styles) : ∀ (iss : List Instr) (acc) (s : PState E),
    linesLoop eng cs width sty (iss.map boxwise) acc s = linesLoop eng cs width sty iss acc s
  | [], _, _ => rfl
  | i :: iss, acc, s => by
    have ih := linesLoop_boxwise width sty iss
    cases i <;> simp only [List.map_cons, boxwise, linesLoop, Model.textOf, ih]

omit k in
theorem linesLoopHyph_boxwise (hyph : Str → List Str) (width : ℚ) (sty : Styles) : ∀ (iss : List Instr) (acc) (s : PState E),
    linesLoopHyph eng hyph cs width sty (iss.map boxwise) acc s = linesLoopHyph eng hyph cs width sty iss acc s
  | [], _, _ => rfl
  | i :: iss, acc, s => by
    have ih := linesLoopHyph_boxwise hyph width sty iss
    cases i <;> simp only [List.map_cons, boxwise, linesLoopHyph, Model.textOf, ih]

end

/-! ### Texts, boxes and cells -/

theorem wordwise_pos : ∀ {iss : List Instr}, AllWorded iss → ((wordwise iss).length > 0 ↔ iss.length > 0)
  | [], _ => Iff.rfl
  | i :: iss, h => by
    have text : ∀ {t : Str} (f : Str → Instr), Worded t → 0 < ((cutWords t).map f ++ wordwise iss).length := by
      intro t f ht
      have := List.length_pos_of_ne_nil ht.1
      simp only [List.length_append, List.length_map]
      omega
    cases i with
    | textBlock t => exact iff_of_true (text _ (h.1 t (List.mem_cons_self ..))) (by simp)
    | paragraph st t => exact iff_of_true (text _ (h.2 st t (List.mem_cons_self ..))) (by simp)
    | _ => exact iff_of_true (by simp [wordwise]) (by simp)

/-- Contents that are written and measured the same way. -/
structure SameText {E : Type} (eng : Engine E) (iss iss' : List Instr) : Prop where
  plain : ∀ cs width sty acc (s : PState E), linesLoop eng cs width sty iss' acc s = linesLoop eng cs width sty iss acc s
  block : ∀ hyph cs width sty acc (s : PState E), linesLoopHyph eng hyph cs width sty iss' acc s = linesLoopHyph eng hyph cs width sty iss acc s
  pos : iss'.length > 0 ↔ iss.length > 0

section
variable {E : Type} {eng : Engine E}

theorem sameText_wordwise (k : FontAgain eng) {iss : List Instr} (h : AllWorded iss) : SameText eng iss (wordwise iss) :=
  ⟨fun cs w sty acc s => linesLoop_wordwise eng k cs w sty iss h acc s,
    fun hy cs w sty acc s => linesLoopHyph_wordwise eng k cs hy w sty iss h acc s, wordwise_pos h⟩

theorem allWorded_boxwise {iss : List Instr} (h : AllWorded iss) : AllWorded (iss.map boxwise) := by
  refine ⟨fun t ht => ?_, fun st t ht => ?_⟩ <;> obtain ⟨i, hi, he⟩ := List.mem_map.mp ht <;> cases i <;> simp only [boxwise, reduceCtorEq] at he
  · cases he; exact h.1 _ hi
  · cases he; exact h.2 _ _ hi

theorem sameText_cellwise (k : FontAgain eng) {iss : List Instr} (h : AllWorded iss) : SameText eng iss (cellwise iss) := by
  have hb := sameText_wordwise k (allWorded_boxwise h)
  exact ⟨fun cs w sty acc s => (hb.plain cs w sty acc s).trans (linesLoop_boxwise eng cs w sty iss acc s),
    fun hy cs w sty acc s => (hb.block hy cs w sty acc s).trans (linesLoopHyph_boxwise eng cs hy w sty iss acc s),
    hb.pos.trans (by simp)⟩

variable {iss iss' : List Instr} (h : SameText eng iss iss')
include h

theorem textLines_same (cs : Classes) (width : ℚ) (sty : Styles) : textLines eng cs iss' width sty = textLines eng cs iss width sty := by
  funext s; simp only [textLines, h.plain]

theorem textLinesHyphenated_same (hyph : Str → List Str) (cs : Classes) (width : ℚ) (sty : Styles) :
    textLinesHyphenated eng hyph cs iss' width sty = textLinesHyphenated eng hyph cs iss width sty := by
  funext s; simp only [textLinesHyphenated, h.block]

theorem textHeight_same (cs : Classes) (width : ℚ) (sty : Styles) : textHeight eng cs iss' width sty = textHeight eng cs iss width sty := by
  funext s; simp only [textHeight, textLines_same h]

theorem textHeightFnc_same (ctx : Ctx) (sty : Styles) (width : ℚ) :
    textHeightFnc eng ctx sty iss' width = textHeightFnc eng ctx sty iss width := by
  funext s
  simp only [textHeightFnc, textHeightHyphenated, textLinesHyphenated_same h, textHeight_same h]

theorem writeTextFnc_same (ctx : Ctx) (c : Calls E) (width : ℚ) (sty : Styles) :
    writeTextFnc eng ctx c iss' width sty = writeTextFnc eng ctx c iss width sty := by
  simp only [writeTextFnc, writeTextHyphenated, writeText, textLines_same h, textLinesHyphenated_same h]

theorem renderText_same (ctx : Ctx) (c : Calls E) (st : Styled) : renderText eng ctx c st iss' = renderText eng ctx c st iss := by
  have h0 : iss'.length = 0 ↔ iss.length = 0 := by have := h.pos; omega
  simp only [renderText, h0, writeTextFnc_same h]

theorem boxHeight_same (ctx : Ctx) (sty : Styles) (width : ℚ) : boxHeight eng ctx sty iss' width = boxHeight eng ctx sty iss width := by
  simp only [boxHeight, h.pos, textHeightFnc_same h]

theorem textBoxHeight_same (ctx : Ctx) (st : Styled) (pa : Area) : textBoxHeight eng ctx st iss' pa = textBoxHeight eng ctx st iss pa := by
  simp only [textBoxHeight, boxHeight_same h]

theorem renderTextBox_same (ctx : Ctx) (c : Calls E) (st : Styled) (pa : Area) :
    renderTextBox eng ctx c st iss' pa = renderTextBox eng ctx c st iss pa := by
  simp only [renderTextBox, boxHeight_same h, h.pos, writeTextFnc_same h]

end

section
variable {E : Type} {eng : Engine E} (k : FontAgain eng) (ctx : Ctx) (c : Calls E)

theorem renderCellItems_words (v : Str) (padded : Area) (st : Styled) (iss : List Instr) : ∀ ws : List Str,
    renderCellItems eng ctx c v padded (ws.map (.paragraph st) ++ iss) = renderCellItems eng ctx c v padded iss
  | [] => rfl
  | w :: ws => by
    simp only [List.map_cons, List.cons_append, renderCellItems]
    exact renderCellItems_words v padded st iss ws

include k
theorem renderCellItems_cellwise (v : Str) (padded : Area) : ∀ {iss : List Instr}, (∀ st l, .box st l ∈ iss → AllWorded l) →
    renderCellItems eng ctx c v padded (cellwise iss) = renderCellItems eng ctx c v padded iss
  | [], _ => rfl
  | i :: iss, h => by
    have ih := renderCellItems_cellwise v padded (iss := iss) (fun st l hl => h st l (List.mem_cons_of_mem _ hl))
    rw [cellwise] at ih
    cases i with
    | textBlock t => simp only [cellwise, List.map_cons, boxwise, wordwise, renderCellItems_words, renderCellItems, ih]
    | paragraph st t => simp only [cellwise, List.map_cons, boxwise, wordwise, renderCellItems_words, renderCellItems, ih]
    | box st l =>
      have hl := sameText_wordwise k (h st l (List.mem_cons_self ..))
      simp only [cellwise, List.map_cons, boxwise, wordwise, renderCellItems, textBoxHeight_same hl, renderTextBox_same hl, ih]
    | _ => simp only [cellwise, List.map_cons, boxwise, wordwise, renderCellItems, ih]

theorem renderCell_cellwise {iss : List Instr} (h : CellWorded iss) (pa : Area) (sty : Styles) :
    renderCell eng ctx c pa sty (cellwise iss) = renderCell eng ctx c pa sty iss := by
  have hs := sameText_cellwise k h.1
  simp only [renderCell, renderCellText, hs.pos, textHeight_same hs, writeTextFnc_same hs, renderCellItems_cellwise k ctx c _ _ h.2]

/-! ### Tables -/

/-- The contents of a cell and the same with every word in a paragraph of its own. -/
def Cellwise (iss iss' : List Instr) : Prop := CellWorded iss ∧ iss' = cellwise iss

omit k in
theorem cellwise_nil : Cellwise [] [] := ⟨⟨⟨by simp, by simp⟩, by simp⟩, rfl⟩

instance : Seen Eq Cellwise where
  refl _ := rfl
  nil := cellwise_nil
  columnWidth h := by rw [h]
  height h := by rw [h]
  padding h := by rw [h]

/-- The rows of a table, every word in a paragraph of its own. -/
def rowswise (rows : List TableRow) : List TableRow :=
  rows.map fun r => .mk r.st (r.cells.map fun c => .mk c.st c.colSpan c.rowSpan (cellwise c.iss))

omit k in
theorem makeCells_wise (cs : Classes) (rowSty : Styles) (n : Nat) : ∀ (ic : Nat) (xcs : List TableCell) {heap heap' : List TCell},
    (∀ x ∈ xcs, CellWorded x.iss) → List.Forall₂ (CellLike Eq Cellwise) heap heap' →
    List.Forall₂ (CellLike Eq Cellwise) (makeCells cs rowSty n ic xcs heap).1
        (makeCells cs rowSty n ic (xcs.map fun c => .mk c.st c.colSpan c.rowSpan (cellwise c.iss)) heap').1 ∧
      (makeCells cs rowSty n ic (xcs.map fun c => .mk c.st c.colSpan c.rowSpan (cellwise c.iss)) heap').2 = (makeCells cs rowSty n ic xcs heap).2
  | _, [], _, _, _, hh => ⟨hh, rfl⟩
  | ic, x :: xcs, heap, heap', hx, hh => by
      simp only [List.map_cons, makeCells, hh.length_eq.symm]
      have := makeCells_wise cs rowSty n (ic + 1) xcs (heap := heap ++ [{ TCell.new with
        styles := cellStyles cs rowSty n ic x.st, colSpan := x.colSpan, rowSpan := x.rowSpan, iss := x.iss }])
        (heap' := heap' ++ [{ TCell.new with styles := cellStyles cs rowSty n ic x.st, colSpan := x.colSpan, rowSpan := x.rowSpan, iss := cellwise x.iss }])
        (fun y hy => hx y (List.mem_cons_of_mem _ hy))
        (rel_append hh (.cons ⟨⟨hx x (List.mem_cons_self ..), rfl⟩, rfl, rfl⟩ .nil))
      exact ⟨this.1, congrArg (heap.length :: ·) this.2⟩

omit k in
theorem makeRows_wise (cs : Classes) (tabSty : Styles) (n : Nat) : ∀ (ir : Nat) (xrs : List TableRow) {heap heap' : List TCell},
    (∀ r ∈ xrs, ∀ x ∈ r.cells, CellWorded x.iss) → List.Forall₂ (CellLike Eq Cellwise) heap heap' →
    List.Forall₂ (CellLike Eq Cellwise) (makeRows cs tabSty n ir xrs heap).1 (makeRows cs tabSty n ir (rowswise xrs) heap').1 ∧
      (makeRows cs tabSty n ir (rowswise xrs) heap').2 = (makeRows cs tabSty n ir xrs heap).2
  | _, [], _, _, _, hh => ⟨hh, rfl⟩
  | ir, r :: xrs, heap, heap', hx, hh => by
      have h1 := makeCells_wise cs (rowStyles cs tabSty n ir r.st) r.cells.length 0 r.cells (hx r (List.mem_cons_self ..)) hh
      have h2 := makeRows_wise cs tabSty n (ir + 1) xrs (fun y hy => hx y (List.mem_cons_of_mem _ hy)) h1.1
      simp only [rowswise] at h2
      have hs : ∀ cells, (TableRow.mk r.st cells).st = r.st := fun _ => rfl
      have hc : ∀ cells, (TableRow.mk r.st cells).cells = cells := fun _ => rfl
      simp only [rowswise, List.map_cons, makeRows, hs, hc, List.length_map]
      exact ⟨h2.1, by rw [h2.2, h1.2]⟩

/-- The layout of a table. -/
theorem transformTable_wise (page : Page) (curr : Styles) (st : Styled) {xrows : List TableRow}
    (h : ∀ r ∈ xrows, ∀ x ∈ r.cells, CellWorded x.iss) (s : PState E) :
    OptLike (fun a b => TabLike Eq Cellwise a.1 b.1 ∧ b.2 = a.2) (transformTable (textHeightFnc eng ctx) ctx.classes page curr st xrows s)
      (transformTable (textHeightFnc eng ctx) ctx.classes page curr st (rowswise xrows) s) := by
  simp only [transformTable]
  have h0 : TabLike Eq Cellwise (makeTable ctx.classes (st.mutatedStyles ctx.classes curr) xrows)
      (makeTable ctx.classes (st.mutatedStyles ctx.classes curr) (rowswise xrows)) := by
    have := makeRows_wise ctx.classes (st.mutatedStyles ctx.classes curr) xrows.length 0 xrows h (heap := []) (heap' := []) .nil
    have hl : (rowswise xrows).length = xrows.length := by simp [rowswise]
    simp only [makeTable, hl]
    exact ⟨this.2, rfl, this.1⟩
  have hm : ∀ (sty sty' : Styles) iss iss' w (s : PState E), sty = sty' → Cellwise iss iss' →
      textHeightFnc eng ctx sty' iss' w s = textHeightFnc eng ctx sty iss w s := by
    rintro sty _ iss _ w s rfl ⟨hi, rfl⟩
    rw [textHeightFnc_same (sameText_cellwise k hi.1)]
  have h1 := processSpans_like h0
  revert h1
  cases processSpans (makeTable ctx.classes (st.mutatedStyles ctx.classes curr) xrows) <;>
    cases processSpans (makeTable ctx.classes (st.mutatedStyles ctx.classes curr) (rowswise xrows)) <;> intro h1
  · trivial
  · exact h1.elim
  · exact h1.elim
  · rename_i t t'
    have h2 := assignColumnWidths_like (page.effectiveWidth (st.mutatedStyles ctx.classes curr).dim.width) h1
    simp only
    revert h2
    cases assignColumnWidths (page.effectiveWidth (st.mutatedStyles ctx.classes curr).dim.width) t <;>
      cases assignColumnWidths (page.effectiveWidth (st.mutatedStyles ctx.classes curr).dim.width) t' <;> intro h2
    · trivial
    · exact h2.elim
    · exact h2.elim
    · exact assignHeights_like hm h2 s

theorem tableOps_wise {t t' : Tab} (h : TabLike Eq Cellwise t t') : tableOps eng ctx c t' = tableOps eng ctx c t := by
  have : ∀ pa id, renderCell eng ctx c pa (t.cell id).styles (t'.cell id).iss = renderCell eng ctx c pa (t.cell id).styles (t.cell id).iss := by
    intro pa id
    rw [(h.cell id).iss.2, renderCell_cellwise k ctx c (h.cell id).iss.1]
  simp only [tableOps, ← (h.cell _).styles, this]

theorem renderTable_wise (st : Styled) (rh : Int) {rows : List TableRow} (h : ∀ r ∈ rows, ∀ x ∈ r.cells, CellWorded x.iss) :
    renderTable eng ctx c st rh (rowswise rows) = renderTable eng ctx c st rh rows := by
  simp only [renderTable]
  congr 1
  funext s
  have ht := transformTable_wise k ctx (Page.mk (eng.printableArea s.eng)) s.curr st h s
  revert ht
  cases transformTable (textHeightFnc eng ctx) ctx.classes (Page.mk (eng.printableArea s.eng)) s.curr st rows s <;>
    cases transformTable (textHeightFnc eng ctx) ctx.classes (Page.mk (eng.printableArea s.eng)) s.curr st (rowswise rows) s <;> intro ht
  · rfl
  · exact ht.elim
  · exact ht.elim
  · rename_i a b
    obtain ⟨t, s1⟩ := a
    obtain ⟨t', s2⟩ := b
    obtain ⟨h1, rfl⟩ := ht
    have h2 := h1.columnCount
    simp only at h1 h2
    simp only [h2, tableOps_wise k ctx c h1, renderLaid_like _ h1]

/-! ### Documents -/

theorem processInstr_wise {i : Instr} (h : InstrWorded i) : processInstr eng ctx c (instrwise i) = processInstr eng ctx c i := by
  cases i with
  | text st iss => simp only [instrwise, processInstr, renderText_same (sameText_wordwise k h)]
  | box st iss => simp only [instrwise, processInstr, renderTextBox_same (sameText_wordwise k h)]
  | table st rh rows =>
    have := renderTable_wise k ctx c st rh h
    simp only [rowswise] at this
    simp only [instrwise, processInstr, this]
  | _ => rfl

theorem processInstrs_wise : ∀ {iss : List Instr}, (∀ i ∈ iss, InstrWorded i) →
    processInstrs eng ctx c (iss.map instrwise) = processInstrs eng ctx c iss
  | [], _ => rfl
  | i :: iss, h => by
    simp only [List.map_cons, processInstrs, processInstr_wise k ctx c (h i (List.mem_cons_self ..)),
      processInstrs_wise (fun j hj => h j (List.mem_cons_of_mem _ hj))]

end

/-! What processing instructions needs to know of the document: not the header, footer and body. -/

section
variable {E : Type} (eng : Engine E) (ctx : Ctx) (c : Calls E) (x y z : List Instr)

theorem renderCellItems_parts (v : Str) (pa : Area) (iss : List Instr) :
    renderCellItems eng { ctx with header := x, footer := y, body := z } c v pa iss = renderCellItems eng ctx c v pa iss := by
  induction iss with
  | nil => rfl
  | cons i iss ih => cases i <;> simp only [renderCellItems, ih] <;> rfl

theorem renderCell_parts (pa : Area) (sty : Styles) (iss : List Instr) :
    renderCell eng { ctx with header := x, footer := y, body := z } c pa sty iss = renderCell eng ctx c pa sty iss := by
  unfold renderCell
  simp only [renderCellItems_parts]
  rfl

theorem renderTable_parts (st : Styled) (rh : Int) (rows : List TableRow) :
    renderTable eng { ctx with header := x, footer := y, body := z } c st rh rows = renderTable eng ctx c st rh rows := by
  have h : ∀ t, tableOps eng { ctx with header := x, footer := y, body := z } c t = tableOps eng ctx c t := fun t => by
    unfold tableOps
    simp only [renderCell_parts]
  unfold renderTable
  simp only [h]
  rfl

theorem processInstrs_parts (iss : List Instr) :
    processInstrs eng { ctx with header := x, footer := y, body := z } c iss = processInstrs eng ctx c iss := by
  induction iss with
  | nil => rfl
  | cons i iss ih =>
    have : processInstr eng { ctx with header := x, footer := y, body := z } c i = processInstr eng ctx c i := by
      cases i
      case table => exact renderTable_parts eng ctx c x y z _ _ _
      all_goals rfl
    simp only [processInstrs, this, ih]

end

section
variable {E : Type} {eng : Engine E} (k : FontAgain eng) (ctx : Ctx)

/-- The document with every word in a paragraph of its own, as the processor sees it. -/
def ctxwise (ctx : Ctx) : Ctx :=
  { ctx with header := ctx.header.map instrwise, footer := ctx.footer.map instrwise, body := ctx.body.map instrwise }

variable (hh : ∀ i ∈ ctx.header, InstrWorded i) (hf : ∀ i ∈ ctx.footer, InstrWorded i)
include k hh hf

theorem runWith_wise {α : Type} (c : Calls E) (op : E → Prog E α) : runWith eng (ctxwise ctx) c op = runWith eng ctx c op := by
  funext s
  simp only [runWith, callback, ctxwise, processInstrs_parts, processInstrs_wise k ctx c hh, processInstrs_wise k ctx c hf]

theorem callsAt_wise (n : Nat) : callsAt eng (ctxwise ctx) n = callsAt eng ctx n := by
  induction n with
  | zero => rfl
  | succ n ih => simp only [callsAt, ih, runWith_wise k ctx hh hf]

theorem process_wise (hb : ∀ i ∈ ctx.body, InstrWorded i) (n : Nat) : process eng (ctxwise ctx) n = process eng ctx n := by
  have h : ∀ c : Calls E, processInstrs eng (ctxwise ctx) c (ctxwise ctx).body = processInstrs eng ctx c ctx.body := by
    intro c
    simp only [ctxwise, processInstrs_parts, processInstrs_wise k ctx c hb]
  simp only [process, callsAt_wise k ctx hh hf, runWith_wise k ctx hh hf, h]

end
end Verif.Proofs
