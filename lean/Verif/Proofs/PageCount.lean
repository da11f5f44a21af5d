import Verif.Spec.PageCount
import Verif.Proofs.PageNumber
import Verif.Proofs.Content
/-
Counting the page count placeholder (for C74).
-/
namespace Verif.Proofs
open Verif.Go Verif.Model Verif.Spec

/-- One step of searching: how much of the placeholder stands before, and whether it is complete. -/
def npStep (k : Fin 4) (c : UInt8) : Fin 4 × Nat :=
  if k = 0 then (if c = 123 then (1, 0) else (0, 0))
  else if k = 1 then (if c = 110 then (2, 0) else if c = 123 then (1, 0) else (0, 0))
  else if k = 2 then (if c = 112 then (3, 0) else if c = 123 then (1, 0) else (0, 0))
  else (if c = 125 then (0, 1) else if c = 123 then (1, 0) else (0, 0))

/-- Searching from left to right. -/
def npCount : Fin 4 → Str → Nat
  | _, [] => 0
  | k, c :: s => (npStep k c).2 + npCount (npStep k c).1 s

/-- The state after a text. -/
def npAfter : Fin 4 → Str → Fin 4
  | k, [] => k
  | k, c :: s => npAfter (npStep k c).1 s

theorem npCount_append (k : Fin 4) (a b : Str) : npCount k (a ++ b) = npCount k a + npCount (npAfter k a) b := by
  induction a generalizing k with
  | nil => simp [npCount, npAfter]
  | cons c a ih => simp [npCount, npAfter, ih, Nat.add_assoc]

theorem npCount_eq (s : Str) : npCount 0 s = occ s ∧ npCount 1 s = occ (123 :: s) ∧ npCount 2 s = occ (123 :: 110 :: s) ∧
    npCount 3 s = occ (123 :: 110 :: 112 :: s) := by
  induction s with
  | nil => refine ⟨?_, ?_, ?_, ?_⟩ <;> simp [npCount, occ]
  | cons c s ih =>
    obtain ⟨h0, h1, h2, h3⟩ := ih
    refine ⟨?_, ?_, ?_, ?_⟩
    · by_cases e : c = 123
      · subst e; simp only [npCount, npStep, if_true, h1, Nat.zero_add]
      · have : npStep 0 c = (0, 0) := by simp [npStep, e]
        simp only [npCount, this, h0, occ, List.cons_prefix_cons]
        simp [Ne.symm e]
    · by_cases e : c = 110
      · subst e
        have : npStep 1 110 = (2, 0) := by decide
        simp only [npCount, this, h2, Nat.zero_add]
      · by_cases e' : c = 123
        · subst e'
          have : npStep 1 123 = (1, 0) := by decide
          simp only [npCount, this, h1, occ, List.cons_prefix_cons]
          simp
        · have : npStep 1 c = (0, 0) := by simp [npStep, e, e']
          simp only [npCount, this, h0, occ, List.cons_prefix_cons]
          simp [Ne.symm e, Ne.symm e']
    · by_cases e : c = 112
      · subst e
        have : npStep 2 112 = (3, 0) := by decide
        simp only [npCount, this, h3, Nat.zero_add]
      · by_cases e' : c = 123
        · subst e'
          have : npStep 2 123 = (1, 0) := by decide
          simp only [npCount, this, h1, occ, List.cons_prefix_cons]
          simp
        · have : npStep 2 c = (0, 0) := by simp [npStep, e, e']
          simp only [npCount, this, h0, occ, List.cons_prefix_cons]
          simp [Ne.symm e, Ne.symm e']
    · by_cases e : c = 125
      · subst e
        have : npStep 3 125 = (0, 1) := by decide
        simp only [npCount, this, h0, occ, List.cons_prefix_cons]
        simp
      · by_cases e' : c = 123
        · subst e'
          have : npStep 3 123 = (1, 0) := by decide
          simp only [npCount, this, h1, occ, List.cons_prefix_cons]
          simp
        · have : npStep 3 c = (0, 0) := by simp [npStep, e, e']
          simp only [npCount, this, h0, occ, List.cons_prefix_cons]
          simp [Ne.symm e, Ne.symm e']

theorem occ_eq (s : Str) : occ s = npCount 0 s := (npCount_eq s).1.symm

/-- A character that does not occur in the placeholder starts the search anew. -/
theorem npStep_other {c : UInt8} (h : c ≠ 123 ∧ c ≠ 110 ∧ c ≠ 112 ∧ c ≠ 125) (k : Fin 4) : npStep k c = (0, 0) := by
  unfold npStep
  simp [h]

theorem npCount_other {c : UInt8} (h : c ≠ 123 ∧ c ≠ 110 ∧ c ≠ 112 ∧ c ≠ 125) (k : Fin 4) (s : Str) : npCount k (c :: s) = npCount 0 s := by
  simp [npCount, npStep_other h]

theorem npCount_others : ∀ (a : Str), a ≠ [] → (∀ c ∈ a, c ≠ 123 ∧ c ≠ 110 ∧ c ≠ 112 ∧ c ≠ 125) → ∀ (k : Fin 4) (s : Str), npCount k (a ++ s) = npCount 0 s
  | [], h, _, _, _ => absurd rfl h
  | [c], _, h, k, s => npCount_other (h c (by simp)) k s
  | c :: d :: a, _, h, k, s => by
    rw [List.cons_append, npCount_other (h c (by simp))]
    exact npCount_others (d :: a) (by simp) (fun x hx => h x (by simp [hx])) 0 s

theorem blank_other {c : UInt8} (h : blank c = true) : c ≠ 123 ∧ c ≠ 110 ∧ c ≠ 112 ∧ c ≠ 125 := by
  refine ⟨?_, ?_, ?_, ?_⟩ <;> rintro rfl <;> exact absurd h (by decide)

/-- White space rectification neither breaks nor makes a placeholder. -/
theorem npCount_rectified : ∀ (s : Str) (p : Option UInt8) (g : Bool) (k k' : Fin 4), (g = false → k = k') → (g = true → k = 0) →
    (p = none → k' = 0 ∧ k = 0) → (p = some 92 → k' = 0) → npCount k' (rectified p g s) = npCount k s
  | [], _, _, _, _, _, _, _, _ => by simp [rectified, npCount]
  | c :: s, p, g, k, k', h1, h2, h3, h4 => by
    unfold rectified
    by_cases hb : blank c = true
    · rw [if_pos hb, npCount_other (blank_other hb)]
      exact npCount_rectified s p true 0 k' (by simp) (by simp) (fun h => ⟨(h3 h).1, rfl⟩) h4
    · rw [if_neg hb]
      have rest : ∀ j : Fin 4, npCount j (c :: rectified (some c) false s) = npCount j (c :: s) := by
        intro j
        simp only [npCount]
        rw [npCount_rectified s (some c) false (npStep j c).1 (npStep j c).1 (fun _ => rfl) (by simp) (by simp)
          (by intro h; rw [Option.some.inj h]; rw [npStep_other (by decide)])]
      cases p with
      | none => simp only; rw [rest, (h3 rfl).1, (h3 rfl).2]
      | some q =>
        simp only
        split
        · rename_i hg
          simp only [Bool.and_eq_true, bne_iff_ne, ne_eq] at hg
          rw [npCount_other (by decide), rest, h2 hg.1.1]
        · rename_i hg
          rw [rest]
          simp only [Bool.and_eq_true, bne_iff_ne, ne_eq, not_and, Decidable.not_not] at hg
          cases g with
          | false => rw [h1 rfl]
          | true =>
            rw [h2 rfl]
            by_cases hq : q = 92
            · rw [h4 (by rw [hq])]
            · rw [hg ⟨rfl, hq⟩, npCount_other (by decide), npCount_other (by decide)]

/-- Replacing page number placeholders neither breaks nor makes a page count placeholder. -/
theorem npCount_replaced (page : Int) (s : Str) : ∀ k, npCount k (replaceAux b!"{cp}" (itoa page) 0 s) = npCount k s := by
  refine replace_induction (old := b!"{cp}") (by decide) (P := fun s => ∀ k, npCount k (replaceAux b!"{cp}" (itoa page) 0 s) = npCount k s) ?_ ?_ ?_ s
  · intro k; rfl
  · intro r ih k
    obtain ⟨h1, h2⟩ := itoa_chars page
    rw [replaceAux_prefix (by decide), npCount_others _ h1, npCount_append, ih]
    · have : npCount k b!"{cp}" = 0 ∧ npAfter k b!"{cp}" = 0 := by revert k; decide
      rw [this.1, this.2, Nat.zero_add]
    · intro c hc
      rcases h2 c hc with rfl | ⟨h3, h4⟩
      · decide
      · refine ⟨?_, ?_, ?_, ?_⟩ <;> rintro rfl <;> exact absurd h4 (by decide)
  · intro c cs h ih k
    rw [replaceAux_not_prefix h]
    simp only [npCount, ih]

theorem sum_split : ∀ (s : Str), ((split 32 s).map occ).sum = occ s ∧ ∀ a as, split 32 s = a :: as → ∀ k, npCount k s = npCount k a + (as.map occ).sum
  | [] => by
    refine ⟨rfl, ?_⟩
    intro a as h k
    simp only [split, List.cons.injEq] at h
    simp [← h.1, ← h.2, npCount]
  | c :: s => by
    have key : ∀ a as, split 32 (c :: s) = a :: as → ∀ k, npCount k (c :: s) = npCount k a + (as.map occ).sum := by
      intro a as h k
      unfold split at h
      split at h
      · rename_i hc
        simp only [List.cons.injEq] at h
        rw [hc, npCount_other (by decide), ← h.1, ← h.2, (sum_split s).1, occ_eq]
        simp [npCount]
      · split at h
        · rename_i he
          exact absurd he (split_ne_nil 32 s)
        · rename_i b bs he
          simp only [List.cons.injEq] at h
          rw [← h.1, ← h.2]
          simp only [npCount]
          rw [(sum_split s).2 b bs he, Nat.add_assoc]
    refine ⟨?_, key⟩
    cases hs : split 32 (c :: s) with
    | nil => exact absurd hs (split_ne_nil 32 _)
    | cons a as => rw [occ_eq, key a as hs 0, List.map_cons, List.sum_cons, occ_eq]

/-- The words of a text hold as many placeholders as the text. -/
theorem occ_words (page : Int) (text : Str) : ((wordsOf page text).map occ).sum = occ text := by
  have h1 : ∀ l : List Str, ((l.filter (· ≠ [])).map occ).sum = (l.map occ).sum := by
    intro l
    induction l with
    | nil => rfl
    | cons a l ih =>
      by_cases ha : a = []
      · subst ha; simpa [occ] using ih
      · rw [List.filter_cons_of_pos (by simpa using ha), List.map_cons, List.map_cons, List.sum_cons, List.sum_cons, ih]
  unfold wordsOf piecesOf
  rw [h1, (sum_split _).1, occ_eq, npCount_rectified _ none false 0 0 (fun _ => rfl) (by simp) (fun _ => ⟨rfl, rfl⟩) (by simp)]
  have : replaceAll b!"{cp}" (itoa page) text = replaceAux b!"{cp}" (itoa page) 0 text := by simp [replaceAll]
  rw [this, npCount_replaced, occ_eq]

theorem occ_sourceWords (page : Int) (iss : List Instr) : ((sourceWords page iss).map occ).sum = occText iss := by
  induction iss with
  | nil => rfl
  | cons i iss ih =>
    cases i with
    | textBlock t => simp only [sourceWords, occText, List.map_append, List.sum_append, ih, occ_words]
    | paragraph st t => simp only [sourceWords, occText, List.map_append, List.sum_append, ih, occ_words]
    | _ => exact ih

theorem occ_zero_iff (s : Str) : occ s = 0 ↔ ¬ b!"{np}" <:+: s := by
  induction s with
  | nil => simp [occ]
  | cons c s ih => rw [occ, List.infix_cons_iff]; split <;> simp_all

theorem occ_space (w : Str) : occ (32 :: w) = occ w := by rw [occ_eq, occ_eq, npCount_other (by decide)]

theorem occ_hyphen (w : Str) : occ (w ++ [45]) = occ w := by
  rw [occ_eq, occ_eq, npCount_append, npCount_other (by decide)]
  rfl

/-- Words with a placeholder are not broken. -/
def KeepsNp (hyph : Str → List Str) : Prop := ∀ w, b!"{np}" <:+: w → (hyph w).length ≤ 1

theorem occ_written {hyph : Str → List Str} (hw : ∀ w, (hyph w).flatten <:+: w) (hk : KeepsNp hyph) {ws ts : List Str} (h : Written hyph ws ts) :
    (ts.map occ).sum = (ws.map occ).sum := by
  induction h with
  | nil => rfl
  | @whole w ws t ts ht _ ih =>
    simp only [List.map_cons, List.sum_cons, ih]
    rcases ht with rfl | rfl
    · rfl
    · rw [occ_space]
  | @broken w ws t u ts i h1 h2 ht hu _ ih =>
    have h0 : ¬ b!"{np}" <:+: w := fun h => absurd (Nat.lt_of_lt_of_le h2 (hk w h)) (by omega)
    have hfl : ((hyph w).take i).flatten ++ ((hyph w).drop i).flatten = (hyph w).flatten := by
      rw [← List.flatten_append, List.take_append_drop]
    have h3 : occ ((hyph w).take i).flatten = 0 := by
      rw [occ_zero_iff]
      exact fun h => h0 ((h.trans ⟨[], _, by rw [List.nil_append]; exact hfl⟩).trans (hw w))
    have h4 : occ ((hyph w).drop i).flatten = 0 := by
      rw [occ_zero_iff]
      exact fun h => h0 ((h.trans ⟨_, [], by rw [List.append_nil]; exact hfl⟩).trans (hw w))
    have h5 : occ t = 0 := by
      rcases ht with rfl | rfl
      · rw [occ_hyphen, h3]
      · rw [occ_space, occ_hyphen, h3]
    simp only [List.map_cons, List.sum_cons, ih, h5, hu, h4, (occ_zero_iff w).mpr h0, Nat.zero_add]
  | blank ht _ ih =>
    have : ∀ t : Str, (t = [] ∨ t = [32]) → occ t = 0 := by rintro t (rfl | rfl) <;> decide
    simp only [List.map_cons, List.sum_cons, ih, this _ ht, Nat.zero_add]

theorem occPuts_append (ps qs : List Put) : occPuts (ps ++ qs) = occPuts ps + occPuts qs := by
  induction ps with
  | nil => simp [occPuts]
  | cons p ps ih => cases p <;> simp [occPuts, ih, Nat.add_assoc]

theorem occPuts_texts (ts : List Str) : occPuts (ts.map .text) = (ts.map occ).sum := by
  induction ts with
  | nil => rfl
  | cons t ts ih => simp [occPuts, ih]

variable {m : Means}

theorem occ_text (hw : ∀ w, (m.hyph w).flatten <:+: w) (hk : KeepsNp m.hyph) {iss : List Instr} {ps : List Put} (h : TextPuts m iss ps) :
    occPuts ps = occText iss := by
  obtain ⟨page, ts, h1, rfl⟩ := h
  rw [occPuts_texts, occ_written hw hk h1, occ_sourceWords]

theorem occ_box (hw : ∀ w, (m.hyph w).flatten <:+: w) (hk : KeepsNp m.hyph) {iss : List Instr} {ps : List Put} (h : BoxPuts m iss ps) :
    occPuts ps = occText iss := by
  rcases h with h | ⟨qs, h, rfl⟩
  · exact occ_text hw hk h
  · exact (occ_text hw hk h : occPuts qs = _)

/-- Images and pages hold no text. -/
def PlainImages (m : Means) : Prop := ∀ src, occPuts (m.image src) = 0

theorem occ_items (hw : ∀ w, (m.hyph w).flatten <:+: w) (hk : KeepsNp m.hyph) (hi : PlainImages m) {iss : List Instr} {ps : List Put}
    (h : InTurn (ItemPuts m) iss ps) : occPuts ps = occBoxes iss := by
  induction h with
  | nil => rfl
  | @cons i iss ps qs h1 _ ih =>
    rw [occPuts_append, ih]
    cases i with
    | box st b => rw [occ_box hw hk h1]; rfl
    | image st src => rw [h1, hi, Nat.zero_add]; rfl
    | _ => rw [h1]; simp [occPuts, occBoxes]

/-- The placeholders of a row. -/
def occRow (row : List (List Instr)) : Nat := (row.map fun iss => occText iss + occBoxes iss).sum

theorem occ_row (hw : ∀ w, (m.hyph w).flatten <:+: w) (hk : KeepsNp m.hyph) (hi : PlainImages m) {row : List (List Instr)} {ps : List Put}
    (h : RowPuts m row ps) : occPuts ps = occRow row := by
  induction h with
  | nil => rfl
  | cons h1 _ ih =>
    obtain ⟨ts, qs, h2, h3, rfl⟩ := h1
    rw [occPuts_append, occPuts_append, ih, occ_text hw hk h2, occ_items hw hk hi h3]
    simp [occRow]

theorem occ_rows (hw : ∀ w, (m.hyph w).flatten <:+: w) (hk : KeepsNp m.hyph) (hi : PlainImages m) {head rows : List (List (List Instr))} {i : Nat} {ps : List Put}
    (h : RowsPut m head i rows ps) : (rows.map occRow).sum ≤ occPuts ps := by
  induction h with
  | nil => simp
  | same h1 _ ih =>
    rw [occPuts_append, List.map_cons, List.sum_cons, occ_row hw hk hi h1]
    omega
  | page _ h1 _ ih =>
    rw [occPuts, occPuts_append, occPuts_append, List.map_cons, List.sum_cons, occ_row hw hk hi h1]
    · omega
    · simp

theorem occ_part (hw : ∀ w, (m.hyph w).flatten <:+: w) (hk : KeepsNp m.hyph) (hi : PlainImages m) {iss : List Instr} {ps : List Put}
    (h : PartPuts m iss ps) : occPart iss ≤ occPuts ps := by
  induction h with
  | nil => simp [occPart]
  | @cons i iss ps qs h1 _ ih =>
    rw [occPuts_append]
    cases i with
    | text st b => simp only [occPart]; rw [occ_text hw hk h1]; omega
    | box st b => simp only [occPart]; rw [occ_box hw hk h1]; omega
    | table st r rows =>
      simp only [occPart]
      obtain ⟨extra, qs', h2, h3⟩ := h1
      have h4 := occ_rows hw hk hi h2
      rw [List.map_append, List.sum_append, List.map_map] at h4
      have h5 : occPuts ps = occPuts qs' := by rcases h3 with rfl | rfl <;> rfl
      have h6 : (rows.map fun r => (r.cells.map fun c => occText c.iss + occBoxes c.iss).sum) =
          rows.map (occRow ∘ fun r => r.cells.map (·.iss)) := by
        apply List.map_congr_left
        intro r _
        simp [occRow, Function.comp_def]
      rw [h6]
      omega
    | _ => simp only [occPart]; omega

theorem occ_filled {header footer : List Instr} {ps ds : List Put} (h : Filled m header footer ps ds) : occPuts ps ≤ occPuts ds := by
  induction h with
  | nil => exact Nat.le_refl _
  | text _ ih => simp only [occPuts]; omega
  | image _ ih => simpa [occPuts] using ih
  | page _ _ _ _ _ _ _ ih => simp only [occPuts_append, occPuts]; omega
  | turned _ _ _ _ _ _ _ ih => simp only [occPuts_append, occPuts]; omega

theorem plainImages (ctx : Ctx) : PlainImages (meansOf ctx) := by
  intro src
  simp only [meansOf]
  split <;> rfl

/-- Without block alignment words are not broken, whatever the hyphenator does. -/
theorem renderText_whole {E : Type} {eng : Engine E} {c : Calls E} {ctx : Ctx} (hp : ∀ f e, eng.currentPage (eng.changeFont f e) = eng.currentPage e)
    {st : Styled} {iss : List Instr} {s s' : PState E} (hb : (st.mutatedStyles ctx.classes s.curr).align.h ≠ b!"block")
    (h : renderText eng ctx c st iss s = some ((), s')) :
    ∃ ps, TextPuts { hyph := fun w => [w], image := fun _ => [] } iss ps ∧ Did eng c s ps s' := by
  have key : renderText eng { ctx with hyphenate := fun w => [w] } c st iss s = some ((), s') := by
    rw [← h]
    unfold renderText
    split
    · rfl
    · have e : ∀ width, writeTextFnc eng { ctx with hyphenate := fun w => [w] } c iss width (st.mutatedStyles ctx.classes s.curr) =
          writeTextFnc eng ctx c iss width (st.mutatedStyles ctx.classes s.curr) := by
        intro width
        unfold writeTextFnc
        rw [if_neg hb, if_neg hb]
        rfl
      exact congrArg (fun w : M E Unit => (w >>= fun _ => resetStyles eng) s)
        (e ((Page.mk (eng.printableArea s.eng)).effectiveWidth (st.mutatedStyles ctx.classes s.curr).dim.width))
  have hs : Sound eng { ctx with hyphenate := fun w => [w] } := ⟨hp, fun w => by simp, by simp⟩
  obtain ⟨ps, ⟨page, ts, h1, h2⟩, h3⟩ := renderText_puts (c := c) hs st iss s () s' key
  exact ⟨ps, ⟨page, ts, h1, h2⟩, h3⟩

end Verif.Proofs
