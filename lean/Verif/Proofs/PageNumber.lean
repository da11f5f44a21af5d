import Verif.Proofs.Process
import Verif.Model.Fpdf
import Verif.Proofs.Text
import Verif.Spec.Process
/-
Replacing the page number placeholder, and what it means for the texts that are written.
-/
namespace Verif.Proofs
open Verif.Go Verif.Model Verif.Spec

/-- The placeholder. -/
abbrev cp : Str := b!"{cp}"

theorem replaceAux_prefix_of {old new : Str} (h0 : old ≠ []) (hn : new ≠ []) : ∀ (s v : Str), (∀ c ∈ v, c ∉ new) → v <+: replaceAux old new 0 s → v <+: s := by
  intro s
  refine replace_induction h0 (P := fun s => ∀ v, (∀ c ∈ v, c ∉ new) → v <+: replaceAux old new 0 s → v <+: s) ?_ ?_ ?_ s
  · intro v _ h; simpa [replaceAux] using h
  · intro r _ v hv h
    rw [replaceAux_prefix h0] at h
    cases v with
    | nil => exact List.nil_prefix
    | cons c v =>
      cases new with
      | nil => exact absurd rfl hn
      | cons d new =>
        rw [List.cons_append, List.cons_prefix_cons] at h
        exact absurd (by rw [h.1]; simp) (hv c (by simp))
  · intro c cs hp ih v hv h
    rw [replaceAux_not_prefix hp] at h
    cases v with
    | nil => exact List.nil_prefix
    | cons d v =>
      rw [List.cons_prefix_cons] at h ⊢
      exact ⟨h.1, ih v (fun x hx => hv x (List.mem_cons_of_mem _ hx)) h.2⟩

theorem infix_append_of {w a b : Str} (hw : w ≠ []) (h : ∀ c ∈ w.head?, c ∉ a) : w <:+: a ++ b → w <:+: b := by
  induction a with
  | nil => exact id
  | cons d a ih =>
    intro hi
    rw [List.cons_append, List.infix_cons_iff] at hi
    rcases hi with hi | hi
    · cases w with
      | nil => exact absurd rfl hw
      | cons c w =>
        rw [List.cons_prefix_cons] at hi
        exact absurd (by rw [hi.1]; simp) (h c (by simp))
    · exact ih (fun c hc hm => h c hc (List.mem_cons_of_mem _ hm)) hi

theorem replaceAux_no_old {old new : Str} (h0 : old ≠ []) (hn : new ≠ []) (hd : ∀ c ∈ old, c ∉ new) (s : Str) : ¬ old <:+: replaceAux old new 0 s := by
  refine replace_induction h0 (P := fun s => ¬ old <:+: replaceAux old new 0 s) ?_ ?_ ?_ s
  · simpa [replaceAux] using h0
  · intro r ih h
    rw [replaceAux_prefix h0] at h
    exact ih (infix_append_of h0 (fun c hc => hd c (List.mem_of_mem_head? hc)) h)
  · intro c cs hp ih h
    rw [replaceAux_not_prefix hp, List.infix_cons_iff] at h
    rcases h with h | h
    · rw [← replaceAux_not_prefix (new := new) hp] at h
      exact hp (replaceAux_prefix_of h0 hn (c :: cs) old hd h)
    · exact ih h

theorem natDigits_digit : ∀ (n : Nat), natDigits n ≠ [] ∧ ∀ c ∈ natDigits n, 48 ≤ c ∧ c ≤ 57 := by
  intro n
  induction n using Nat.strongRecOn with
  | ind n ih =>
    have dig : ∀ k, k < 10 → (48 : UInt8) ≤ UInt8.ofNat (48 + k) ∧ UInt8.ofNat (48 + k) ≤ 57 := by
      intro k hk
      have h : (UInt8.ofNat (48 + k)).toNat = 48 + k := by rw [UInt8.toNat_ofNat']; omega
      rw [UInt8.le_iff_toNat_le, UInt8.le_iff_toNat_le, h]
      simp; omega
    rw [natDigits]
    split
    · rename_i h
      refine ⟨by simp, fun c hc => ?_⟩
      simp only [List.mem_singleton] at hc
      rw [hc]; exact dig n h
    · rename_i h
      refine ⟨by simp, fun c hc => ?_⟩
      rcases List.mem_append.mp hc with hc | hc
      · exact (ih (n / 10) (by omega)).2 c hc
      · simp only [List.mem_singleton] at hc
        rw [hc]; exact dig _ (by omega)

theorem natDigits_value (n : Nat) : decimalValue (natDigits n) = n ∧ ((natDigits n).head? = some 48 → natDigits n = [48]) := by
  induction n using Nat.strongRecOn with
  | ind n ih =>
    have dig : ∀ k, k < 10 → (UInt8.ofNat (48 + k)).toNat = 48 + k := fun k hk => by rw [UInt8.toNat_ofNat']; omega
    rw [natDigits]
    split
    · rename_i h
      refine ⟨?_, fun h0 => ?_⟩
      · simp only [decimalValue, List.foldl_cons, List.foldl_nil, dig n h]; omega
      · simp only [List.head?_cons, Option.some.injEq] at h0
        rw [h0]
    · rename_i h
      obtain ⟨h1, h2⟩ := ih (n / 10) (by omega)
      refine ⟨?_, fun h0 => ?_⟩
      · simp only [decimalValue] at h1 ⊢
        rw [List.foldl_append, h1]
        simp only [List.foldl_cons, List.foldl_nil, dig (n % 10) (by omega)]
        omega
      · exfalso
        have h3 : (natDigits (n / 10)).head? = some 48 := by
          cases hd : natDigits (n / 10) with
          | nil => exact absurd hd (natDigits_digit _).1
          | cons c cs => rw [hd] at h0; simpa using h0
        rw [h2 h3] at h1
        simp [decimalValue] at h1
        omega

theorem itoa_chars (n : Int) : itoa n ≠ [] ∧ ∀ c ∈ itoa n, c = 45 ∨ (48 ≤ c ∧ c ≤ 57) := by
  unfold itoa
  obtain ⟨h1, h2⟩ := natDigits_digit n.natAbs
  split
  · refine ⟨by simp, fun c hc => ?_⟩
    rcases List.mem_cons.mp hc with hc | hc
    · exact Or.inl hc
    · exact Or.inr (h2 c hc)
  · exact ⟨h1, fun c hc => Or.inr (h2 c hc)⟩

theorem cp_not_itoa (n : Int) : ∀ c ∈ cp, c ∉ itoa n := by
  intro c hc hm
  have := (itoa_chars n).2 c hm
  simp only [cp, List.mem_cons, List.not_mem_nil, or_false] at hc
  rcases hc with rfl | rfl | rfl | rfl <;> revert this <;> decide

theorem tr_no_cp (n : Int) (s : Str) : ¬ cp <:+: replaceAll cp (itoa n) s := by
  rw [show replaceAll cp (itoa n) s = replaceAux cp (itoa n) 0 s from by simp [replaceAll, cp]]
  exact replaceAux_no_old (by simp [cp]) (itoa_chars n).1 (cp_not_itoa n) s

/-! ### Whitespace -/

theorem rectified_gap {p : UInt8} (hp : p ≠ 92) : ∀ (s w : Str), (∀ c ∈ w, blank c = false ∧ c ≠ 92) → w <+: rectified (some p) true s → w = [] := by
  intro s
  induction s with
  | nil => intro w _ h; simpa [rectified] using h
  | cons c cs ih =>
    intro w hw h
    unfold rectified at h
    split at h
    · exact ih w hw h
    · cases w with
      | nil => rfl
      | cons d w =>
        simp only at h
        split at h
        · rw [List.cons_prefix_cons] at h
          have := (hw d (by simp)).1
          rw [h.1] at this
          exact absurd this (by decide)
        · rename_i hc
          rw [List.cons_prefix_cons] at h
          have h92 : c = 92 := by
            by_contra hne
            exact hc (by simp [hp, hne])
          exact absurd (by rw [h.1, h92]) (hw d (by simp)).2

theorem rectified_prefix : ∀ (s w : Str) (p : UInt8), p ≠ 92 → (∀ c ∈ w, blank c = false ∧ c ≠ 92) → w <+: rectified (some p) false s → w <+: s := by
  intro s
  induction s with
  | nil => intro w p _ _ h; simpa [rectified] using h
  | cons c cs ih =>
    intro w p hp hw h
    unfold rectified at h
    split at h
    · rw [rectified_gap hp cs w hw h]; exact List.nil_prefix
    · simp only [Bool.false_and, Bool.false_eq_true, if_false] at h
      cases w with
      | nil => exact List.nil_prefix
      | cons d w =>
        rw [List.cons_prefix_cons] at h ⊢
        exact ⟨h.1, ih w c (by rw [← h.1]; exact (hw d (by simp)).2) (fun x hx => hw x (List.mem_cons_of_mem _ hx)) h.2⟩

/-- Words without blanks and backslashes are not put together by normalising whitespace. -/
theorem rectified_infix : ∀ (s w : Str) (p : Option UInt8) (g : Bool), (∀ c ∈ w, blank c = false ∧ c ≠ 92) → w <:+: rectified p g s → w <:+: s := by
  intro s
  induction s with
  | nil => intro w p g _ h; simpa [rectified] using h
  | cons c cs ih =>
    intro w p g hw h
    have hrest : w <:+: c :: rectified (some c) false cs → w <:+: c :: cs := by
      intro h
      rw [List.infix_cons_iff] at h
      rcases h with h | h
      · cases w with
        | nil => exact List.nil_infix
        | cons d w =>
          rw [List.cons_prefix_cons] at h
          refine List.IsPrefix.isInfix ?_
          rw [List.cons_prefix_cons]
          exact ⟨h.1, rectified_prefix cs w c (by rw [← h.1]; exact (hw d (by simp)).2) (fun x hx => hw x (List.mem_cons_of_mem _ hx)) h.2⟩
      · exact List.infix_cons_iff.mpr (Or.inr (ih w _ _ hw h))
    unfold rectified at h
    split at h
    · exact List.infix_cons_iff.mpr (Or.inr (ih w _ _ hw h))
    · cases p with
      | none => exact hrest h
      | some p =>
        simp only at h
        split at h
        · rw [List.infix_cons_iff] at h
          rcases h with h | h
          · cases w with
            | nil => exact List.nil_infix
            | cons d w =>
              rw [List.cons_prefix_cons] at h
              have := (hw d (by simp)).1
              rw [h.1] at this
              exact absurd this (by decide)
          · exact hrest h
        · exact hrest h

/-! ### The texts that are written -/

theorem cp_cons_space {w : Str} (h : ¬ cp <:+: w) : ¬ cp <:+: 32 :: w := by
  intro hi
  rw [List.infix_cons_iff] at hi
  rcases hi with hi | hi
  · rw [cp, List.cons_prefix_cons] at hi; exact absurd hi.1 (by decide)
  · exact h hi

theorem cp_snoc_hyphen {w : Str} (h : ¬ cp <:+: w) : ¬ cp <:+: w ++ [45] := by
  intro hi
  rw [← List.reverse_infix, List.reverse_append] at hi
  change cp.reverse <:+: 45 :: w.reverse at hi
  rw [List.infix_cons_iff] at hi
  rcases hi with hi | hi
  · rw [show cp.reverse = 125 :: [112, 99, 123] from rfl, List.cons_prefix_cons] at hi; exact absurd hi.1 (by decide)
  · exact h (List.reverse_infix.mp hi)

theorem trimRight_prefix {cut : UInt8 → Bool} : ∀ (s : Str), trimRight cut s <+: s := by
  intro s
  induction s with
  | nil => exact List.nil_prefix
  | cons c cs ih =>
    unfold trimRight
    split
    · split
      · exact List.nil_prefix
      · exact List.cons_prefix_cons.mpr ⟨rfl, List.nil_prefix⟩
    · rename_i h
      exact List.cons_prefix_cons.mpr ⟨rfl, ih⟩

theorem trimSpace_infix (s : Str) : trimSpace s <:+: s := by
  unfold trimSpace trim trimLeft
  exact (trimRight_prefix _).isInfix.trans (List.dropWhile_suffix _).isInfix

/-- A hyphenator that only cuts. -/
def Cuts (hyph : Str → List Str) : Prop := ∀ w, (hyph w).flatten <:+: w

theorem texts_cp {hyph : Str → List Str} (hc : Cuts hyph) : Texts (fun t => ¬ cp <:+: t) hyph := by
  refine ⟨fun page text w hw => ?_⟩
  have h1 : ¬ cp <:+: w := by
    intro hi
    have h2 := hi.trans (mem_split_infix hw)
    rw [whitespaceRectified_eq] at h2
    exact tr_no_cp page text (rectified_infix _ _ _ _ (by decide) h2)
  refine ⟨h1, cp_cons_space h1, fun hi => h1 (hi.trans (trimSpace_infix _)), fun i _ _ => ?_⟩
  have hj : ¬ cp <:+: (hyph w).flatten := fun hi => h1 (hi.trans (hc w))
  have ht : ¬ cp <:+: ((hyph w).take i).flatten := by
    intro hi
    refine hj (hi.trans ?_)
    conv_rhs => rw [← List.take_append_drop i (hyph w), List.flatten_append]
    exact (List.prefix_append _ _).isInfix
  have hd : ¬ cp <:+: ((hyph w).drop i).flatten := by
    intro hi
    refine hj (hi.trans ?_)
    conv_rhs => rw [← List.take_append_drop i (hyph w), List.flatten_append]
    exact (List.suffix_append _ _).isInfix
  have ht' := cp_cons_space (cp_snoc_hyphen ht)
  exact ⟨ht', fun hi => ht' (hi.trans (trimSpace_infix _)), hd, fun hi => hd (hi.trans (trimSpace_infix _))⟩

/-! ### What stays true of the engine of the repository -/

section
variable {D : Fpdf → Prop} {T : Str → Prop} {p : Paper} {ctx : Ctx}

/-- A condition on what was put out, on the page that was reached and on whether the engine failed. -/
structure Lasting (D : Fpdf → Prop) (T : Str → Prop) : Prop where
  keep : ∀ e e', D e → e'.out = e.out → e.page ≤ e'.page → (e.failed = true → e'.failed = true) → D e'
  text : ∀ e x y font color t, T t → D e → D { e with out := e.out ++ [.text e.page x y font color t] }
  image : ∀ e src x y w h, D e → D { e with out := e.out ++ [.image e.page src x y w h] }
  draw : ∀ e cmd, D e → D { e with out := e.out ++ [.draw e.page cmd] }
  page : ∀ e, D e → D { e with out := e.out ++ [.page] }
  feed : ∀ e, D e → D { e with out := e.out ++ [.feed e.page] }

theorem Lasting.put (h : Lasting D T) {t : Str} (ht : T t) {e : Fpdf} (he : D e) : D (Fpdf.put p t e) :=
  h.keep _ _ (h.text e e.x e.y e.font e.color t ht he) rfl le_rfl id

theorem Lasting.turn (h : Lasting D T) {f : Font} {c : RGB} {e : Fpdf} (he : D e) : ProgOk D D D (Fpdf.turn p f c e) :=
  ⟨h.keep _ _ (h.page e he) rfl (Nat.le_succ _) id, fun e' he' => h.keep _ _ he' rfl le_rfl id⟩

theorem Lasting.addPage (h : Lasting D T) {e : Fpdf} (he : D e) : ProgOk D D D (Fpdf.addPage p e) := by
  unfold Fpdf.addPage
  split
  · exact ⟨h.keep _ _ he rfl le_rfl id, fun e' he' => h.turn (h.keep _ _ he' rfl le_rfl id)⟩
  · exact h.turn he

theorem progOk_andThen {E α β : Type} {H H' D D' : E → Prop} {k : E → α → Prog E β} (hk : ∀ e a, D e → ProgOk H H' D' (k e a)) :
    ∀ {pr : Prog E α}, ProgOk H H' D pr → ProgOk H H' D' (Fpdf.andThen pr k)
  | .done e a, h => hk e a h
  | .header _ _, h => ⟨h.1, fun e' he' => progOk_andThen hk (h.2 e' he')⟩
  | .footer _ _, h => ⟨h.1, fun e' he' => progOk_andThen hk (h.2 e' he')⟩

theorem Lasting.writeText (h : Lasting D T) {t : Str} (ht : T t) {e : Fpdf} (he : D e) : ProgOk D D D (Fpdf.writeText p t e) := by
  unfold Fpdf.writeText
  split
  · refine progOk_andThen (D := D) (fun e' _ he' => ?_) (h.addPage he)
    exact h.put ht (h.keep e' _ he' rfl le_rfl id)
  · exact h.put ht he

theorem Lasting.writePDF (h : Lasting D T) {e : Fpdf} (he : D e) : ProgOk D D D (Fpdf.writePDF e) :=
  ⟨h.keep _ _ he rfl le_rfl id, fun _ he' => h.keep _ _ he' rfl le_rfl id⟩

theorem Lasting.rel (h : Lasting D T) {c : Calls Fpdf} (hw : ∀ t, T t → Le (fun s => D s.eng) (c.writeText t) (c.writeText t))
    (ha : Le (fun s => D s.eng) c.addPage c.addPage) : Rel (Fpdf.engine p) (fun s => D s.eng) T c c where
  setX x s hs := h.keep _ _ hs rfl le_rfl id
  setY x s hs := h.keep _ _ hs rfl le_rfl id
  lineFeed x s hs := h.keep _ _ (h.feed s.eng hs) rfl le_rfl id
  font f s hs := h.keep _ _ hs rfl le_rfl (fun hf => by simp [Fpdf.engine, Fpdf.changeFont, hf])
  changeFont f s hs := h.keep _ _ hs rfl le_rfl (fun hf => by simp [changeFont, Fpdf.engine, Fpdf.changeFont, hf])
  color c s hs := h.keep _ _ hs rfl le_rfl id
  image src x y w ht s hs := h.image _ _ _ _ _ _ hs
  draw cmd s hs := by
    have := h.draw s.eng cmd hs
    cases cmd <;> exact h.keep _ _ this rfl le_rfl id
  write := hw
  add := Or.inr ha

/-- It is kept by processing. -/
theorem Lasting.calls (h : Lasting D T) (hT : Texts T ctx.hyphenate) : ∀ n,
    (∀ t, T t → Le (fun s => D s.eng) ((callsAt (Fpdf.engine p) ctx n).writeText t) ((callsAt (Fpdf.engine p) ctx n).writeText t)) ∧
    Le (fun s => D s.eng) (callsAt (Fpdf.engine p) ctx n).addPage (callsAt (Fpdf.engine p) ctx n).addPage ∧
    ∀ {α : Type} (op : Fpdf → Prog Fpdf α), (∀ e, D e → ProgOk D D D (op e)) →
      Le (fun s => D s.eng) (runWith (Fpdf.engine p) ctx (callsAt (Fpdf.engine p) ctx n) op) (runWith (Fpdf.engine p) ctx (callsAt (Fpdf.engine p) ctx n) op) := by
  have run : ∀ n, (∀ t, T t → Le (fun s => D s.eng) ((callsAt (Fpdf.engine p) ctx n).writeText t) ((callsAt (Fpdf.engine p) ctx n).writeText t)) →
      Le (fun s => D s.eng) (callsAt (Fpdf.engine p) ctx n).addPage (callsAt (Fpdf.engine p) ctx n).addPage →
      ∀ {α : Type} (op : Fpdf → Prog Fpdf α), (∀ e, D e → ProgOk D D D (op e)) →
      Le (fun s => D s.eng) (runWith (Fpdf.engine p) ctx (callsAt (Fpdf.engine p) ctx n) op) (runWith (Fpdf.engine p) ctx (callsAt (Fpdf.engine p) ctx n) op) := by
    intro n hw ha α op ho s hs a s' hr
    have hcb : ∀ iss, LeT (Body D fun _ _ => True) (Body D fun _ _ => True)
        (callback (Fpdf.engine p) ctx (callsAt (Fpdf.engine p) ctx n) iss) (callback (Fpdf.engine p) ctx (callsAt (Fpdf.engine p) ctx n) iss) := fun iss =>
      callback_le (h.rel hw ha) hT iss (Or.inl ha) (fun s hs => hs.1) fun s0 s _ hs => ⟨h.keep _ _ hs rfl le_rfl id, trivial⟩
    obtain ⟨h1, h2⟩ := runProg_le (hcb _) (hcb _) (op s.eng) (ho _ hs) s trivial a s' hr
    exact ⟨h1, h2.1⟩
  intro n
  induction n with
  | zero =>
    have hw : ∀ t, T t → Le (fun s => D s.eng) ((callsAt (Fpdf.engine p) ctx 0).writeText t) ((callsAt (Fpdf.engine p) ctx 0).writeText t) :=
      fun t _ => Le.none
    have ha : Le (fun s => D s.eng) (callsAt (Fpdf.engine p) ctx 0).addPage (callsAt (Fpdf.engine p) ctx 0).addPage := Le.none
    exact ⟨hw, ha, run 0 hw ha⟩
  | succ n ih =>
    have hw : ∀ t, T t → Le (fun s => D s.eng) ((callsAt (Fpdf.engine p) ctx (n + 1)).writeText t) ((callsAt (Fpdf.engine p) ctx (n + 1)).writeText t) :=
      fun t ht => ih.2.2 _ fun e he => h.writeText ht he
    have ha : Le (fun s => D s.eng) (callsAt (Fpdf.engine p) ctx (n + 1)).addPage (callsAt (Fpdf.engine p) ctx (n + 1)).addPage :=
      ih.2.2 _ fun e he => h.addPage he
    exact ⟨hw, ha, run (n + 1) hw ha⟩

theorem Lasting.process (h : Lasting D T) (hT : Texts T ctx.hyphenate) (n : Nat) :
    Le (fun s => D s.eng) (process (Fpdf.engine p) ctx n) (process (Fpdf.engine p) ctx n) := by
  obtain ⟨hw, ha, _⟩ := h.calls (p := p) hT n
  have hrun := (h.calls (p := p) hT (n - 1)).2.2 (Fpdf.engine p).writePDF fun e he => h.writePDF he
  have hr := h.rel (p := p) hw ha
  unfold Model.process
  refine Le.bind (Le.upd fun s hs => h.keep s.eng _ hs rfl le_rfl id) fun _ => ?_
  exact Le.get.bind fun _ => (changeFontM_le hr _).bind fun _ => ha.bind fun _ =>
    (processInstrs_le hr hT _ (Or.inl ha)).bind fun _ => (Le.ask _).bind fun _ => Le.ite (fun _ => Le.pure _) fun _ => hrun

end
end Verif.Proofs
