import Verif.Spec.Load
/-
The marks on the decoder's stack, for arbitrary tokens: an UnmarshalXML that fails leaves its mark, and nothing that happens
afterwards removes more marks than it sets.
-/
namespace Verif.Proofs
open Verif.Go Verif.Model

/-- The number of marks. -/
def marks : List Frame → Nat
  | [] => 0
  | .eof :: s => marks s + 1
  | .elem _ :: s => marks s

/-- The elements decoded as fields of Document. -/
def isTop (n : Str) : Prop := n = b!"header" ∨ n = b!"footer" ∨ n = b!"body"

/-- Only at the bottom a mark belongs to a header, footer or body. -/
def NoTop (A : List Frame) : Prop := ∀ P n Q, A = P ++ .elem n :: .eof :: Q → isTop n → Q = []

theorem NoTop.tail {f : Frame} {A : List Frame} (h : NoTop (f :: A)) : NoTop A := by
  intro P n Q hA hn
  exact h (f :: P) n Q (by rw [hA]; rfl) hn

theorem NoTop.push {n x : Str} {A : List Frame} (h : NoTop (.elem x :: A)) : NoTop (.elem n :: .elem x :: A) := by
  intro P m Q hA hm
  cases P with
  | nil => simp at hA
  | cons p P =>
    simp only [List.cons_append, List.cons.injEq] at hA
    exact h P m Q hA.2 hm

theorem NoTop.mark {n : Str} {A : List Frame} (h : NoTop A) (hn : ¬ isTop n) : NoTop (.elem n :: .eof :: A) := by
  intro P m Q hA hm
  match P with
  | [] => simp at hA; exact absurd (hA.1 ▸ hm) hn
  | [p] => simp at hA
  | p :: q :: P =>
    simp only [List.cons_append, List.cons.injEq] at hA
    exact h P m Q hA.2.2 hm

theorem marks_append (A B : List Frame) : marks (A ++ B) = marks A + marks B := by
  induction A with
  | nil => simp [marks]
  | cons f A ih => cases f <;> simp [marks, ih]; omega

/-- What a token does to a stack with a mark in its upper part. -/
theorem token_mono {d : Decoder} {A B : List Frame} (hd : d.stk = A ++ B) (hm : 1 ≤ marks A) (hA : NoTop A) :
    ∃ A', d.token.2.stk = A' ++ B ∧ marks A' = marks A ∧ NoTop A' ∧
      (∀ m, d.token.1 = some (.close m) → A = .elem m :: A') ∧
      (∀ m as, d.token.1 = some (.start m as) → A' = .elem m :: A) := by
  obtain ⟨stk, rest⟩ := d
  simp only at hd
  subst hd
  match A, hm, hA with
  | .eof :: A, hm, hA => exact ⟨.eof :: A, by simp [Decoder.token], rfl, hA, by simp [Decoder.token], by simp [Decoder.token]⟩
  | .elem x :: A, hm, hA =>
    match rest with
    | [] => exact ⟨.elem x :: A, by simp [Decoder.token], rfl, hA, by simp [Decoder.token], by simp [Decoder.token]⟩
    | .start n as :: r =>
      refine ⟨.elem n :: .elem x :: A, by simp [Decoder.token], rfl, hA.push, by simp [Decoder.token], ?_⟩
      simp [Decoder.token]
    | .chars t :: r => exact ⟨.elem x :: A, by simp [Decoder.token], rfl, hA, by simp [Decoder.token], by simp [Decoder.token]⟩
    | .other :: r => exact ⟨.elem x :: A, by simp [Decoder.token], rfl, hA, by simp [Decoder.token], by simp [Decoder.token]⟩
    | .close n :: r =>
      refine ⟨A, ?_, rfl, hA.tail, ?_, ?_⟩
      · simp only [Decoder.token, List.cons_append]; split <;> rfl
      · intro m
        simp only [Decoder.token, List.cons_append]
        split
        · rename_i h; intro h2; simp at h2; rw [h, h2]
        · intro h2; simp at h2
      · intro m as
        simp only [Decoder.token, List.cons_append]
        split <;> intro h2 <;> simp at h2

/-- At least `k` marks above `B`. -/
def MarkedIn (k : Nat) (B : List Frame) (d : Decoder) : Prop := ∃ A, d.stk = A ++ B ∧ k ≤ marks A ∧ NoTop A

theorem MarkedIn.le {k l B d} (h : MarkedIn k B d) (hl : l ≤ k) : MarkedIn l B d := by
  obtain ⟨A, h1, h2, h3⟩ := h
  exact ⟨A, h1, by omega, h3⟩

theorem token_marked {k B} {d : Decoder} (h : MarkedIn (k + 1) B d) : MarkedIn (k + 1) B d.token.2 := by
  obtain ⟨A, h1, h2, h3⟩ := h
  obtain ⟨A', e1, e2, e3, -, -⟩ := token_mono h1 (by omega) h3
  exact ⟨A', e1, by omega, e3⟩

theorem leafLoop_marked {k B} : ∀ (n depth : Nat) (data : Str) (d : Decoder), MarkedIn (k + 1) B d →
    MarkedIn (k + 1) B (leafLoop n depth data d).2 := by
  intro n
  induction n with
  | zero => intro _ _ d h; exact h
  | succ n ih =>
    intro depth data d h
    have ht := token_marked h
    rw [leafLoop]
    rcases hx : d.token with ⟨_ | t, d'⟩ <;> rw [hx] at ht <;> (try rw [hx])
    · exact ht
    · cases t with
      | start m as => exact ih _ _ _ ht
      | chars t => exact ih _ _ _ ht
      | other => exact ih _ _ _ ht
      | close m =>
        cases depth with
        | zero => exact ht
        | succ k => exact ih _ _ _ ht

theorem leaf_marked {k B} {d : Decoder} (h : MarkedIn (k + 1) B d) : MarkedIn (k + 1) B (leaf d).2 := leafLoop_marked _ _ _ _ h

theorem gridRowLoop_marked {k B} : ∀ (n : Nat) (name : Str) (as : List Str) (d : Decoder), MarkedIn (k + 1) B d →
    MarkedIn (k + 1) B (gridRowLoop n name as d).2 := by
  intro n
  induction n with
  | zero => intro _ _ d h; exact h
  | succ n ih =>
    intro name as d h
    have ht := token_marked h
    rw [gridRowLoop]
    rcases hx : d.token with ⟨_ | t, d'⟩ <;> rw [hx] at ht <;> (try rw [hx])
    · exact ht
    · cases t with
      | start m as => exact ih _ _ _ ht
      | chars t => exact ih _ _ _ ht
      | other => exact ih _ _ _ ht
      | close m =>
        simp only
        split
        · exact ht
        · exact ih _ _ _ ht

/-- The state when the start of an element that is not a header, footer or body has just been read above a mark. -/
def Begun (name : Str) (k : Nat) (B : List Frame) (d : Decoder) : Prop :=
  ∃ A, d.stk = .elem name :: A ++ B ∧ k ≤ marks A ∧ NoTop A ∧ NoTop (.elem name :: A)

theorem Begun.marked {name k B d} (h : Begun name k B d) : MarkedIn k B d := by
  obtain ⟨A, h1, h2, -, h3⟩ := h
  exact ⟨.elem name :: A, h1, h2, h3⟩

theorem unmarshal_marked {α : Type} {k B name} {f : Decoder → Option α × Decoder} {d : Decoder} (hn : ¬ isTop name)
    (h : Begun name (k + 1) B d) (hf : ∀ d, MarkedIn (k + 1 + 1) B d → MarkedIn (k + 1 + 1) B (f d).2) :
    MarkedIn (k + 1) B (unmarshalInterface f d).2 := by
  obtain ⟨A, h1, h2, h3, -⟩ := h
  have := hf ⟨pushEOF d.stk, d.rest⟩ ⟨.elem name :: .eof :: A, by simp [h1, pushEOF], by simp [marks]; omega, h3.mark hn⟩
  obtain ⟨A', e1, e2, e3⟩ := this
  unfold unmarshalInterface
  simp only
  split
  · rename_i s hs
    match A', e1, e2, e3 with
    | [], e1, e2, e3 => simp [marks] at e2
    | .eof :: A', e1, e2, e3 =>
      rw [e1] at hs
      simp at hs
      exact ⟨A', hs.symm, by simp [marks] at e2; omega, e3.tail⟩
    | .elem _ :: A', e1, e2, e3 => rw [e1] at hs; simp at hs
  · exact ⟨A', e1, by omega, e3⟩

theorem not_isTop_reg : ∀ n ∈ [b!"font", b!"box", b!"text", b!"table", b!"tr", b!"td", b!"grid", b!"gr", b!"part"], ¬ isTop n := by
  unfold isTop
  decide

section
variable {fl : Floats} {ord : Nat → MapOrder} {loop : Loop} {attrs : List Attr} {d : Decoder}

theorem dec_font : decodeInstruction fl ord loop b!"font" attrs d = andThen (leaf d) fun _ => (newStyled fl ord attrs).map .font := rfl
theorem dec_box : decodeInstruction fl ord loop b!"box" attrs d =
    andThen (unmarshalInterface (unmarshalInstructions fl ord loop b!"box" attrs) d) fun iss =>
      (newStyled fl ord attrs).map (.box · iss) := rfl
theorem dec_text : decodeInstruction fl ord loop b!"text" attrs d =
    andThen (unmarshalInterface (unmarshalInstructions fl ord loop b!"text" attrs) d) fun iss =>
      (newStyled fl ord attrs).map (.text · iss) := rfl
theorem dec_lf : decodeInstruction fl ord loop b!"lf" attrs d =
    match floatAttr fl b!"lines" attrs 0 with
    | none => (none, d)
    | some x => andThen (leaf d) fun _ => some (.lineFeed x) := rfl
theorem dec_setx : decodeInstruction fl ord loop b!"setx" attrs d =
    match floatAttr fl b!"x" attrs 0 with
    | none => (none, d)
    | some x => andThen (leaf d) fun _ => some (.setX x) := rfl
theorem dec_sety : decodeInstruction fl ord loop b!"sety" attrs d =
    match floatAttr fl b!"y" attrs 0 with
    | none => (none, d)
    | some x => andThen (leaf d) fun _ => some (.setY x) := rfl
theorem dec_image : decodeInstruction fl ord loop b!"image" attrs d =
    andThen (leaf d) fun data => (newStyled fl ord attrs).map (.image · data) := rfl
theorem dec_table : decodeInstruction fl ord loop b!"table" attrs d =
    andThen (unmarshalInterface (loop tablePolicy b!"table" []) d) fun iss =>
      (tableDecodeAttrs fl ord attrs).map fun x => .table x.2 x.1 (rowsOf iss) := rfl
theorem dec_tr : decodeInstruction fl ord loop b!"tr" attrs d =
    andThen (unmarshalInterface (loop rowPolicy b!"tr" []) d) fun iss =>
      (newStyled fl ord attrs).map fun st => .tableRow (.mk st (cellsOf iss)) := rfl
theorem dec_td : decodeInstruction fl ord loop b!"td" attrs d =
    andThen (unmarshalInterface (loop cellPolicy b!"td" []) d) fun iss =>
      (cellDecodeAttrs fl ord attrs).map fun x => .tableCell (.mk x.2.2 x.1 x.2.1 iss) := rfl
theorem dec_grid : decodeInstruction fl ord loop b!"grid" attrs d =
    andThen (unmarshalInterface (unmarshalGrid loop b!"grid") d) fun iss =>
      (newStyled fl ord attrs).map (.grid · (gridRowsOf iss) (partsOf iss)) := rfl
theorem dec_gr : decodeInstruction fl ord loop b!"gr" attrs d =
    andThen (unmarshalInterface (unmarshalGridRow b!"gr") d) fun areas => (newStyled fl ord attrs).map (.gridRow · areas) := rfl
theorem dec_part : decodeInstruction fl ord loop b!"part" attrs d =
    andThen (unmarshalInterface (loop partPolicy b!"part" []) d) fun iss =>
      (partDecodeAttrs fl ord attrs).map fun x => .gridPart (.mk x.2 x.1 iss) := rfl
theorem dec_p : decodeInstruction fl ord loop b!"p" attrs d =
    andThen (leaf d) fun data => (newStyled fl ord attrs).map (.paragraph · data) := rfl
theorem dec_br : decodeInstruction fl ord loop b!"br" attrs d = andThen (leaf d) fun _ => some .lineBreak := rfl
theorem dec_newpage : decodeInstruction fl ord loop b!"newpage" attrs d = andThen (leaf d) fun _ => some .pageBreak := rfl

theorem dec_unknown {name : Str} (h : name ∉ Spec.instructionNames) : decodeInstruction fl ord loop name attrs d = (none, d) := by
  simp only [Spec.instructionNames, List.mem_cons, List.not_mem_nil, or_false, not_or] at h
  obtain ⟨h1, h2, h3, h4, h5, h6, h7, h8, h9, h10, h11, h12, h13, h14, h15, h16⟩ := h
  unfold decodeInstruction
  rw [if_neg h1, if_neg h2, if_neg h3, if_neg h4, if_neg h5, if_neg h6, if_neg h7, if_neg h8, if_neg h9, if_neg h10,
    if_neg h11, if_neg h12, if_neg h13, if_neg h14, if_neg h15, if_neg h16]
end

/-- Cases for the name of an element. -/
theorem name_cases {motive : Str → Prop} (font : motive b!"font") (box : motive b!"box") (text : motive b!"text")
    (lf : motive b!"lf") (setx : motive b!"setx") (sety : motive b!"sety") (image : motive b!"image") (table : motive b!"table")
    (tr : motive b!"tr") (td : motive b!"td") (grid : motive b!"grid") (gr : motive b!"gr") (part : motive b!"part")
    (p : motive b!"p") (br : motive b!"br") (newpage : motive b!"newpage")
    (unknown : ∀ name, name ∉ Spec.instructionNames → motive name) : ∀ name, motive name := by
  intro name
  by_cases h : name ∈ Spec.instructionNames
  · simp only [Spec.instructionNames, List.mem_cons, List.not_mem_nil, or_false] at h
    rcases h with h | h | h | h | h | h | h | h | h | h | h | h | h | h | h | h <;> rw [h] <;> assumption
  · exact unknown name h

theorem decode_marked {fl ord loop k B attrs} {d : Decoder}
    (hloop : ∀ k pol name acc d, MarkedIn (k + 1) B d → MarkedIn (k + 1) B (loop pol name acc d).2) :
    ∀ name, Begun name (k + 1) B d → MarkedIn (k + 1) B (decodeInstruction fl ord loop name attrs d).2 := by
  have hl : ∀ name, Begun name (k + 1) B d → MarkedIn (k + 1) B (leaf d).2 := fun name h => leaf_marked h.marked
  have hi : ∀ attrs name, ¬ isTop name → Begun name (k + 1) B d →
      MarkedIn (k + 1) B (unmarshalInterface (unmarshalInstructions fl ord loop name attrs) d).2 := by
    intro attrs name hn h
    refine unmarshal_marked hn h (fun d hd => ?_)
    unfold unmarshalInstructions
    split
    · exact hd
    · exact hloop _ _ _ _ _ hd
  have hu : ∀ pol name, ¬ isTop name → Begun name (k + 1) B d →
      MarkedIn (k + 1) B (unmarshalInterface (loop pol name []) d).2 := by
    intro pol name hn h
    exact unmarshal_marked hn h (fun d hd => hloop _ _ _ _ _ hd)
  refine name_cases ?_ ?_ ?_ ?_ ?_ ?_ ?_ ?_ ?_ ?_ ?_ ?_ ?_ ?_ ?_ ?_ ?_
  · intro h; rw [dec_font]; exact hl _ h
  · intro h; rw [dec_box]; exact hi _ _ (not_isTop_reg _ (by decide)) h
  · intro h; rw [dec_text]; exact hi _ _ (not_isTop_reg _ (by decide)) h
  · intro h; rw [dec_lf]; split
    · exact h.marked
    · exact hl _ h
  · intro h; rw [dec_setx]; split
    · exact h.marked
    · exact hl _ h
  · intro h; rw [dec_sety]; split
    · exact h.marked
    · exact hl _ h
  · intro h; rw [dec_image]; exact hl _ h
  · intro h; rw [dec_table]; exact hu _ _ (not_isTop_reg _ (by decide)) h
  · intro h; rw [dec_tr]; exact hu _ _ (not_isTop_reg _ (by decide)) h
  · intro h; rw [dec_td]; exact hu _ _ (not_isTop_reg _ (by decide)) h
  · intro h; rw [dec_grid]
    exact unmarshal_marked (not_isTop_reg _ (by decide)) h (fun d hd => hloop _ _ _ _ _ hd)
  · intro h; rw [dec_gr]
    exact unmarshal_marked (not_isTop_reg _ (by decide)) h (fun d hd => gridRowLoop_marked _ _ _ _ hd)
  · intro h; rw [dec_part]; exact hu _ _ (not_isTop_reg _ (by decide)) h
  · intro h; rw [dec_p]; exact hl _ h
  · intro h; rw [dec_br]; exact hl _ h
  · intro h; rw [dec_newpage]; exact hl _ h
  · intro name hn h; rw [dec_unknown hn]; exact h.marked

section
variable {fl : Floats} {ord : Nat → MapOrder} {n : Nat} {pol : Policy} {name : Str} {acc : List Instr} {d d' : Decoder}

theorem childLoop_none (h : d.token = (none, d')) : childLoop fl ord (n + 1) pol name acc d = (none, d') := by
  rw [childLoop]; simp only [h]
theorem childLoop_chars {t} (h : d.token = (some (.chars t), d')) : childLoop fl ord (n + 1) pol name acc d =
    childLoop fl ord n pol name (if pol.texts && t != [] then acc ++ [.textBlock t] else acc) d' := by
  rw [childLoop]; simp only [h]
theorem childLoop_other (h : d.token = (some .other, d')) : childLoop fl ord (n + 1) pol name acc d =
    childLoop fl ord n pol name acc d' := by
  rw [childLoop]; simp only [h]
theorem childLoop_close {m} (h : d.token = (some (.close m), d')) : childLoop fl ord (n + 1) pol name acc d =
    if m = name then (some acc, d') else childLoop fl ord n pol name acc d' := by
  rw [childLoop]; simp only [h]
theorem childLoop_start {m as} (h : d.token = (some (.start m as), d')) : childLoop fl ord (n + 1) pol name acc d =
    match decodeInstruction fl ord (childLoop fl ord n) m as d' with
    | (some i, d) => childLoop fl ord n pol name (acc ++ [i]) d
    | (none, d) => if pol.lenient then childLoop fl ord n pol name acc d else (none, d) := by
  rw [childLoop]; simp only [h]; rfl
end

/-- Any token loop, on any tokens, leaves at least as many marks as it finds; if it succeeds, it has just read the end of its
element. -/
theorem childLoop_mono {fl ord} : ∀ (n k : Nat) (B : List Frame) (pol : Policy) (name : Str) (acc : List Instr) (d : Decoder),
    MarkedIn (k + 1) B d → MarkedIn (k + 1) B (childLoop fl ord n pol name acc d).2 ∧
      ((childLoop fl ord n pol name acc d).1.isSome →
        ∃ A, (childLoop fl ord n pol name acc d).2.stk = A ++ B ∧ k + 1 ≤ marks A ∧ NoTop (.elem name :: A)) := by
  intro n
  induction n with
  | zero => intro k B pol name acc d h; exact ⟨h, by simp [childLoop]⟩
  | succ n ih =>
    intro k B pol name acc d h
    have ht := token_marked h
    rcases hx : d.token with ⟨_ | t, d'⟩ <;> rw [hx] at ht
    · rw [childLoop_none hx]; exact ⟨ht, by simp⟩
    · cases t with
      | chars t => rw [childLoop_chars hx]; exact ih _ _ _ _ _ _ ht
      | other => rw [childLoop_other hx]; exact ih _ _ _ _ _ _ ht
      | close m =>
        rw [childLoop_close hx]
        split
        · rename_i hmn
          refine ⟨ht, fun _ => ?_⟩
          obtain ⟨A, h1, h2, h3⟩ := h
          obtain ⟨A', e1, e2, e3, e4, -⟩ := token_mono h1 (by omega) h3
          rw [hx] at e1 e4
          have := e4 m rfl
          subst hmn
          exact ⟨A', e1, by omega, this ▸ h3⟩
        · exact ih _ _ _ _ _ _ ht
      | start m as =>
        have hb : Begun m (k + 1) B d' := by
          obtain ⟨A, h1, h2, h3⟩ := h
          obtain ⟨A', e1, e2, e3, -, e4⟩ := token_mono h1 (by omega) h3
          rw [hx] at e1 e4
          have := e4 m as rfl
          exact ⟨A, by rw [e1, this], h2, h3, this ▸ e3⟩
        have hd := decode_marked (fl := fl) (ord := ord) (loop := childLoop fl ord n) (attrs := as)
          (fun k pol name acc d h => (ih k B pol name acc d h).1) m hb
        rw [childLoop_start hx]
        rcases hy : decodeInstruction fl ord (childLoop fl ord n) m as d' with ⟨_ | i, d2⟩ <;> rw [hy] at hd <;> (try rw [hy])
        · simp only
          split
          · exact ih _ _ _ _ _ _ hd
          · exact ⟨hd, by simp⟩
        · exact ih _ _ _ _ _ _ hd

theorem childLoop_marked {fl ord n k B pol name acc} {d : Decoder} (h : MarkedIn (k + 1) B d) :
    MarkedIn (k + 1) B (childLoop fl ord n pol name acc d).2 := (childLoop_mono n k B pol name acc d h).1

end Verif.Proofs
