import Verif.Spec.Spacing
import Verif.Proofs.Alike
import Verif.Proofs.AlikeLoad
import Verif.Proofs.LoadExact
import Verif.Proofs.PageNumber
/-
White space in texts: it is the same to the processor, and files that differ in white space give documents that are the same but
for white space.
-/
namespace Verif.Proofs
open Verif.Go Verif.Model Verif.Spec

/-! ### Texts -/

/-- The text with every run of white space made one space; `b` says whether white space came just before. -/
def squeezed : (b : Bool) → Str → Str
  | _, [] => []
  | b, c :: cs =>
    if blank c then (if b then squeezed true cs else 32 :: squeezed true cs)
    else c :: squeezed false cs

/-- The words with a space after each. -/
theorem spaced_words : ∀ (t w : Str), (cutFrom w t).flatMap (· ++ [32]) = w ++ squeezed (decide (w = [])) (t ++ [32])
  | [], w => by
    have h32 : blank 32 = true := by decide
    by_cases hw : w = [] <;> simp [cutFrom, squeezed, hw, h32]
  | c :: t, w => by
    by_cases hc : blank c = true
    · have ih := spaced_words t []
      by_cases hw : w = []
      · subst hw
        simpa [cutFrom, hc, squeezed] using ih
      · simp only [cutFrom, hc, if_true, List.flatMap_append, ih]
        simp [hw, squeezed, hc]
    · simp only [Bool.not_eq_true] at hc
      have ih := spaced_words t (w ++ [c])
      simp only [cutFrom, hc, Bool.false_eq_true, if_false, ih]
      simp [squeezed, hc]

theorem rectified_squeezed : ∀ (t : Str) (prev : Option UInt8) (gap b : Bool), (b = true → gap = true) →
    rectified prev gap (squeezed b t) = rectified prev gap t
  | [], _, _, _, _ => rfl
  | c :: t, prev, gap, b, h => by
    have h32 : blank 32 = true := by decide
    by_cases hc : blank c = true
    · cases b with
      | true =>
        have hg := h rfl
        subst hg
        simp [squeezed, hc, rectified, rectified_squeezed t prev true true]
      | false => simp [squeezed, hc, rectified, h32, rectified_squeezed t prev true true]
    · simp only [Bool.not_eq_true] at hc
      have ih := rectified_squeezed t (some c) false false (by simp)
      simp only [squeezed, hc, rectified, Bool.false_eq_true, if_false, ih]

theorem squeezed_plain_append : ∀ (p : Str), (∀ c ∈ p, blank c = false) → ∀ (b : Bool) (t : Str), p ≠ [] →
    squeezed b (p ++ t) = p ++ squeezed false t
  | [], _, _, _, h => absurd rfl h
  | [c], hp, b, t, _ => by simp [squeezed, hp c]
  | c :: d :: p, hp, b, t, _ => by
    have := squeezed_plain_append (d :: p) (fun x hx => hp x (List.mem_cons_of_mem _ hx)) false t (by simp)
    rw [List.cons_append, squeezed, hp c (by simp)]
    exact congrArg (c :: ·) this

/-- What a text without white space begins, it still begins with the white space squeezed out. -/
theorem prefix_of_squeezed : ∀ (p : Str), (∀ c ∈ p, blank c = false) → ∀ (t : Str), p <+: squeezed false t → p <+: t
  | [], _, t, _ => List.nil_prefix
  | a :: p, hp, [], h => by simp [squeezed] at h
  | a :: p, hp, c :: t, h => by
    have h32 : blank 32 = true := by decide
    have ha := hp a (by simp)
    by_cases hc : blank c = true
    · simp only [squeezed, hc, if_true, Bool.false_eq_true, if_false] at h
      obtain ⟨r, hr⟩ := h
      simp only [List.cons_append, List.cons.injEq] at hr
      rw [hr.1, h32] at ha
      exact absurd ha (by simp)
    · simp only [Bool.not_eq_true] at hc
      simp only [squeezed, hc, Bool.false_eq_true, if_false] at h
      rw [List.cons_prefix_cons] at h ⊢
      exact ⟨h.1, prefix_of_squeezed p (fun x hx => hp x (List.mem_cons_of_mem _ hx)) t h.2⟩

theorem squeezed_replace {old new : Str} (h0 : old ≠ []) (hn : new ≠ []) (ho : ∀ c ∈ old, blank c = false)
    (hb : ∀ c ∈ new, blank c = false) (s : Str) : ∀ b, squeezed b (replaceAux old new 0 s) = replaceAux old new 0 (squeezed b s) := by
  have hcons : ∀ (c : UInt8) (cs : Str), blank c = true → ¬ old <+: c :: cs := by
    intro c cs hc h
    cases old with
    | nil => exact h0 rfl
    | cons o old =>
      rw [List.cons_prefix_cons] at h
      have := ho o (by simp)
      rw [h.1, hc] at this
      exact absurd this (by simp)
  refine replace_induction h0 (P := fun s => ∀ b, squeezed b (replaceAux old new 0 s) = replaceAux old new 0 (squeezed b s))
    (fun b => rfl) ?_ ?_ s
  · intro r ih b
    rw [replaceAux_prefix h0, squeezed_plain_append new hb b _ hn, squeezed_plain_append old ho b _ h0, replaceAux_prefix h0, ih]
  · intro c cs hp ih b
    rw [replaceAux_not_prefix hp]
    by_cases hc : blank c = true
    · cases b with
      | true => simp only [squeezed, hc, if_true, ih]
      | false =>
        simp only [squeezed, hc, if_true, Bool.false_eq_true, if_false, ih]
        rw [replaceAux_not_prefix (hcons 32 _ (by decide))]
    · simp only [Bool.not_eq_true] at hc
      simp only [squeezed, hc, Bool.false_eq_true, if_false, ih]
      rw [replaceAux_not_prefix]
      intro h
      refine hp (prefix_of_squeezed old ho (c :: cs) ?_)
      simpa [squeezed, hc] using h

theorem rectified_none (t : Str) : ∀ gap, rectified none gap t = rectified none false t := by
  induction t with
  | nil => intro gap; simp [rectified]
  | cons c t ih =>
    intro gap
    by_cases hc : blank c = true
    · simp [rectified, hc]
    · simp only [Bool.not_eq_true] at hc
      simp [rectified, hc]

theorem rectified_space : ∀ (t : Str) (prev : Option UInt8) (gap : Bool), rectified prev gap (t ++ [32]) = rectified prev gap t
  | [], prev, gap => by
    have h32 : blank 32 = true := by decide
    simp [rectified, h32]
  | c :: t, prev, gap => by simp only [List.cons_append, rectified, rectified_space t]

theorem replace_space {old new : Str} (h0 : old ≠ []) (ho : ∀ c ∈ old, blank c = false) (s : Str) :
    replaceAux old new 0 (s ++ [32]) = replaceAux old new 0 s ++ [32] := by
  have hend : ∀ s : Str, old <+: s ++ [32] → old <+: s := by
    intro s h
    rcases List.prefix_concat_iff.mp h with h | h
    · have := ho 32 (by rw [h]; simp)
      exact absurd this (by decide)
    · exact h
  refine replace_induction h0 (P := fun s => replaceAux old new 0 (s ++ [32]) = replaceAux old new 0 s ++ [32]) ?_ ?_ ?_ s
  · rw [List.nil_append, replaceAux_not_prefix (fun h => h0 (List.prefix_nil.mp (hend [] h)))]; rfl
  · intro r ih
    rw [List.append_assoc, replaceAux_prefix h0, ih, replaceAux_prefix h0, List.append_assoc]
  · intro c cs hp ih
    have : ¬ old <+: c :: (cs ++ [32]) := fun h => hp (hend (c :: cs) h)
    rw [List.cons_append, replaceAux_not_prefix this, ih, replaceAux_not_prefix hp]; rfl

theorem norm_sameWords {E : Type} (eng : Engine E) (e : E) (t : Str) : norm eng e ((cutWords t).flatMap (· ++ [32])) = norm eng e t := by
  have hi := itoa_chars (eng.currentPage e)
  have hb : ∀ c ∈ itoa (eng.currentPage e), blank c = false := by
    intro c hc
    rcases hi.2 c hc with rfl | ⟨h1, h2⟩
    · decide
    · simp only [blank, Bool.or_eq_false_iff, beq_eq_false_iff_ne]
      refine ⟨⟨⟨?_, ?_⟩, ?_⟩, ?_⟩ <;> rintro rfl <;> exact absurd h1 (by decide)
  rw [cutWords, spaced_words]
  simp only [norm, tr, whitespaceRectified_eq, replaceAll, List.nil_append, decide_true]
  rw [if_neg (by simp), if_neg (by simp), ← squeezed_replace (by simp) hi.1 (by decide) hb, replace_space (by simp) (by decide),
    ← rectified_none _ true, rectified_squeezed _ _ _ _ (by simp), rectified_none, rectified_space]

theorem sameNorm_words {E : Type} (eng : Engine E) : SameNorm eng SameWords := by
  intro t t' h e
  rw [← norm_sameWords eng e t', ← norm_sameWords eng e t, h]

/-! ### Instructions that are the same -/

section
variable {R : StyledKind → Styled → Styled → Prop} {T : Str → Str → Prop} (hR : ∀ k a, R k a a) (hT : ∀ t, T t t)
include hR hT
mutual
theorem Alike.refl : ∀ i, Alike R T i i
  | .font st => .font (hR _ _)
  | .lineFeed n => .lineFeed n
  | .setX n => .setX n
  | .setY n => .setY n
  | .box st iss => .box (hR _ _) (AlikeAll.refl iss)
  | .text st iss => .text (hR _ _) (AlikeAll.refl iss)
  | .image st src => .image src (hR _ _)
  | .textBlock t => .textBlock (hT t)
  | .paragraph st t => .paragraph (hR _ _) (hT t)
  | .lineBreak => .lineBreak
  | .pageBreak => .pageBreak
  | .table st rh rows => .table rh (hR _ _) (AlikeRows.refl rows)
  | .tableRow (.mk st cells) => .tableRow (.mk (hR _ _) (AlikeCells.refl cells))
  | .tableCell (.mk st c r iss) => .tableCell (.mk c r (hR _ _) (AlikeAll.refl iss))
  | .grid st rows parts => .grid (hR _ _) (List.forall₂_same.mpr fun _ _ => ⟨hR _ _, rfl⟩) (AlikeParts.refl parts)
  | .gridRow st as => .gridRow as (hR _ _)
  | .gridPart (.mk st a iss) => .gridPart (.mk a (hR _ _) (AlikeAll.refl iss))
theorem AlikeAll.refl : ∀ i, AlikeAll R T i i
  | [] => .nil
  | i :: is => .cons (Alike.refl i) (AlikeAll.refl is)
theorem AlikeRows.refl : ∀ i, AlikeRows R T i i
  | [] => .nil
  | .mk st cells :: rs => .cons (.mk (hR _ _) (AlikeCells.refl cells)) (AlikeRows.refl rs)
theorem AlikeCells.refl : ∀ i, AlikeCells R T i i
  | [] => .nil
  | .mk st c r iss :: rs => .cons (.mk c r (hR _ _) (AlikeAll.refl iss)) (AlikeCells.refl rs)
theorem AlikeParts.refl : ∀ i, AlikeParts R T i i
  | [] => .nil
  | .mk st a iss :: rs => .cons (.mk a (hR _ _) (AlikeAll.refl iss)) (AlikeParts.refl rs)
end
end

/-! ### Reading -/

/-- The same but for white space in the texts. -/
abbrev SpacedInstr := Alike (fun _ => Eq) SameWords

theorem spacedAll_refl (iss : List Instr) : SpacedAll iss iss := AlikeAll.refl (T := SameWords) (fun _ _ => rfl) (fun _ => rfl) iss
theorem spaced_refl (i : Instr) : SpacedInstr i i := Alike.refl (T := SameWords) (fun _ _ => rfl) (fun _ => rfl) i

/-- What becomes of two elements is the same but for white space. -/
def OutSpaced : Outcome → Outcome → Prop
  | .ok i, .ok i' => SpacedInstr i i'
  | .dropped, .dropped => True
  | .opened, .opened => True
  | .fatal, .fatal => True
  | _, _ => False

theorem outSpaced_refl (o : Outcome) : OutSpaced o o := by
  cases o <;> simp [OutSpaced, spaced_refl]

theorem outSpaced_of {α : Type} (x : Option α) {f g : α → Instr} (h : ∀ a, SpacedInstr (f a) (g a)) :
    OutSpaced (.of (x.map f)) (.of (x.map g)) := by
  cases x <;> simp [Outcome.of, OutSpaced, h]

variable {fl : Floats} {ord : Nat → MapOrder}

/-- What is related about the contents of two elements. -/
structure ReadSpaced (fl : Floats) (ord : Nat → MapOrder) (texts : Bool) (kids kids' : List Node) : Prop where
  strict : OptLike SpacedAll (strictly fl ord texts kids) (strictly fl ord texts kids')
  lenient : OptLike SpacedAll (leniently fl ord texts kids) (leniently fl ord texts kids')

theorem opened_textCounts {name : Str} {as : List Attr} {kids : List Node} (texts : Bool)
    (h : outcome fl ord (.elem name as kids) = .opened) : textCounts texts name = texts := by
  unfold textCounts
  split
  · rename_i hm
    simp only [List.mem_cons, List.not_mem_nil, or_false] at hm
    rcases hm with rfl | rfl | rfl | rfl
    · rw [out_table] at h; split at h <;> first | exact absurd h (of_ne_opened _) | exact absurd h (by simp)
    · rw [out_tr] at h; split at h <;> first | exact absurd h (of_ne_opened _) | exact absurd h (by simp)
    · rw [out_grid] at h; split at h <;> (try split at h) <;> first | exact absurd h (of_ne_opened _) | exact absurd h (by simp)
    · rw [out_part] at h; split at h <;> first | exact absurd h (of_ne_opened _) | exact absurd h (by simp)
  · split
    · rename_i hm
      simp only [List.mem_cons, List.not_mem_nil, or_false] at hm
      rcases hm with rfl | rfl | rfl
      · rw [out_box] at h; split at h <;> exact absurd h (by simp)
      · rw [out_text] at h; split at h <;> exact absurd h (by simp)
      · rw [out_td] at h; split at h <;> first | exact absurd h (of_ne_opened _) | exact absurd h (by simp)
    · rfl

theorem outcome_spaced {texts : Bool} {name : Str} {as : List Attr} {kids kids' : List Node} 
    (h1 : name ∉ [b!"gr", b!"image", b!"p"]) (ih : ReadSpaced fl ord (textCounts texts name) kids kids') :
    OutSpaced (outcome fl ord (.elem name as kids)) (outcome fl ord (.elem name as kids')) := by
  by_cases hn : name ∈ instructionNames
  · simp only [instructionNames, List.mem_cons, List.not_mem_nil, or_false] at hn
    rcases hn with rfl | rfl | rfl | rfl | rfl | rfl | rfl | rfl | rfl | rfl | rfl | rfl | rfl | rfl | rfl | rfl
    · rw [out_font, out_font]; exact outSpaced_refl _
    · rw [out_box, out_box]
      have h : OptLike SpacedAll (strictly fl ord true kids) (strictly fl ord true kids') := ih.strict
      revert h
      cases strictly fl ord true kids <;> cases strictly fl ord true kids' <;> intro h <;> cases newStyled fl ord as <;>
        first | exact h.elim | trivial | exact .box rfl h
    · rw [out_text, out_text]
      have h : OptLike SpacedAll (strictly fl ord true kids) (strictly fl ord true kids') := ih.strict
      revert h
      cases strictly fl ord true kids <;> cases strictly fl ord true kids' <;> intro h <;> cases newStyled fl ord as <;>
        first | exact h.elim | trivial | exact .text rfl h
    · rw [out_lf, out_lf]; exact outSpaced_refl _
    · rw [out_setx, out_setx]; exact outSpaced_refl _
    · rw [out_sety, out_sety]; exact outSpaced_refl _
    · exact absurd h1 (by decide)
    · rw [out_table, out_table]
      have h : OptLike SpacedAll (strictly fl ord false kids) (strictly fl ord false kids') := ih.strict
      revert h
      cases strictly fl ord false kids <;> cases strictly fl ord false kids' <;> intro h <;>
        first | exact h.elim | trivial | exact outSpaced_of _ fun _ => .table _ rfl (rowsOf_like h)
    · rw [out_tr, out_tr]
      have h : OptLike SpacedAll (strictly fl ord false kids) (strictly fl ord false kids') := ih.strict
      revert h
      cases strictly fl ord false kids <;> cases strictly fl ord false kids' <;> intro h <;>
        first | exact h.elim | trivial | exact outSpaced_of _ fun _ => .tableRow (.mk rfl (cellsOf_like h))
    · rw [out_td, out_td]
      have h : OptLike SpacedAll (leniently fl ord true kids) (leniently fl ord true kids') := ih.lenient
      revert h
      cases leniently fl ord true kids <;> cases leniently fl ord true kids' <;> intro h <;>
        first | exact h.elim | trivial | exact outSpaced_of _ fun _ => .tableCell (.mk _ _ rfl h)
    · rw [out_grid, out_grid]
      have h : OptLike SpacedAll (leniently fl ord false kids) (leniently fl ord false kids') := ih.lenient
      revert h
      cases leniently fl ord false kids <;> cases leniently fl ord false kids' <;> intro h
      · trivial
      · exact h.elim
      · exact h.elim
      · have hr := gridRowsOf_like h
        have hp := partsOf_like h
        simp only [gridRows_areas (R := fun _ => Eq) hr, parts_areas hp]
        split
        · exact outSpaced_of _ fun _ => .grid rfl hr hp
        · trivial
    · exact absurd h1 (by decide)
    · rw [out_part, out_part]
      have h : OptLike SpacedAll (leniently fl ord false kids) (leniently fl ord false kids') := ih.lenient
      revert h
      cases leniently fl ord false kids <;> cases leniently fl ord false kids' <;> intro h <;>
        first | exact h.elim | trivial | exact outSpaced_of _ fun _ => .gridPart (.mk _ rfl h)
    · exact absurd h1 (by decide)
    · rw [out_br, out_br]; exact outSpaced_refl _
    · rw [out_newpage, out_newpage]; exact outSpaced_refl _
  · rw [out_unknown hn, out_unknown hn]; trivial

theorem optLike_mapped {α β : Type} {P : α → α → Prop} {Q : β → β → Prop} {x y : Option α} (h : OptLike P x y) {f g : α → β}
    (hfg : ∀ a b, P a b → Q (f a) (g b)) : OptLike Q (x.map f) (y.map g) := by
  cases x <;> cases y <;> first | exact h.elim | trivial | exact hfg _ _ h

theorem spacedAll_append {a a' b b' : List Instr} (h : SpacedAll a a') (h' : SpacedAll b b') : SpacedAll (a ++ b) (a' ++ b') :=
  alikeAll_append h h'

/-- An element with its successors. -/
theorem readSpaced_elem {texts : Bool} {name : Str} {as : List Attr} {kids kids' ns ns' : List Node}
    (ho : OutSpaced (outcome fl ord (.elem name as kids)) (outcome fl ord (.elem name as kids')))
    (hk : outcome fl ord (.elem name as kids) = .opened →
      OptLike SpacedAll (leniently fl ord texts kids) (leniently fl ord texts kids'))
    (ih : ReadSpaced fl ord texts ns ns') : ReadSpaced fl ord texts (.elem name as kids :: ns) (.elem name as kids' :: ns') := by
  refine ⟨?_, ?_⟩
  · rw [strictly, strictly]
    revert ho
    cases outcome fl ord (.elem name as kids) <;> cases outcome fl ord (.elem name as kids') <;> intro ho <;>
      first | exact ho.elim | trivial | exact optLike_mapped ih.strict fun _ _ h => .cons ho h
  · rw [leniently, leniently]
    revert ho hk
    cases outcome fl ord (.elem name as kids) <;> cases outcome fl ord (.elem name as kids') <;> intro ho hk
    case opened.opened =>
      have := hk rfl
      revert this
      cases leniently fl ord texts kids <;> cases leniently fl ord texts kids' <;> intro h
      · trivial
      · exact h.elim
      · exact h.elim
      · exact optLike_mapped ih.lenient fun _ _ h' => spacedAll_append h h'
    all_goals first | exact ho.elim | trivial | exact ih.lenient | exact optLike_mapped ih.lenient fun _ _ h => .cons ho h

theorem respaced_read {texts : Bool} {kids kids' : List Node} (h : Respaced texts kids kids') : ReadSpaced fl ord texts kids kids' := by
  have hcons : ∀ {texts : Bool} {t t' : Str} {ns ns' : List Node}, SameWords t t' → (t = [] ↔ t' = []) → ReadSpaced fl ord texts ns ns' →
      ReadSpaced fl ord texts (.chars t :: ns) (.chars t' :: ns') := by
    intro texts t t' ns ns' ht he ih
    have hnil : (texts = true ∧ t' ≠ []) ↔ (texts = true ∧ t ≠ []) := by rw [ne_eq, ne_eq, he]
    refine ⟨?_, ?_⟩
    · rw [strictly, strictly]
      refine optLike_mapped ih.strict fun a b h => ?_
      simp only [hnil]
      split
      · exact .cons (.textBlock ht) h
      · exact h
    · rw [leniently, leniently]
      refine optLike_mapped ih.lenient fun a b h => ?_
      simp only [hnil]
      split
      · exact .cons (.textBlock ht) h
      · exact h
  induction h with
  | nil => exact ⟨by rw [strictly]; exact AlikeAll.nil, by rw [leniently]; exact AlikeAll.nil⟩
  | chars ht he _ ih => exact hcons ht he ih
  | textLeft _ ih => exact ⟨by rw [strictly]; simpa using ih.strict, by rw [leniently]; simpa using ih.lenient⟩
  | textRight _ ih => exact ⟨by rw [strictly]; simpa using ih.strict, by rw [leniently]; simpa using ih.lenient⟩
  | commentLeft _ ih => exact ⟨by rw [strictly]; exact ih.strict, by rw [leniently]; exact ih.lenient⟩
  | commentRight _ ih => exact ⟨by rw [strictly]; exact ih.strict, by rw [leniently]; exact ih.lenient⟩
  | paragraph ht _ ih =>
    refine readSpaced_elem ?_ (fun ho => ?_) ih
    · rw [out_p, out_p]
      exact outSpaced_of _ fun _ => .paragraph rfl ht
    · rw [out_p] at ho
      exact absurd ho (of_ne_opened _)
  | elem h1 _ _ ihk ih =>
    refine readSpaced_elem (outcome_spaced h1 ihk) (fun ho => ?_) ih
    have := ihk.lenient
    rwa [opened_textCounts _ ho] at this
  | @same texts nd ns ns' _ ih =>
    cases nd with
    | chars t => exact hcons rfl Iff.rfl ih
    | other => exact ⟨by rw [strictly, strictly]; exact ih.strict, by rw [leniently, leniently]; exact ih.lenient⟩
    | elem name as kids =>
      refine readSpaced_elem (outSpaced_refl _) (fun _ => ?_) ih
      cases leniently fl ord texts kids with
      | none => trivial
      | some x => exact spacedAll_refl x

/-! ### Documents -/

/-- The elements of two documents are the same but for white space. -/
def ElemLike (fl : Floats) (ord : Nat → MapOrder) (a b : Str × List Attr × List Node) : Prop :=
  a = b ∨ (a.1 = b.1 ∧ a.2.1 = b.2.1 ∧ (a.1 = b!"header" ∨ a.1 = b!"footer" ∨ a.1 = b!"body") ∧ ReadSpaced fl ord true a.2.2 b.2.2)

theorem docRespaced_elems {ns ns' : List Node} (h : DocRespaced ns ns') : List.Forall₂ (ElemLike fl ord) (elems ns) (elems ns') := by
  induction h with
  | nil => exact .nil
  | textLeft _ ih => exact ih
  | textRight _ ih => exact ih
  | commentLeft _ ih => exact ih
  | commentRight _ ih => exact ih
  | part hn hk _ ih => exact .cons (.inr ⟨rfl, rfl, hn, respaced_read hk⟩) ih
  | @same nd ns ns' _ ih =>
    cases nd with
    | elem => exact .cons (.inl rfl) ih
    | _ => exact ih

theorem filter_like (name : Str) {l l' : List (Str × List Attr × List Node)} (h : List.Forall₂ (ElemLike fl ord) l l') :
    List.Forall₂ (ElemLike fl ord) (l.filter (·.1 = name)) (l'.filter (·.1 = name)) := by
  induction h with
  | nil => exact .nil
  | @cons a b _ _ hab _ ih =>
    have : a.1 = b.1 := by rcases hab with rfl | h <;> [rfl; exact h.1]
    simp only [List.filter_cons, this]
    split
    · exact .cons hab ih
    · exact ih

theorem filter_other {name : Str} (hn : name ≠ b!"header" ∧ name ≠ b!"footer" ∧ name ≠ b!"body")
    {l l' : List (Str × List Attr × List Node)} (h : List.Forall₂ (ElemLike fl ord) l l') :
    l.filter (·.1 = name) = l'.filter (·.1 = name) := by
  induction h with
  | nil => rfl
  | @cons a b _ _ hab _ ih =>
    rcases hab with rfl | ⟨h1, -, h3, -⟩
    · simp only [List.filter_cons, ih]
    · have ha : a.1 ≠ name := by rintro rfl; rcases h3 with h | h | h <;> simp_all
      have hb : b.1 ≠ name := by rw [← h1]; exact ha
      simp only [List.filter_cons, ha, hb, decide_false, Bool.false_eq_true, if_false, ih]

theorem contents_like {a b : Str × List Attr × List Node} (h : ElemLike fl ord a b) :
    OptLike SpacedAll (contents fl ord a.2.1 a.2.2) (contents fl ord b.2.1 b.2.2) := by
  rcases h with rfl | ⟨-, h2, -, h4⟩
  · cases contents fl ord a.2.1 a.2.2 with
    | none => trivial
    | some x => exact spacedAll_refl x
  · unfold contents
    rw [h2]
    split
    · exact h4.strict
    · trivial

theorem mapM_like {l l' : List (Str × List Attr × List Node)} (h : List.Forall₂ (ElemLike fl ord) l l') :
    OptLike SpacedAll ((l.mapM fun e => contents fl ord e.2.1 e.2.2).map List.flatten)
      ((l'.mapM fun e => contents fl ord e.2.1 e.2.2).map List.flatten) := by
  induction h with
  | nil => exact AlikeAll.nil
  | @cons a b l l' hab _ ih =>
    have h := contents_like hab
    revert h ih
    simp only [List.mapM_cons]
    cases contents fl ord a.2.1 a.2.2 <;> cases contents fl ord b.2.1 b.2.2 <;>
      cases l.mapM (fun e => contents fl ord e.2.1 e.2.2) <;> cases l'.mapM (fun e => contents fl ord e.2.1 e.2.2) <;> intro ih h <;>
      first | exact h.elim | exact ih.elim | trivial | exact spacedAll_append h ih

theorem section_like (name : Str) {ns ns' : List Node} (h : DocRespaced ns ns') :
    OptLike SpacedAll (section_ fl ord name ns) (section_ fl ord name ns') :=
  mapM_like (filter_like name (docRespaced_elems h))

theorem inside_other {name : Str} (hn : name ≠ b!"header" ∧ name ≠ b!"footer" ∧ name ≠ b!"body") (fl : Floats) (ord : Nat → MapOrder)
    {ns ns' : List Node} (h : DocRespaced ns ns') : inside name ns = inside name ns' := by
  simp only [inside, filter_other (fl := fl) (ord := ord) hn (docRespaced_elems h)]

theorem loaded_like (sheetOrd : Nat → MapOrder) {ns ns' : List Node} (h : DocRespaced ns ns') :
    OptLike DocSpaced (loaded fl ord sheetOrd ns) (loaded fl ord sheetOrd ns') := by
  have hm := inside_other (name := b!"meta") (by decide) fl ord h
  have hp := inside_other (name := b!"page") (by decide) fl ord h
  have hs : Spec.textOf b!"style" ns = Spec.textOf b!"style" ns' := by
    simp only [Spec.textOf, filter_other (fl := fl) (ord := ord) (name := b!"style") (by decide) (docRespaced_elems h)]
  have h1 := section_like (fl := fl) (ord := ord) b!"header" h
  have h2 := section_like (fl := fl) (ord := ord) b!"footer" h
  have h3 := section_like (fl := fl) (ord := ord) b!"body" h
  unfold loaded
  simp only [hm, hp, hs]
  cases numberOf fl b!"left" (inside b!"margins" (inside b!"page" ns')) with
  | none => trivial
  | some l =>
  cases numberOf fl b!"top" (inside b!"margins" (inside b!"page" ns')) with
  | none => trivial
  | some t =>
  cases numberOf fl b!"right" (inside b!"margins" (inside b!"page" ns')) with
  | none => trivial
  | some r =>
  cases numberOf fl b!"bottom" (inside b!"margins" (inside b!"page" ns')) with
  | none => trivial
  | some bo =>
  revert h1 h2 h3
  cases section_ fl ord b!"header" ns <;> cases section_ fl ord b!"header" ns' <;> intro h1
  · intros; trivial
  · exact h1.elim
  · exact h1.elim
  cases section_ fl ord b!"footer" ns <;> cases section_ fl ord b!"footer" ns' <;> intro h2
  · intros; trivial
  · exact h2.elim
  · exact h2.elim
  cases section_ fl ord b!"body" ns <;> cases section_ fl ord b!"body" ns' <;> intro h3
  · trivial
  · exact h3.elim
  · exact h3.elim
  cases decodeClasses fl sheetOrd (Spec.textOf b!"style" ns') with
  | none => trivial
  | some cs => exact ⟨rfl, rfl, rfl, h1, h2, h3⟩

end Verif.Proofs
