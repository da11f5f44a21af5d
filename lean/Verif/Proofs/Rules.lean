import Verif.Spec.Rules
import Verif.Proofs.StyleClass
/-
Proofs about the rules of a style sheet (C114).
-/
namespace Verif.Proofs
open Verif.Go Verif.Model Verif.Spec

/-- The meaning of one class after more of its rules. -/
inductive After : Option ClassMeaning → List SheetRule → Option ClassMeaning → Prop
  | nil {C} : After C [] C
  | plain {C C' r rs} : r.sel = none → After (some ⟨r.sets, fun _ => none⟩) rs C' → After C (r :: rs) C'
  | selector {D : ClassMeaning} {C' r rs s} : r.sel = some s → After (some { D with sel := fun t => if t = s then some r.sets else D.sel t }) rs C' →
      After (some D) (r :: rs) C'

/-- What stands before and behind the first `c` is determined. -/
theorem cut_unique {c : UInt8} : ∀ {b b' s s' : Str}, c ∉ b → c ∉ b' → b ++ c :: s = b' ++ c :: s' → b = b' ∧ s = s' := by
  intro b
  induction b with
  | nil =>
    intro b' s s' _ h2 h3
    cases b' with
    | nil => simpa using h3
    | cons a b' =>
      simp only [List.nil_append, List.cons_append, List.cons.injEq] at h3
      exact absurd (List.mem_cons.mpr (.inl h3.1)) h2
  | cons a b ih =>
    intro b' s s' h1 h2 h3
    cases b' with
    | nil =>
      simp only [List.nil_append, List.cons_append, List.cons.injEq] at h3
      exact absurd (List.mem_cons.mpr (.inl h3.1.symm)) h1
    | cons d b' =>
      simp only [List.cons_append, List.cons.injEq] at h3
      obtain ⟨rfl, rfl⟩ := ih (fun h => h1 (List.mem_cons_of_mem _ h)) (fun h => h2 (List.mem_cons_of_mem _ h)) h3.2
      exact ⟨by rw [h3.1], rfl⟩

/-- A text is made of blocks in one way only. -/
theorem blocks_unique : ∀ {bs bs' : List Block} {tail tail' : Str}, (∀ b ∈ bs, b.ok) → (∀ b ∈ bs', b.ok) → (123 : UInt8) ∉ tail → (123 : UInt8) ∉ tail' →
    blocksText bs ++ tail = blocksText bs' ++ tail' → bs = bs' := by
  intro bs
  induction bs with
  | nil =>
    intro bs' tail tail' _ _ h3 _ h5
    cases bs' with
    | nil => rfl
    | cons b bs' => exact absurd (by rw [show tail = _ from h5]; simp [blocksText, Block.text]) h3
  | cons b bs ih =>
    intro bs' tail tail' h1 h2 h3 h4 h5
    cases bs' with
    | nil => exact absurd (by rw [show tail' = _ from h5.symm]; simp [blocksText, Block.text]) h4
    | cons b' bs' =>
      simp only [blocksText, List.flatMap_cons, Block.text, List.append_assoc, List.cons_append, List.nil_append] at h5
      obtain ⟨e1, e2⟩ := cut_unique (h1 b (by simp)).1 (h2 b' (by simp)).1 h5
      obtain ⟨e3, e4⟩ := cut_unique (h1 b (by simp)).2 (h2 b' (by simp)).2 e2
      rw [ih (fun x hx => h1 x (List.mem_cons_of_mem _ hx)) (fun x hx => h2 x (List.mem_cons_of_mem _ hx)) h3 h4 e4]
      cases b; cases b'; simp only at e1 e3; rw [e1, e3]

theorem forall₂_split {α β : Type} {R : α → β → Prop} : ∀ {as bs : List α} {rs : List β}, List.Forall₂ R (as ++ bs) rs →
    ∃ ra rb, List.Forall₂ R as ra ∧ List.Forall₂ R bs rb ∧ rs = ra ++ rb := by
  intro as
  induction as with
  | nil => exact fun {bs rs} h => ⟨[], rs, .nil, h, rfl⟩
  | cons a as ih =>
    intro bs rs h
    cases h with
    | cons h1 h2 =>
      obtain ⟨ra, rb, g1, g2, rfl⟩ := ih h2
      exact ⟨_ :: ra, rb, .cons h1 g1, g2, rfl⟩

theorem naming_unique {name cls cls' : Str} {sel sel' : Option Str} (h : Naming name cls sel) (h' : Naming name cls' sel') : cls = cls' ∧ sel = sel' := by
  generalize hN : name = N at h'
  cases h with
  | plain h1 =>
    cases h' with
    | plain _ => exact ⟨hN, rfl⟩
    | colon => subst hN; simp at h1
    | selector _ _ => subst hN; simp at h1
  | colon =>
    cases h' with
    | plain h1 => subst hN; simp at h1
    | colon => exact ⟨hN, rfl⟩
    | selector h1 h2 =>
      cases cls' with
      | nil => exact absurd rfl h1
      | cons c b => simp only [List.cons_append, List.cons.injEq] at hN; exact absurd (List.mem_cons.mpr (.inl hN.1)) h2
  | selector h1 h2 =>
    cases h' with
    | plain h3 => subst hN; simp at h3
    | colon =>
      cases cls with
      | nil => exact absurd rfl h1
      | cons c b => simp only [List.cons_append, List.cons.injEq] at hN; exact absurd (List.mem_cons.mpr (.inl hN.1.symm)) h2
    | selector h3 h4 =>
      obtain ⟨rfl, rfl⟩ := cut_unique h2 h4 hN
      exact ⟨rfl, rfl⟩

theorem isRule_unique {fl : Floats} {b : Block} {r r' : SheetRule} (h : IsRule fl b r) (h' : IsRule fl b r') : r = r' := by
  obtain ⟨name, h1, _, h3, h4⟩ := h
  obtain ⟨name', h1', _, h3', h4'⟩ := h'
  obtain rfl : name = name' := (strips_unique h1).symm.trans (strips_unique h1')
  obtain ⟨e1, e2⟩ := naming_unique h3 h3'
  have e3 := bodySets_unique h4 h4'
  cases r; cases r'; simp_all

/-- One more rule changes its own class only. -/
theorem enter_iff {S S' : SheetMeaning} {name cls : Str} {sel : Option Str} {σ : Prp → Option Leaf} (hn : Naming name cls sel) :
    Enter S name σ S' ↔ After (S cls) [⟨cls, sel, σ⟩] (S' cls) ∧ ∀ n, n ≠ cls → S' n = S n := by
  constructor
  · intro h
    cases h with
    | plain h1 =>
      obtain ⟨rfl, rfl⟩ := naming_unique hn (.plain h1)
      refine ⟨.plain rfl ?_, fun n h => by simp [h]⟩
      simp only [if_true]
      exact .nil
    | colon =>
      obtain ⟨rfl, rfl⟩ := naming_unique hn .colon
      refine ⟨.plain rfl ?_, fun n h => by simp [h]⟩
      simp only [if_true]
      exact .nil
    | selector h1 h2 h3 =>
      obtain ⟨rfl, rfl⟩ := naming_unique hn (.selector h1 h2)
      refine ⟨?_, fun n h => by simp [h]⟩
      rw [h3]
      refine .selector rfl ?_
      simp only [if_true]
      exact .nil
  · rintro ⟨h1, h2⟩
    generalize hC : S cls = C at h1
    generalize hC' : S' cls = C' at h1
    cases h1 with
    | plain hs h =>
      cases h
      simp only at hs
      have hS : S' = fun n => if n = cls then some ⟨σ, fun _ => none⟩ else S n := by
        funext n
        by_cases hnc : n = cls
        · rw [hnc, hC']; simp
        · rw [h2 n hnc]; simp [hnc]
      rw [hS]
      cases hn with
      | plain h => exact .plain h
      | colon => exact .colon
      | selector _ _ => simp at hs
    | selector hs h =>
      cases h
      simp only at hs
      rename_i D s
      have hS : S' = fun n => if n = cls then some { D with sel := fun t => if t = s then some σ else D.sel t } else S n := by
        funext n
        by_cases hnc : n = cls
        · rw [hnc, hC']; simp
        · rw [h2 n hnc]; simp [hnc]
      rw [hS]
      cases hn with
      | plain h => simp at hs
      | colon => simp at hs
      | selector h3 h4 =>
        simp only [Option.some.injEq] at hs
        subst hs
        exact .selector h3 h4 hC

theorem after_append {C C'' : Option ClassMeaning} {rs rs' : List SheetRule} : After C (rs ++ rs') C'' ↔ ∃ C', After C rs C' ∧ After C' rs' C'' := by
  constructor
  · induction rs generalizing C with
    | nil => exact fun h => ⟨C, .nil, h⟩
    | cons r rs ih =>
      intro h
      cases h with
      | plain h1 h2 => obtain ⟨C', h3, h4⟩ := ih h2; exact ⟨C', .plain h1 h3, h4⟩
      | selector h1 h2 => obtain ⟨C', h3, h4⟩ := ih h2; exact ⟨C', .selector h1 h3, h4⟩
  · rintro ⟨C', h, h'⟩
    induction h with
    | nil => exact h'
    | plain h1 _ ih => exact .plain h1 (ih h')
    | selector h1 _ ih => exact .selector h1 (ih h')

theorem after_unique {C C' C'' : Option ClassMeaning} {rs : List SheetRule} (h : After C rs C') (h' : After C rs C'') : C' = C'' := by
  induction h with
  | nil => cases h'; rfl
  | plain h1 _ ih =>
    cases h' with
    | plain _ h3 => exact ih h3
    | selector h3 _ => rw [h1] at h3; simp at h3
  | selector h1 _ ih =>
    cases h' with
    | plain h3 _ => rw [h1] at h3; simp at h3
    | selector h3 h4 =>
      rw [h1] at h3
      simp only [Option.some.injEq] at h3
      subst h3
      exact ih h4

theorem sheet_rules {fl : Floats} {S S' : SheetMeaning} {bs : List Block} (h : Sheet fl S bs S') : ∃ rs, List.Forall₂ (IsRule fl) bs rs := by
  induction h with
  | nil => exact ⟨[], .nil⟩
  | @cons S S1 S2 b bs name σ h1 h2 h3 h4 _ ih =>
    obtain ⟨rs, hrs⟩ := ih
    cases h4 with
    | plain h => exact ⟨⟨name, none, σ⟩ :: rs, .cons ⟨name, h1, h2, .plain h, h3⟩ hrs⟩
    | @colon rest => exact ⟨⟨58 :: rest, none, σ⟩ :: rs, .cons ⟨_, h1, h2, .colon, h3⟩ hrs⟩
    | @selector base sel _ C h4 h5 h6 => exact ⟨⟨base, some sel, σ⟩ :: rs, .cons ⟨_, h1, h2, .selector h4 h5, h3⟩ hrs⟩

/-- The meaning of a sheet, class by class. -/
theorem sheet_iff {fl : Floats} {bs : List Block} {rs : List SheetRule} (hr : List.Forall₂ (IsRule fl) bs rs) :
    ∀ {S S' : SheetMeaning}, Sheet fl S bs S' ↔ ∀ n, After (S n) (rulesFor n rs) (S' n) := by
  induction hr with
  | nil =>
    intro S S'
    constructor
    · intro h; cases h; exact fun n => .nil
    · intro h
      have : S' = S := by
        funext n
        have := h n
        simp only [rulesFor, List.filter_nil] at this
        generalize S n = C at this
        cases this; rfl
      subst this
      exact .nil
  | @cons b r bs rs hb _ ih =>
    intro S S'
    have hf : ∀ n, rulesFor n (r :: rs) = (if r.cls = n then [r] else []) ++ rulesFor n rs := by
      intro n
      by_cases h : r.cls = n <;> simp [rulesFor, h]
    constructor
    · intro h
      cases h with
      | cons h1 h2 h3 h4 h5 =>
        rename_i S1 name σ
        obtain ⟨name', g1, g2, g3, g4⟩ := hb
        obtain rfl : name = name' := (strips_unique h1).symm.trans (strips_unique g1)
        obtain rfl := bodySets_unique h3 g4
        obtain ⟨e1, e2⟩ := (enter_iff g3).mp h4
        intro n
        rw [hf, after_append]
        refine ⟨S1 n, ?_, ih.mp h5 n⟩
        by_cases hn : r.cls = n
        · subst hn; rw [if_pos rfl]; exact e1
        · rw [if_neg hn, e2 n (fun h => hn h.symm)]; exact .nil
    · intro h
      obtain ⟨name, g1, g2, g3, g4⟩ := hb
      have h1 := h r.cls
      rw [hf, if_pos rfl, after_append] at h1
      obtain ⟨C, hC, _⟩ := h1
      refine .cons (S' := fun n => if n = r.cls then C else S n) g1 g2 g4 ((enter_iff g3).mpr ⟨by simp only [if_true]; exact hC, fun n hn => by simp [hn]⟩)
        (ih.mpr fun n => ?_)
      have hn := h n
      rw [hf, after_append] at hn
      obtain ⟨C', ha, hb⟩ := hn
      by_cases hc : r.cls = n
      · subst hc
        rw [if_pos rfl] at ha
        obtain rfl := after_unique hC ha
        simpa using hb
      · rw [if_neg hc] at ha
        rw [if_neg (fun h => hc h.symm)]
        generalize hX : S n = X at ha
        cases ha
        exact hb

/-! ### The last rules count -/

theorem after_selectors : ∀ {rs : List SheetRule} {D : ClassMeaning}, (∀ x ∈ rs, x.sel ≠ none) →
    ∃ D' : ClassMeaning, After (some D) rs (some D') ∧ D'.own = D.own ∧ ∀ s σ, D'.sel s = some σ ↔
      (∃ u x v, rs = u ++ x :: v ∧ x.sel = some s ∧ x.sets = σ ∧ ∀ y ∈ v, y.sel ≠ some s) ∨ ((∀ y ∈ rs, y.sel ≠ some s) ∧ D.sel s = some σ) := by
  intro rs
  induction rs with
  | nil => exact fun {D} _ => ⟨D, .nil, rfl, by simp⟩
  | cons r rs ih =>
    intro D h
    cases hs : r.sel with
    | none => exact absurd hs (h r (by simp))
    | some t =>
      obtain ⟨D', h1, h2, h3⟩ := @ih { D with sel := fun x => if x = t then some r.sets else D.sel x } (fun x hx => h x (List.mem_cons_of_mem _ hx))
      refine ⟨D', .selector hs h1, h2, fun s σ => ?_⟩
      rw [h3]
      constructor
      · rintro (⟨u, x, v, rfl, g⟩ | ⟨g1, g2⟩)
        · exact .inl ⟨r :: u, x, v, rfl, g⟩
        · simp only at g2
          by_cases hst : s = t
          · rw [if_pos hst] at g2
            simp only [Option.some.injEq] at g2
            exact .inl ⟨[], r, rs, rfl, by rw [hs, hst], g2, g1⟩
          · rw [if_neg hst] at g2
            refine .inr ⟨fun y hy => ?_, g2⟩
            rcases List.mem_cons.mp hy with rfl | hy
            · rw [hs]; simpa using fun h => hst h.symm
            · exact g1 y hy
      · rintro (⟨u, x, v, g1, g2, g3, g4⟩ | ⟨g1, g2⟩)
        · cases u with
          | nil =>
            simp only [List.nil_append, List.cons.injEq] at g1
            obtain ⟨rfl, rfl⟩ := g1
            rw [hs] at g2
            simp only [Option.some.injEq] at g2
            exact .inr ⟨g4, by simp [g2, g3]⟩
          | cons y u =>
            simp only [List.cons_append, List.cons.injEq] at g1
            exact .inl ⟨u, x, v, g1.2, g2, g3, g4⟩
        · refine .inr ⟨fun y hy => g1 y (List.mem_cons_of_mem _ hy), ?_⟩
          have := g1 r (by simp)
          rw [hs] at this
          exact (if_neg (fun h => this (by rw [h]))).trans g2

/-- The last rule without selector. -/
theorem exists_lastPlain : ∀ (rs : List SheetRule), (∃ x ∈ rs, x.sel = none) →
    ∃ before r after, rs = before ++ r :: after ∧ r.sel = none ∧ ∀ x ∈ after, x.sel ≠ none := by
  intro rs
  induction rs with
  | nil => simp
  | cons r rs ih =>
    rintro ⟨x, hx, hs⟩
    by_cases h : ∃ x ∈ rs, x.sel = none
    · obtain ⟨b, r', a, rfl, h1, h2⟩ := ih h
      exact ⟨r :: b, r', a, rfl, h1, h2⟩
    · rcases List.mem_cons.mp hx with rfl | hx
      · exact ⟨[], x, rs, rfl, hs, fun y hy hn => h ⟨y, hy, hn⟩⟩
      · exact absurd ⟨x, hx, hs⟩ h

/-- Rules never fail once there is a class. -/
theorem after_total (rs : List SheetRule) : ∀ D, ∃ D', After (some D) rs (some D') := by
  induction rs with
  | nil => exact fun D => ⟨D, .nil⟩
  | cons r rs ih =>
    intro D
    cases hs : r.sel with
    | none => obtain ⟨D', h⟩ := ih ⟨r.sets, fun _ => none⟩; exact ⟨D', .plain hs h⟩
    | some s => obtain ⟨D', h⟩ := ih { D with sel := fun t => if t = s then some r.sets else D.sel t }; exact ⟨D', .selector hs h⟩

theorem after_of_plain {before after : List SheetRule} {r : SheetRule} (hr : r.sel = none) (hf : ∀ first rest, before = first :: rest → first.sel = none)
    {C : Option ClassMeaning} : After none (before ++ r :: after) C ↔ After (some ⟨r.sets, fun _ => none⟩) after C := by
  constructor
  · intro h
    obtain ⟨C', _, h2⟩ := after_append.mp h
    cases h2 with
    | plain _ h => exact h
    | selector h _ => rw [hr] at h; simp at h
  · intro h
    refine after_append.mpr ?_
    cases before with
    | nil => exact ⟨none, .nil, .plain hr h⟩
    | cons x rest =>
      obtain ⟨D', h'⟩ := after_total rest ⟨x.sets, fun _ => none⟩
      exact ⟨some D', .plain (hf x rest rfl) h', .plain hr h⟩

theorem after_iff {rs : List SheetRule} {C : Option ClassMeaning} : After none rs C ↔ ClassMeans rs C := by
  constructor
  · intro h
    cases rs with
    | nil => cases h; exact .inl ⟨rfl, rfl⟩
    | cons x rest =>
      have hx : x.sel = none := by cases h; assumption
      obtain ⟨before, r, after, he, h1, h2⟩ := exists_lastPlain (x :: rest) ⟨x, by simp, hx⟩
      have hf : ∀ first rest', before = first :: rest' → first.sel = none := by
        rintro first rest' rfl
        simp only [List.cons_append, List.cons.injEq] at he
        rw [← he.1]; exact hx
      rw [he, after_of_plain h1 hf] at h
      obtain ⟨D, h3, h4, h5⟩ := after_selectors (D := ⟨r.sets, fun _ => none⟩) h2
      obtain rfl := after_unique h h3
      refine .inr ⟨x, rest, before, r, after, D, rfl, hx, he, h1, h2, rfl, h4, fun s σ => ?_⟩
      rw [h5]; simp
  · rintro (⟨rfl, rfl⟩ | ⟨first, rest, before, r, after, D, h1, h2, h3, h4, h5, rfl, h6, h7⟩)
    · exact .nil
    · have hf : ∀ first' rest', before = first' :: rest' → first'.sel = none := by
        rintro first' rest' rfl
        rw [h3] at h1
        simp only [List.cons_append, List.cons.injEq] at h1
        rw [h1.1]; exact h2
      rw [h3, after_of_plain h4 hf]
      obtain ⟨D', h8, h9, h10⟩ := after_selectors (D := ⟨r.sets, fun _ => none⟩) h5
      have : D' = D := by
        cases D; cases D'
        simp only at h6 h7 h9 h10
        subst h6 h9
        congr 1
        funext s
        apply Option.ext
        intro σ
        rw [h10, h7]; simp
      subst this
      exact h8

end Verif.Proofs
