import Verif.Proofs.StyleClass
import Verif.Proofs.StyleValue
/- Lemmas about the cascade. -/
namespace Verif.Proofs
open Verif.Go Verif.Model Verif.Spec

theorem lastSetter_nil (inh : Leaf) (p : Prp) : lastSetter [] inh p = inh := rfl

theorem lastSetter_cons (σ : Prp → Option Leaf) (σs : List (Prp → Option Leaf)) (inh : Leaf) (p : Prp) :
    lastSetter (σ :: σs) inh p = lastSetter σs ((σ p).getD inh) p := by
  simp only [lastSetter, List.reverse_cons, List.filterMap_append]
  cases h : σs.reverse.filterMap (fun σ => σ p) with
  | cons x xs => simp
  | nil => cases hp : σ p <;> simp [hp]

theorem lastSetter_append (as bs : List (Prp → Option Leaf)) (inh : Leaf) (p : Prp) :
    lastSetter (as ++ bs) inh p = lastSetter bs (lastSetter as inh p) p := by
  induction as generalizing inh with
  | nil => rfl
  | cons a as ih => rw [List.cons_append, lastSetter_cons, lastSetter_cons, ih]

theorem inline_get {ms : List Mutator} {σs : List (Prp → Option Leaf)} (h : List.Forall₂ Behaves ms σs) :
    ∀ (s : Styles) (p : Prp), p.get (ms.foldl (fun s m => mutate m s) s) = lastSetter σs (p.get s) p := by
  induction h with
  | nil => intro s p; rfl
  | cons h1 _ ih =>
    intro s p
    rw [List.foldl_cons, ih, lastSetter_cons, (h1 s).2]

theorem classes_get {cs : Classes} {S : SheetMeaning} (hR : Rep cs S) : ∀ (use : List Str) (s : Styles) (p : Prp),
    p.get (cs.mutate use s) = lastSetter (use.filterMap (fun n => (S n).map (·.own))) (p.get s) p := by
  intro use
  induction use with
  | nil => intro s p; rfl
  | cons n use ih =>
    intro s p
    have hn := hR n
    simp only [Classes.mutate]
    cases hg : mapGet n cs with
    | none =>
      rw [hg] at hn
      cases hS : S n with
      | none => simp only [ih, List.filterMap_cons, hS, Option.map_none]
      | some C => rw [hS] at hn; exact absurd hn id
    | some c =>
      rw [hg] at hn
      cases hS : S n with
      | none => rw [hS] at hn; exact absurd hn id
      | some C =>
        rw [hS] at hn
        simp only [ih, List.filterMap_cons, hS, Option.map_some, lastSetter_cons, Class.mutate]
        rw [(hn.1 s).2]

theorem classes_get_sel {cs : Classes} {S : SheetMeaning} (hR : Rep cs S) (sel : Str) : ∀ (use : List Str) (s : Styles) (p : Prp),
    p.get (cs.mutateWithSelector sel use s) =
      lastSetter (use.filterMap (fun n => (S n).map (fun C => (C.sel sel).getD C.own))) (p.get s) p := by
  intro use
  induction use with
  | nil => intro s p; rfl
  | cons n use ih =>
    intro s p
    have hn := hR n
    simp only [Classes.mutateWithSelector]
    cases hg : mapGet n cs with
    | none =>
      rw [hg] at hn
      cases hS : S n with
      | none => simp only [ih, List.filterMap_cons, hS, Option.map_none]
      | some C => rw [hS] at hn; exact absurd hn id
    | some c =>
      rw [hg] at hn
      cases hS : S n with
      | none => rw [hS] at hn; exact absurd hn id
      | some C =>
        rw [hS] at hn
        have ht := hn.2 sel
        simp only [ih, List.filterMap_cons, hS, Option.map_some, lastSetter_cons, Class.mutateWithSelector]
        cases hm : mapGet sel c.selectors with
        | none =>
          rw [hm] at ht
          cases hC : C.sel sel with
          | none => simp only [Option.getD_none]; rw [(hn.1 s).2]
          | some τ => rw [hC] at ht; exact absurd ht id
        | some m =>
          rw [hm] at ht
          cases hC : C.sel sel with
          | none => rw [hC] at ht; exact absurd ht id
          | some τ =>
            rw [hC] at ht
            simp only [Option.getD_some]; rw [(ht s).2]

theorem decodeAttrs_some {fl : Floats} {ord : Nat → MapOrder} : ∀ (as : List Attr) (st st' : Styled),
    Styled.decodeAttrs fl ord as st = some st' →
    ∃ σs, List.Forall₂ (BodySets fl) ((as.filter (fun a => a.1 = b!"style")).map Prod.snd) σs ∧
      (∃ ms, st'.mutators = st.mutators ++ ms ∧ List.Forall₂ Behaves ms σs) ∧
      st'.classes = st.classes ++ ((as.filter (fun a => a.1 = b!"class")).map Prod.snd).flatMap fields := by
  intro as
  induction as with
  | nil => intro st st' h; simp [Styled.decodeAttrs] at h; subst h; exact ⟨[], by simp, ⟨[], by simp⟩, by simp⟩
  | cons a as ih =>
    intro st st' h
    obtain ⟨n, v⟩ := a
    simp only [Styled.decodeAttrs] at h
    split at h
    · rename_i hn
      split at h
      · simp at h
      · rename_i m hm
        obtain ⟨σs, h1, ⟨ms, h2, h3⟩, h4⟩ := ih _ _ h
        obtain ⟨σ, hσ, hb⟩ := bodySets_iff.1 m hm
        refine ⟨σ :: σs, ?_, ⟨m :: ms, ?_, .cons hb h3⟩, ?_⟩
        · simp only [hn, List.filter_cons, decide_true, if_true, List.map_cons]; exact .cons hσ h1
        · rw [h2]; simp
        · rw [h4]; simp [hn]
    · rename_i hn
      split at h
      · rename_i hc
        obtain ⟨σs, h1, ⟨ms, h2, h3⟩, h4⟩ := ih _ _ h
        refine ⟨σs, ?_, ⟨ms, ?_, h3⟩, ?_⟩
        · simpa [hn] using h1
        · rw [h2]
        · rw [h4]; simp [hc]
      · rename_i hc
        obtain ⟨σs, h1, ⟨ms, h2, h3⟩, h4⟩ := ih _ _ h
        exact ⟨σs, by simpa [hn] using h1, ⟨ms, h2, h3⟩, by rw [h4]; simp [hc]⟩

theorem decodeAttrs_none {fl : Floats} {ord : Nat → MapOrder} : ∀ (as : List Attr) (st : Styled),
    Styled.decodeAttrs fl ord as st = none ↔ ∃ v, (b!"style", v) ∈ as ∧ ¬ ∃ σ, BodySets fl v σ := by
  intro as
  induction as with
  | nil => intro st; simp [Styled.decodeAttrs]
  | cons a as ih =>
    intro st
    obtain ⟨n, v⟩ := a
    simp only [Styled.decodeAttrs]
    split
    · rename_i hn
      split
      · rename_i hm
        simp only [true_iff]
        refine ⟨v, by simp [hn], ?_⟩
        rintro ⟨σ, hσ⟩
        obtain ⟨m, hm', _⟩ := (bodySets_iff (ord := ord as.length)).2 σ hσ
        rw [hm] at hm'; simp at hm'
      · rename_i m hm
        rw [ih]
        constructor
        · rintro ⟨w, hw, hno⟩; exact ⟨w, by simp [hw], hno⟩
        · rintro ⟨w, hw, hno⟩
          simp only [List.mem_cons, Prod.mk.injEq] at hw
          rcases hw with ⟨_, rfl⟩ | hw
          · obtain ⟨σ, hσ, _⟩ := bodySets_iff.1 m hm
            exact absurd ⟨σ, hσ⟩ hno
          · exact ⟨w, hw, hno⟩
    · rename_i hn
      have : (∃ w, (b!"style", w) ∈ (n, v) :: as ∧ ¬ ∃ σ, BodySets fl w σ) ↔ ∃ w, (b!"style", w) ∈ as ∧ ¬ ∃ σ, BodySets fl w σ := by
        constructor
        · rintro ⟨w, hw, hno⟩
          simp only [List.mem_cons, Prod.mk.injEq] at hw
          rcases hw with ⟨h, _⟩ | hw
          · exact absurd h.symm hn
          · exact ⟨w, hw, hno⟩
        · rintro ⟨w, hw, hno⟩; exact ⟨w, by simp [hw], hno⟩
      rw [this]
      split <;> exact ih _


theorem sheetText_eq (s : Str) : sheetText s = flat s := by
  simp only [sheetText, replaceAll_single, List.map_map, flat]
  apply List.map_congr_left
  intro c _
  simp only [Function.comp]
  by_cases h1 : c = 13
  · simp [h1]
  · by_cases h2 : c = 10
    · simp [h2]
    · by_cases h3 : c = 9
      · simp [h3]
      · simp [h1, h2, h3]

end Verif.Proofs
