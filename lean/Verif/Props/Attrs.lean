import Verif.Proofs.Attrs
import Verif.Proofs.StyleCascade
import Verif.Spec.Attrs
/-
Property C31: attributes of tables and cells (/repo/xdoc/table.go).  The part on spans of 1 or less is in Props/Table.
-/
namespace Verif.Props
open Verif.Go Verif.Model Verif.Spec Verif.Proofs

private theorem given_cons_eq {n : Str} (v : Str) (as : List (Str × Str)) : given n ((n, v) :: as) = v :: given n as := by
  simp [given]

private theorem given_cons_ne {n m : Str} (h : m ≠ n) (v : Str) (as : List (Str × Str)) : given n ((m, v) :: as) = given n as := by
  simp [given, h]

private theorem isInt_unique {v : Str} {n m : Int} (h : IsInt v n) (h' : IsInt v m) : n = m := by
  unfold IsInt at h h'
  rw [← parseInt_iff] at h h'
  rw [h] at h'; simpa using h'

/-- Last integer with a start value. -/
private def LastIntFrom (n0 : Int) (vs : List Str) (n : Int) : Prop :=
  (vs = [] ∧ n = n0) ∨ ∃ ws v, vs = ws ++ [v] ∧ IsInt v n

private theorem lastFrom_cons {n0 m n : Int} {v : Str} {vs : List Str} (h : IsInt v m) :
    LastIntFrom n0 (v :: vs) n ↔ LastIntFrom m vs n := by
  constructor
  · rintro (⟨h1, _⟩ | ⟨ws, w, h1, h2⟩)
    · simp at h1
    · rcases List.eq_nil_or_concat vs with rfl | ⟨xs, x, rfl⟩
      · have hlen := congrArg List.length h1
        have : ws = [] := by simpa using hlen
        subst this; simp at h1; subst h1
        exact .inl ⟨rfl, isInt_unique h2 h⟩
      · have h3 : ws ++ [w] = (v :: xs) ++ [x] := by rw [← h1]; simp
        obtain ⟨rfl, h4⟩ := List.append_inj' h3 rfl
        simp at h4; subst h4
        exact .inr ⟨xs, w, by simp, h2⟩
  · rintro (⟨rfl, rfl⟩ | ⟨ws, w, rfl, h2⟩)
    · exact .inr ⟨[], v, rfl, h⟩
    · exact .inr ⟨v :: ws, w, rfl, h2⟩

private theorem tableAttrs_iff : ∀ (as : List Attr) (n0 n : Int), tableAttrs as n0 = some n ↔
    (∀ v ∈ given b!"repeatheader" as, ∃ m, IsInt v m ∧ 0 ≤ m ∧ m ≤ 10) ∧ LastIntFrom n0 (given b!"repeatheader" as) n := by
  intro as
  induction as with
  | nil => intro n0 n; simp [tableAttrs, given, LastIntFrom]; exact eq_comm
  | cons a as ih =>
    obtain ⟨k, v⟩ := a
    intro n0 n
    by_cases hk : k = b!"repeatheader"
    · subst hk
      rw [given_cons_eq]
      simp only [tableAttrs, if_true]
      cases hp : parseInt v with
      | none =>
        simp only [false_iff, reduceCtorEq]
        rintro ⟨h1, _⟩
        obtain ⟨m, hm, _⟩ := h1 v (by simp)
        unfold IsInt at hm
        rw [← parseInt_iff, hp] at hm; simp at hm
      | some m =>
        have hm : IsInt v m := (parseInt_iff v m).mp hp
        simp only []
        by_cases hr : m < 0 ∨ m > 10
        · simp only [if_pos hr, reduceCtorEq, false_iff]
          rintro ⟨h1, _⟩
          obtain ⟨m', hm', hb⟩ := h1 v (by simp)
          have := isInt_unique hm hm'
          omega
        · rw [if_neg hr, ih, lastFrom_cons hm]
          constructor
          · rintro ⟨h1, h2⟩
            refine ⟨?_, h2⟩
            intro w hw
            simp only [List.mem_cons] at hw
            rcases hw with rfl | hw
            · exact ⟨m, hm, by omega, by omega⟩
            · exact h1 w hw
          · rintro ⟨h1, h2⟩
            exact ⟨fun w hw => h1 w (by simp [hw]), h2⟩
    · rw [given_cons_ne hk]
      simp only [tableAttrs, if_neg hk]
      exact ih n0 n

private theorem cellAttrs_iff : ∀ (as : List Attr) (c0 r0 c r : Int), cellAttrs as c0 r0 = some (c, r) ↔
    (∀ v ∈ given b!"colspan" as, ∃ m, IsInt v m) ∧ (∀ v ∈ given b!"rowspan" as, ∃ m, IsInt v m) ∧
    LastIntFrom c0 (given b!"colspan" as) c ∧ LastIntFrom r0 (given b!"rowspan" as) r := by
  intro as
  induction as with
  | nil =>
    intro c0 r0 c r
    simp [cellAttrs, given, LastIntFrom]
    constructor <;> rintro ⟨rfl, rfl⟩ <;> simp
  | cons a as ih =>
    obtain ⟨k, v⟩ := a
    intro c0 r0 c r
    by_cases hk : k = b!"colspan"
    · subst hk
      rw [given_cons_eq, given_cons_ne (by decide)]
      simp only [cellAttrs, if_true]
      cases hp : parseInt v with
      | none =>
        simp only [false_iff, reduceCtorEq]
        rintro ⟨h1, _⟩
        obtain ⟨m, hm⟩ := h1 v (by simp)
        unfold IsInt at hm
        rw [← parseInt_iff, hp] at hm; simp at hm
      | some m =>
        have hm : IsInt v m := (parseInt_iff v m).mp hp
        simp only []
        rw [ih, lastFrom_cons hm]
        simp only [List.mem_cons, forall_eq_or_imp]
        constructor
        · rintro ⟨h1, h2, h3, h4⟩; exact ⟨⟨⟨m, hm⟩, h1⟩, h2, h3, h4⟩
        · rintro ⟨⟨_, h1⟩, h2, h3, h4⟩; exact ⟨h1, h2, h3, h4⟩
    · by_cases hk' : k = b!"rowspan"
      · subst hk'
        rw [given_cons_eq, given_cons_ne (by decide)]
        simp only [cellAttrs, if_neg hk, if_true]
        cases hp : parseInt v with
        | none =>
          simp only [false_iff, reduceCtorEq]
          rintro ⟨_, h1, _⟩
          obtain ⟨m, hm⟩ := h1 v (by simp)
          unfold IsInt at hm
          rw [← parseInt_iff, hp] at hm; simp at hm
        | some m =>
          have hm : IsInt v m := (parseInt_iff v m).mp hp
          simp only []
          rw [ih, lastFrom_cons hm]
          simp only [List.mem_cons, forall_eq_or_imp]
          constructor
          · rintro ⟨h1, h2, h3, h4⟩; exact ⟨h1, ⟨⟨m, hm⟩, h2⟩, h3, h4⟩
          · rintro ⟨h1, ⟨_, h2⟩, h3, h4⟩; exact ⟨h1, h2, h3, h4⟩
      · rw [given_cons_ne hk, given_cons_ne hk']
        simp only [cellAttrs, if_neg hk, if_neg hk']
        exact ih c0 r0 c r

/-- C31: the attributes of a table are accepted exactly if every repeatheader value is a decimal integer in 0..10 and every
style attribute is correct; RepeatHeader is the last value given, 0 if none. -/
theorem C31_table (fl : Floats) (ord : Nat → MapOrder) (as : List Attr) (rh : Int) :
    (∃ st, tableDecodeAttrs fl ord as = some (rh, st)) ↔
      (∀ v ∈ given b!"repeatheader" as, ∃ m, IsInt v m ∧ 0 ≤ m ∧ m ≤ 10) ∧ LastInt (given b!"repeatheader" as) rh ∧
      (∀ v ∈ given b!"style" as, ∃ σ, BodySets fl v σ) := by
  have hst := decodeAttrs_none (fl := fl) (ord := ord) as ⟨[], []⟩
  have hst' : (∃ st, Styled.decodeAttrs fl ord as ⟨[], []⟩ = some st) ↔ ∀ v ∈ given b!"style" as, ∃ σ, BodySets fl v σ := by
    rw [← Option.isSome_iff_exists, ← Option.ne_none_iff_isSome, Ne, hst]
    simp only [given, List.mem_map, List.mem_filter, decide_eq_true_eq]
    constructor
    · intro h v hv
      obtain ⟨⟨k, w⟩, ⟨h1, h2⟩, h3⟩ := hv
      simp only at h2 h3
      subst h2; subst h3
      by_contra hc; exact h ⟨_, h1, hc⟩
    · rintro h ⟨v, hv, hn⟩
      exact hn (h v ⟨_, ⟨hv, rfl⟩, rfl⟩)
  rw [← hst']
  have ht := tableAttrs_iff as 0
  unfold tableDecodeAttrs
  constructor
  · rintro ⟨st, h⟩
    split at h
    · simp at h
    · rename_i n hn
      simp only [Option.map_eq_some_iff, Prod.mk.injEq] at h
      obtain ⟨st', h1, rfl, rfl⟩ := h
      obtain ⟨h2, h3⟩ := (ht n).mp hn
      exact ⟨h2, h3, st', h1⟩
  · rintro ⟨h1, h2, st, h3⟩
    rw [(ht rh).mpr ⟨h1, h2⟩]
    exact ⟨st, by simp [h3]⟩

/-- C31: the attributes of a cell are accepted exactly if every colspan and rowspan value is a decimal 64-bit integer and
every style attribute is correct; the spans are the last values given, 0 if none. -/
theorem C31_cell (fl : Floats) (ord : Nat → MapOrder) (as : List Attr) (c r : Int) :
    (∃ st, cellDecodeAttrs fl ord as = some (c, r, st)) ↔
      (∀ v ∈ given b!"colspan" as, ∃ m, IsInt v m) ∧ (∀ v ∈ given b!"rowspan" as, ∃ m, IsInt v m) ∧
      LastInt (given b!"colspan" as) c ∧ LastInt (given b!"rowspan" as) r ∧
      (∀ v ∈ given b!"style" as, ∃ σ, BodySets fl v σ) := by
  have hst := decodeAttrs_none (fl := fl) (ord := ord) as ⟨[], []⟩
  have hst' : (∃ st, Styled.decodeAttrs fl ord as ⟨[], []⟩ = some st) ↔ ∀ v ∈ given b!"style" as, ∃ σ, BodySets fl v σ := by
    rw [← Option.isSome_iff_exists, ← Option.ne_none_iff_isSome, Ne, hst]
    simp only [given, List.mem_map, List.mem_filter, decide_eq_true_eq]
    constructor
    · intro h v hv
      obtain ⟨⟨k, w⟩, ⟨h1, h2⟩, h3⟩ := hv
      simp only at h2 h3
      subst h2; subst h3
      by_contra hc; exact h ⟨_, h1, hc⟩
    · rintro h ⟨v, hv, hn⟩
      exact hn (h v ⟨_, ⟨hv, rfl⟩, rfl⟩)
  rw [← hst']
  have ht := cellAttrs_iff as 0 0
  unfold cellDecodeAttrs
  constructor
  · rintro ⟨st, h⟩
    split at h
    · simp at h
    · rename_i n m hn
      simp only [Option.map_eq_some_iff, Prod.mk.injEq] at h
      obtain ⟨st', h1, rfl, rfl, rfl⟩ := h
      obtain ⟨h2, h3, h4, h5⟩ := (ht n m).mp hn
      exact ⟨h2, h3, h4, h5, st', h1⟩
  · rintro ⟨h1, h2, h3, h4, st, h5⟩
    rw [(ht c r).mpr ⟨h1, h2, h3, h4⟩]
    exact ⟨st, by simp [h5]⟩

example : tableAttrs [(b!"class", b!"x"), (b!"repeatheader", b!"10")] 0 = some 10 ∧ tableAttrs [(b!"repeatheader", b!"11")] 0 = none ∧
    tableAttrs [(b!"repeatheader", b!"-1")] 0 = none ∧ tableAttrs [(b!"repeatheader", b!"1.0")] 0 = none ∧
    tableAttrs [(b!"repeatheader", b!"+3")] 0 = some 3 ∧ tableAttrs [] 0 = some 0 := by decide +kernel

example : cellAttrs [(b!"colspan", b!"-5"), (b!"rowspan", b!"2"), (b!"rowspan", b!"3")] 0 0 = some (-5, 3) ∧
    cellAttrs [(b!"colspan", b!"9223372036854775808")] 0 0 = none ∧ cellAttrs [(b!"rowspan", b!"")] 0 0 = none := by decide +kernel

end Verif.Props
