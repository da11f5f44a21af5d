import Verif.Proofs.Attrs
import Verif.Proofs.Space
import Verif.Proofs.StyleCascade
import Verif.Spec.Attrs
import Verif.Model.Load
/-
Property C87: attributes of line feeds, positions and grid parts (/repo/xdoc/instructions.go, /repo/xdoc/grid.go).
-/
namespace Verif.Props
open Verif.Go Verif.Model Verif.Spec Verif.Proofs

private theorem floatValue_iff (fl : Floats) (v : Str) (x : ℚ) : floatValue fl v = some x ↔ IsNumber fl v x := by
  unfold floatValue IsNumber
  split
  · rename_i h
    simp only [h, true_and, ne_eq, not_true_eq_false, false_and, or_false, Option.some.injEq]
    exact eq_comm
  · rename_i h
    simp only [h, false_and, false_or, ne_eq, not_false_eq_true, true_and]
    constructor
    · exact fun hp => ⟨_, (trimWhite_iff v _).mp rfl, hp⟩
    · rintro ⟨w, hw, hp⟩
      rw [(trimWhite_iff v w).mpr hw]; exact hp

private theorem given_eq {n : Str} (v : Str) (as : List (Str × Str)) : given n ((n, v) :: as) = v :: given n as := by simp [given]
private theorem given_ne {n m : Str} (h : m ≠ n) (v : Str) (as : List (Str × Str)) : given n ((m, v) :: as) = given n as := by
  simp [given, h]

private theorem floatAttr_iff (fl : Floats) (name : Str) : ∀ (as : List Attr) (x0 x : ℚ), floatAttr fl name as x0 = some x ↔
    (∀ v ∈ given name as, ∃ y, IsNumber fl v y) ∧
      ((given name as = [] ∧ x = x0) ∨ ∃ ws v, given name as = ws ++ [v] ∧ IsNumber fl v x)
  | [], x0, x => by simp [floatAttr, given]; exact eq_comm
  | (n, v) :: as, x0, x => by
      by_cases h : n = name
      · subst h
        simp only [floatAttr, if_true, given_eq]
        cases hv : floatValue fl v with
        | none =>
          simp only [reduceCtorEq, false_iff]
          rintro ⟨h1, _⟩
          obtain ⟨y, hy⟩ := h1 v (by simp)
          rw [← floatValue_iff, hv] at hy; simp at hy
        | some y =>
          have hy := (floatValue_iff fl v y).mp hv
          simp only
          rw [floatAttr_iff fl n as y x]
          constructor
          · rintro ⟨h1, h2⟩
            refine ⟨by simpa using ⟨⟨y, hy⟩, h1⟩, .inr ?_⟩
            rcases h2 with ⟨h2, rfl⟩ | ⟨ws, w, h2, h3⟩
            · exact ⟨[], v, by simp [h2], hy⟩
            · exact ⟨v :: ws, w, by simp [h2], h3⟩
          · rintro ⟨h1, h2⟩
            refine ⟨fun w hw => h1 w (by simp [hw]), ?_⟩
            rcases h2 with ⟨h2, _⟩ | ⟨ws, w, h2, h3⟩
            · simp at h2
            · cases ws with
              | nil =>
                simp only [List.nil_append, List.cons.injEq] at h2
                obtain ⟨rfl, h2⟩ := h2
                have : floatValue fl v = some x := (floatValue_iff fl v x).mpr h3
                rw [hv] at this
                exact .inl ⟨h2, (Option.some.inj this).symm⟩
              | cons u us =>
                simp only [List.cons_append, List.cons.injEq] at h2
                exact .inr ⟨us, w, h2.2, h3⟩
      · simp only [floatAttr, if_neg h, given_ne h]
        exact floatAttr_iff fl name as x0 x

/-- C87: `lines` of a line feed and `x`, `y` of a position: accepted exactly if every value given is a number; the last one counts, and 0
if there is none. -/
theorem C87_number (fl : Floats) (name : Str) (as : List Attr) (x : ℚ) : floatAttr fl name as 0 = some x ↔
    (∀ v ∈ given name as, ∃ y, IsNumber fl v y) ∧ LastNumber fl (given name as) x :=
  floatAttr_iff fl name as 0 x

private theorem area_foldl : ∀ (as : List Attr) (acc : Str),
    as.foldl (fun acc a => if a.1 = b!"area" then a.2 else acc) acc = (given b!"area" as).getLast?.getD acc
  | [], acc => rfl
  | (n, v) :: as, acc => by
      rw [List.foldl_cons, area_foldl as]
      by_cases h : n = b!"area"
      · subst h
        rw [given_eq, List.getLast?_cons]
        cases (given b!"area" as).getLast? <;> simp
      · rw [given_ne h]; simp [h]

/-- C87: the attributes of a grid part are accepted exactly if every style attribute is correct; its area is the last one given, empty if
none is. -/
theorem C87_part (fl : Floats) (ord : Nat → MapOrder) (as : List Attr) (area : Str) :
    (∃ st, partDecodeAttrs fl ord as = some (area, st)) ↔
      (∀ v ∈ given b!"style" as, ∃ σ, BodySets fl v σ) ∧
      ((given b!"area" as = [] ∧ area = []) ∨ ∃ ws, given b!"area" as = ws ++ [area]) := by
  have hst := decodeAttrs_none (fl := fl) (ord := ord) as ⟨[], []⟩
  have hst' : (∃ st, Styled.decodeAttrs fl ord as ⟨[], []⟩ = some st) ↔ ∀ v ∈ given b!"style" as, ∃ σ, BodySets fl v σ := by
    rw [← Option.isSome_iff_exists, ← Option.ne_none_iff_isSome, Ne, hst]
    simp only [given, List.mem_map, List.mem_filter, decide_eq_true_eq]
    constructor
    · intro h v hv
      obtain ⟨⟨k, w⟩, ⟨h1, h2⟩, h3⟩ := hv
      simp only at h2 h3
      subst h2; subst h3
      by_contra hc; exact h ⟨_, h1, hc⟩
    · rintro h ⟨v, hv, hn⟩
      exact hn (h v ⟨_, ⟨hv, rfl⟩, rfl⟩)
  rw [← hst']
  have ha : ((given b!"area" as).getLast?.getD [] = area ↔
      (given b!"area" as = [] ∧ area = []) ∨ ∃ ws, given b!"area" as = ws ++ [area]) := by
    rcases List.eq_nil_or_concat (given b!"area" as) with h | ⟨ws, w, h⟩
    · rw [h]
      exact ⟨fun h => .inl ⟨rfl, h.symm⟩, fun h => h.elim (fun h => h.2.symm) fun ⟨ws, h⟩ => by simp at h⟩
    · rw [h]; simp
  rw [← ha]
  simp only [partDecodeAttrs, area_foldl, Option.map_eq_some_iff, Prod.mk.injEq]
  constructor
  · rintro ⟨st, st', h1, h2, -⟩; exact ⟨⟨st', h1⟩, h2⟩
  · rintro ⟨⟨st, h1⟩, h2⟩; exact ⟨st, st, h1, h2, rfl⟩

/-! ### Examples -/

private def fl0 : Floats := { parseFloat := fun s => (parseInt s).map (fun n => (n : ℚ)), convertFloat := fun s => (parseInt s).map (fun n => (n : ℚ)) }
private def ordId : Nat → MapOrder := fun _ => ⟨id, fun _ => .refl _⟩

example : floatAttr fl0 b!"x" [(b!"x", b!"1"), (b!"y", b!"z"), (b!"x", b!" 2\n")] 0 = some 2 ∧ floatAttr fl0 b!"x" [(b!"x", [])] 0 = some 0 ∧
    floatAttr fl0 b!"x" [(b!"x", b!"a"), (b!"x", b!"1")] 0 = none ∧ floatAttr fl0 b!"x" [(b!"x", b!" ")] 0 = none := by decide +kernel

example : floatAttr fl0 b!"x" [(b!"x", b!"\u00a012\u3000 ")] 0 = some 12 ∧ floatAttr fl0 b!"x" [(b!"x", b!"1\u00a02")] 0 = none := by decide +kernel

example : (partDecodeAttrs fl0 ordId [(b!"area", b!"a"), (b!"area", b!"b")]).map (·.1) = some b!"b" ∧
    (partDecodeAttrs fl0 ordId []).map (·.1) = some [] := by decide +kernel

end Verif.Props
