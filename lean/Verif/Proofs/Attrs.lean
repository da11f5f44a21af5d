import Verif.Proofs.StyleValue
import Verif.Model.Attrs
/-
Helper lemmas for the attribute properties (C31).
-/
namespace Verif.Proofs
open Verif.Go Verif.Model Verif.Spec

theorem runeBytes_toNat (s : Str) : runeBytes (s.map UInt8.toNat) = s := by
  simp only [runeBytes, List.map_map]
  conv => rhs; rw [← List.map_id s]
  congr 1; funext c; simp

theorem digitsVal_isDec : ∀ (s : Str) (acc n : Nat), digitsVal 10 acc s = some n → ∀ r ∈ s.map UInt8.toNat, isDec r = true := by
  intro s
  induction s with
  | nil => simp
  | cons c cs ih =>
    intro acc n h r hr
    simp only [digitsVal] at h
    split at h
    · simp at h
    · rename_i d hd
      split at h
      · rename_i hlt
        simp only [List.map_cons, List.mem_cons] at hr
        rcases hr with rfl | hr
        · unfold digitVal at hd
          by_cases h1 : 48 ≤ c.toNat ∧ c.toNat ≤ 57
          · simp [isDec, h1]
          · rw [if_neg h1] at hd
            split at hd
            · simp at hd; omega
            · split at hd
              · simp at hd; omega
              · simp at hd
        · exact ih _ _ h r hr
      · simp at h

theorem parseUint_isDec {s : Str} {n : Nat} (h : parseUint 10 64 s = some n) :
    s ≠ [] ∧ ∀ r ∈ s.map UInt8.toNat, isDec r = true := by
  unfold parseUint at h
  split at h
  · simp at h
  · rename_i hne
    split at h
    · simp at h
    · rename_i m hm
      exact ⟨hne, digitsVal_isDec s 0 m hm⟩

/-- `strconv.ParseInt` accepts exactly the 64-bit decimal integers. -/
theorem parseInt_iff (s : Str) (n : Int) : parseInt s = some n ↔ IntText (s.map UInt8.toNat) n := by
  constructor
  · intro h
    have key : ∃ sg ds, s.map UInt8.toNat = sg ++ ds ∧ (sg = [] ∨ sg = [43] ∨ sg = [45]) ∧ ds ≠ [] ∧
        ∀ r ∈ ds, isDec r = true := by
      unfold parseInt at h
      split at h
      · simp at h
      · rename_i r
        split at h
        · simp at h
        · rename_i m hm
          obtain ⟨h1, h2⟩ := parseUint_isDec hm
          exact ⟨[43], r.map UInt8.toNat, rfl, by simp, by simpa using h1, h2⟩
      · rename_i r
        split at h
        · simp at h
        · rename_i m hm
          obtain ⟨h1, h2⟩ := parseUint_isDec hm
          exact ⟨[45], r.map UInt8.toNat, rfl, by simp, by simpa using h1, h2⟩
      · split at h
        · simp at h
        · rename_i m hm
          obtain ⟨h1, h2⟩ := parseUint_isDec hm
          exact ⟨[], _, rfl, by simp, by simpa using h1, h2⟩
    obtain ⟨sg, ds, he, hsg, hne, hd⟩ := key
    rw [he]
    exact intText_of_parse hsg hne hd (by rw [← he, runeBytes_toNat]; exact h)
  · intro h
    obtain ⟨_, _, _, _, _, hp⟩ := intText_cases h
    rwa [runeBytes_toNat] at hp

end Verif.Proofs
