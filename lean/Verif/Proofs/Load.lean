import Verif.Proofs.Pattern
/- Lemmas about loading pattern files. -/
namespace Verif.Proofs
open Verif.Go Verif.Model Verif.Spec

theorem split_ne_nil (sep : UInt8) (s : Str) : split sep s ≠ [] := by
  cases s with
  | nil => simp [split]
  | cons c cs =>
    simp only [split]
    split
    · simp
    · split <;> simp

/-- A line without the separator is the first piece. -/
theorem split_line {sep : UInt8} : ∀ (l : Str), sep ∉ l → split sep l = [l] := by
  intro l
  induction l with
  | nil => intro _; rfl
  | cons c cs ih =>
    intro h
    simp only [List.mem_cons, not_or] at h
    simp [split, ih h.2, Ne.symm h.1]

theorem split_append_sep {sep : UInt8} : ∀ (l r : Str), sep ∉ l → split sep (l ++ sep :: r) = l :: split sep r := by
  intro l
  induction l with
  | nil => intro r _; simp [split]
  | cons c cs ih =>
    intro r h
    simp only [List.mem_cons, not_or] at h
    simp [split, ih r h.2, Ne.symm h.1]

/-- Splitting inverts joining. -/
theorem split_join {sep : UInt8} : ∀ (ls : List Str), ls ≠ [] → (∀ l ∈ ls, sep ∉ l) → split sep (join ls [sep]) = ls := by
  intro ls
  induction ls with
  | nil => intro h; exact absurd rfl h
  | cons l ls ih =>
    intro _ h
    cases ls with
    | nil => exact split_line l (h l (by simp))
    | cons m ms =>
      simp only [join, List.append_assoc, List.cons_append, List.nil_append]
      rw [split_append_sep l _ (h l (by simp)), ih (by simp) (fun x hx => h x (by simp at hx ⊢; right; exact hx))]

theorem split_pieces_no_sep {sep : UInt8} : ∀ (s : Str), ∀ l ∈ split sep s, sep ∉ l := by
  intro s
  induction s with
  | nil => intro l hl; simp [split] at hl; simp [hl]
  | cons c cs ih =>
    intro l hl
    simp only [split] at hl
    split at hl
    · simp only [List.mem_cons] at hl
      rcases hl with rfl | hl
      · simp
      · exact ih l hl
    · rename_i hc
      split at hl
      · rename_i h; exact absurd h (split_ne_nil _ _)
      · rename_i h t heq
        simp only [List.mem_cons] at hl
        rcases hl with rfl | hl
        · have := ih h (by rw [heq]; simp)
          simp [this, Ne.symm hc]
        · exact ih l (by rw [heq]; simp [hl])

theorem join_split {sep : UInt8} (s : Str) : join (split sep s) [sep] = s := by
  induction s with
  | nil => rfl
  | cons c cs ih =>
    simp only [split]
    split
    · rename_i h
      subst h
      cases hs : split c cs with
      | nil => exact absurd hs (split_ne_nil _ _)
      | cons m ms => rw [hs] at ih; simp [join, ih]
    · cases hs : split sep cs with
      | nil => exact absurd hs (split_ne_nil _ _)
      | cons m ms =>
        rw [hs] at ih
        cases ms with
        | nil => simp [join] at ih ⊢; exact ih
        | cons n ns => simp [join] at ih ⊢; exact ih

/-- The trimmed, non-blank lines. -/
def cleanLines (ls : List Str) : List Str := (ls.map (trim wsCut)).filter (· ≠ [])

/-- Reading the lines: parse every clean line, all must succeed. -/
def readAll (nd : Nat → Bool) : List Str → Option (List Pattern)
  | [] => some []
  | l :: ls => match parsePattern nd l with
    | none => none
    | some p => (readAll nd ls).map (p :: ·)

theorem readAll_filterMap (nd : Nat → Bool) : ∀ (ls : List Str) (ps : List Pattern), readAll nd ls = some ps →
    ps = ls.filterMap (parsePattern nd) ∧ ∀ l ∈ ls, (parsePattern nd l).isSome = true := by
  intro ls
  induction ls with
  | nil => rintro ps ⟨rfl⟩; simp
  | cons l ls ih =>
    intro ps h
    simp only [readAll] at h
    cases hp : parsePattern nd l with
    | none => rw [hp] at h; simp at h
    | some p =>
      rw [hp] at h
      simp only [Option.map_eq_some_iff] at h
      obtain ⟨qs, hq, rfl⟩ := h
      obtain ⟨a, b⟩ := ih qs hq
      simp [hp, ← a]
      exact fun x hx => b x hx

theorem readAll_isSome (nd : Nat → Bool) : ∀ (ls : List Str), (∀ l ∈ ls, (parsePattern nd l).isSome = true) →
    (readAll nd ls).isSome = true := by
  intro ls
  induction ls with
  | nil => intro _; rfl
  | cons l ls ih =>
    intro h
    have h1 := h l (by simp)
    have h2 := ih (fun x hx => h x (by simp [hx]))
    simp only [readAll]
    cases hp : parsePattern nd l with
    | none => rw [hp] at h1; simp at h1
    | some p => simpa using h2

theorem parseLines_eq (nd : Nat → Bool) : ∀ (ls : List Str) (pl : Lookup),
    parseLines nd pl ls = (readAll nd (cleanLines ls)).map
      (fun ps => (ps.map (fun p => (encodeRunes p.letters, p))).reverse ++ pl) := by
  intro ls
  induction ls with
  | nil => intro pl; simp [parseLines, cleanLines, readAll]
  | cons l ls ih =>
    intro pl
    simp only [parseLines]
    split
    · rename_i h
      rw [ih]
      simp [cleanLines, h]
    · rename_i h
      have hc : cleanLines (l :: ls) = trim wsCut l :: cleanLines ls := by simp [cleanLines, h]
      rw [hc, readAll]
      cases hp : parsePattern nd (trim wsCut l) with
      | none => simp
      | some p =>
        simp only
        rw [ih, Option.map_map]
        congr 1
        funext ps
        simp

theorem lookup_map_find {ps : List Pattern} {key : Str} :
    List.lookup key (ps.map (fun p => (encodeRunes p.letters, p))) = ps.find? (fun p => encodeRunes p.letters == key) := by
  induction ps with
  | nil => rfl
  | cons p ps ih =>
    simp only [List.map_cons, List.lookup_cons, List.find?_cons, ih]
    by_cases h : key = encodeRunes p.letters
    · simp [h]
    · have h1 : (key == encodeRunes p.letters) = false := by simpa using h
      have h2 : (encodeRunes p.letters == key) = false := by simpa using Ne.symm h
      simp [h1, h2]

/-- trimming absorbs the trailing CR -/
theorem trimRight_append_cut (cut : UInt8 → Bool) (c : UInt8) (hc : cut c = true) (s : Str) :
    trimRight cut (s ++ [c]) = trimRight cut s := by
  induction s with
  | nil => simp [trimRight, hc]
  | cons d ds ih => simp [trimRight, ih]

theorem trim_append_cut (cut : UInt8 → Bool) (c : UInt8) (hc : cut c = true) (s : Str) :
    trim cut (s ++ [c]) = trim cut s := by
  unfold trim trimLeft
  rw [List.dropWhile_append]
  split
  · rename_i h
    have : s.dropWhile cut = [] := by simpa using h
    rw [this]; simp [hc, trimRight]
  · exact trimRight_append_cut cut c hc _

theorem trim_dropCR (s : Str) : trim wsCut (dropCR s) = trim wsCut s := by
  unfold dropCR
  split
  · rename_i r h
    have : s = r.reverse ++ [13] := by
      have := congrArg List.reverse h
      simpa using this
    rw [this, trim_append_cut wsCut 13 (by decide)]
  · rfl

theorem cleanLines_scanPieces : ∀ (ls : List Str), (∀ l ∈ ls, l.length < 65536) →
    cleanLines (scanPieces ls) = cleanLines ls := by
  intro ls
  induction ls with
  | nil => intro _; rfl
  | cons l ls ih =>
    intro h
    have h1 := h l (by simp)
    have hn : ¬ 65536 ≤ l.length := by omega
    cases ls with
    | nil =>
      simp only [scanPieces, hn, if_false]
      split
      · rename_i he; subst he; simp [cleanLines, trim, trimLeft, trimRight]
      · simp [cleanLines, trim_dropCR]
    | cons m ms =>
      have := ih (fun x hx => h x (by simp at hx ⊢; right; exact hx))
      simp only [scanPieces, hn, if_false]
      simp only [cleanLines, List.map_cons, trim_dropCR] at this ⊢
      rw [List.filter_cons, this]
      conv => rhs; rw [List.filter_cons]

theorem scanPieces_long : ∀ (pre : List Str) (long : Str) (post : List Str), (∀ l ∈ pre, l.length < 65536) →
    65536 ≤ long.length → scanPieces (pre ++ long :: post) = pre.map dropCR := by
  intro pre
  induction pre with
  | nil =>
    intro long post _ h
    have : long ≠ [] := by rintro rfl; simp at h
    cases post <;> simp [scanPieces, h]
  | cons l ls ih =>
    intro long post h1 h2
    have hn : ¬ 65536 ≤ l.length := by have := h1 l (by simp); omega
    have := ih long post (fun x hx => h1 x (by simp [hx])) h2
    cases ls with
    | nil => simp only [List.cons_append, List.nil_append, scanPieces, hn, if_false] at this ⊢; simp [this]
    | cons m ms => simp only [List.cons_append, scanPieces, hn, if_false] at this ⊢; simp [this]

theorem cleanLines_dropCR (ls : List Str) : cleanLines (ls.map dropCR) = cleanLines ls := by
  simp [cleanLines, Function.comp_def, trim_dropCR]

end Verif.Proofs
