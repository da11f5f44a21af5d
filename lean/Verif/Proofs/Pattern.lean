import Verif.Model.Hyphen
import Verif.Spec.Hyphen
import Verif.Proofs.Utf8
/- Lemmas about pattern parsing. -/
namespace Verif.Proofs
open Verif.Go Verif.Model Verif.Spec

/-- Recursive-descent reading of a pattern. -/
def parseT (nd : Nat → Bool) : List Nat → Option (List Nat × List Nat)
  | [] => some ([], [0])
  | [r] => if isDigit nd r then (if 48 ≤ r ∧ r ≤ 57 then some ([], [r - 48]) else none) else some ([r], [0, 0])
  | r :: l :: rs =>
    if isDigit nd r then
      if 48 ≤ r ∧ r ≤ 57 then (parseT nd rs).map (fun x => (l :: x.1, (r - 48) :: x.2)) else none
    else (parseT nd (l :: rs)).map (fun x => (r :: x.1, 0 :: x.2))

/-- What remains to do after the loop. -/
def finish (x : Pattern × Bool) : Pattern :=
  if x.2 then { x.1 with weights := x.1.weights ++ [0] } else x.1

theorem parseLoop_eq (nd : Nat → Bool) (rs : List Nat) : ∀ p : Pattern,
    (parseLoop nd p true rs).map finish
      = (parseT nd rs).map (fun x => ⟨p.letters ++ x.1, p.weights ++ x.2⟩) := by
  fun_induction parseT nd rs with
  | case1 => intro p; simp [parseLoop, finish]
  | case2 r h1 h2 => intro p; simp [parseLoop, finish, h1, h2]
  | case3 r h1 h2 => intro p; simp [parseLoop, h1, h2]
  | case4 r h1 => intro p; simp [parseLoop, finish, h1]
  | case5 r l rs h1 h2 ih =>
    intro p
    have := ih ⟨p.letters ++ [l], p.weights ++ [r - 48]⟩
    simp only [parseLoop, h1, h2, if_true]
    simp only [and_self, if_true, Bool.false_eq_true, if_false]
    rw [this]
    simp [Option.map_map, Function.comp_def]
  | case6 r l rs h1 h2 => intro p; rw [parseLoop]; simp [h1, h2]
  | case7 r l rs h1 ih =>
    intro p
    have := ih ⟨p.letters ++ [r], p.weights ++ [0]⟩
    rw [parseLoop]
    simp only [h1, if_true]
    simp only [Bool.false_eq_true, if_false]
    rw [this]
    simp [Option.map_map, Function.comp_def]

theorem parseT_length (nd : Nat → Bool) (rs : List Nat) : ∀ x, parseT nd rs = some x →
    x.2.length = x.1.length + 1 ∧ (∀ w ∈ x.2, w ≤ 9) ∧ (∀ l ∈ x.1, l ∈ rs) := by
  fun_induction parseT nd rs with
  | case1 => rintro _ ⟨rfl⟩; simp
  | case2 r h1 h2 => rintro _ ⟨rfl⟩; simp; omega
  | case3 r h1 h2 => rintro _ ⟨⟩
  | case4 r h1 => rintro _ ⟨rfl⟩; simp
  | case5 r l rs h1 h2 ih =>
    intro x hx
    simp only [Option.map_eq_some_iff] at hx
    obtain ⟨y, hy, rfl⟩ := hx
    obtain ⟨a, b, c⟩ := ih y hy
    refine ⟨by simp [a], ?_, ?_⟩
    · intro w hw; simp only [List.mem_cons] at hw
      rcases hw with rfl | hw
      · omega
      · exact b w hw
    · intro w hw; simp only [List.mem_cons] at hw ⊢
      rcases hw with rfl | hw
      · simp
      · exact Or.inr (Or.inr (c w hw))
  | case6 r l rs h1 h2 => rintro _ ⟨⟩
  | case7 r l rs h1 ih =>
    intro x hx
    simp only [Option.map_eq_some_iff] at hx
    obtain ⟨y, hy, rfl⟩ := hx
    obtain ⟨a, b, c⟩ := ih y hy
    refine ⟨by simp [a], ?_, ?_⟩
    · intro w hw; simp only [List.mem_cons] at hw
      rcases hw with rfl | hw
      · omega
      · exact b w hw
    · intro w hw; simp only [List.mem_cons] at hw
      rcases hw with rfl | hw
      · simp
      · exact List.mem_cons_of_mem _ (c w hw)

theorem parsePattern_eq (nd : Nat → Bool) (s : Str) :
    parsePattern nd s = (parseT nd (decodeRunes s)).map (fun x => ⟨x.1, x.2⟩) := by
  have h := parseLoop_eq nd (decodeRunes s) ⟨[], []⟩
  unfold parsePattern
  cases hl : parseLoop nd ⟨[], []⟩ true (decodeRunes s) with
  | none =>
    rw [hl] at h
    cases ht : parseT nd (decodeRunes s) with
    | none => simp
    | some x => rw [ht] at h; simp at h
  | some y =>
    obtain ⟨p, wd⟩ := y
    rw [hl] at h
    cases ht : parseT nd (decodeRunes s) with
    | none => rw [ht] at h; simp at h
    | some x =>
      rw [ht] at h
      simp only [List.nil_append, Option.map_some, Option.some.injEq] at h
      have hlen := (parseT_length nd _ x ht).1
      have hp : (if wd then { p with weights := p.weights ++ [0] } else p) = (⟨x.1, x.2⟩ : Pattern) := by
        simpa [finish] using h
      simp only [hp, Option.map_some]
      simp [hlen]

theorem parseT_syntax (nd : Nat → Bool) (rs ls ws : List Nat) :
    parseT nd rs = some (ls, ws) ↔ PatternSyntax (isDigit nd) rs ls ws := by
  constructor
  · fun_induction parseT nd rs generalizing ls ws with
    | case1 => rintro ⟨rfl⟩; exact .nil
    | case2 r h1 h2 => rintro ⟨rfl⟩; exact .last r h1 h2.1 h2.2
    | case3 r h1 h2 => rintro ⟨⟩
    | case4 r h1 => rintro ⟨rfl⟩; exact .letter r (by simpa using h1) .nil
    | case5 r l rs h1 h2 ih =>
      intro hx
      simp only [Option.map_eq_some_iff] at hx
      obtain ⟨y, hy, he⟩ := hx
      injection he with e1 e2
      subst e1 e2
      exact .digitLetter r l h1 h2.1 h2.2 (ih _ _ hy)
    | case6 r l rs h1 h2 => rintro ⟨⟩
    | case7 r l rs h1 ih =>
      intro hx
      simp only [Option.map_eq_some_iff] at hx
      obtain ⟨y, hy, he⟩ := hx
      injection he with e1 e2
      subst e1 e2
      exact .letter r (by simpa using h1) (ih _ _ hy)
  · intro h
    induction h with
    | nil => rfl
    | last d h1 h2 h3 => simp [parseT, h1, h2, h3]
    | @letter r rs ls ws h1 _ ih =>
      cases rs with
      | nil =>
        simp only [parseT, Option.some.injEq, Prod.mk.injEq] at ih
        obtain ⟨rfl, rfl⟩ := ih
        simp [parseT, h1]
      | cons l rs => simp [parseT, h1, ih]
    | digitLetter d r h1 h2 h3 _ ih => simp [parseT, h1, h2, h3, ih]

theorem parseT_none (nd : Nat → Bool) (rs : List Nat) :
    parseT nd rs = none ↔ BadDigit (isDigit nd) rs := by
  constructor
  · fun_induction parseT nd rs with
    | case1 => rintro ⟨⟩
    | case2 r h1 h2 => rintro ⟨⟩
    | case3 r h1 h2 => intro _; exact .here r h1 h2
    | case4 r h1 => rintro ⟨⟩
    | case5 r l rs h1 h2 ih => intro hx; exact .digitLetter r l h1 h2.1 h2.2 (ih (by simpa using hx))
    | case6 r l rs h1 h2 => intro _; exact .here r h1 h2
    | case7 r l rs h1 ih => intro hx; exact .letter r (by simpa using h1) (ih (by simpa using hx))
  · intro h
    induction h with
    | @here d rs h1 h2 => cases rs <;> simp [parseT, h1] <;> omega
    | @letter r rs h1 h2 ih =>
      cases rs with
      | nil => simp [parseT] at ih
      | cons l rs => simp [parseT, h1, ih]
    | digitLetter d r h1 h2 h3 _ ih => simp [parseT, h1, h2, h3, ih]

/-! ### Printing -/

theorem natDec_digit {w : Nat} (h : w ≤ 9) : natDec w = [UInt8.ofNat (48 + w)] := by
  have : w = 0 ∨ w = 1 ∨ w = 2 ∨ w = 3 ∨ w = 4 ∨ w = 5 ∨ w = 6 ∨ w = 7 ∨ w = 8 ∨ w = 9 := by omega
  rcases this with h | h | h | h | h | h | h | h | h | h <;> subst h <;> decide

theorem decode_patternString (ls : List Nat) : ∀ (ws : List Nat), ws.length = ls.length + 1 →
    (∀ w ∈ ws, w ≤ 9) → (∀ l ∈ ls, validRune l = true) → ∀ nd : Nat → Bool,
    parseT nd (decodeRunes (patternString ws ls)) = some (ls, ws) := by
  induction ls with
  | nil =>
    intro ws hl hw hv nd
    match ws, hl with
    | [w], _ =>
      have hw9 : w ≤ 9 := hw w (by simp)
      have t : (UInt8.ofNat (48 + w)).toNat = 48 + w := toNat_ofNat_lt (by omega)
      simp only [patternString, natDec_digit hw9, List.append_nil]
      rw [decodeRunes_ascii_cons (by rw [t]; omega), t]
      have h57 : 48 + w ≤ 57 := by omega
      have : isDigit nd (48 + w) = true := by
        unfold isDigit; rw [if_pos (by omega)]; simp [h57]
      simp [decodeRunes, decodeAux, parseT, this, h57]
  | cons l ls ih =>
    intro ws hl hw hv nd
    match ws, hl with
    | w :: ws, hl =>
      have hw9 : w ≤ 9 := hw w (by simp)
      have t : (UInt8.ofNat (48 + w)).toNat = 48 + w := toNat_ofNat_lt (by omega)
      simp only [patternString, natDec_digit hw9, List.cons_append, List.nil_append]
      rw [decodeRunes_ascii_cons (by rw [t]; omega), t, decodeRunes_encodeRune_append]
      have hv1 := hv l (by simp)
      have h57 : 48 + w ≤ 57 := by omega
      have : isDigit nd (48 + w) = true := by
        unfold isDigit; rw [if_pos (by omega)]; simp [h57]
      have hI := ih ws (by simpa using hl) (fun x hx => hw x (by simp [hx])) (fun x hx => hv x (by simp [hx])) nd
      simp [parseT, this, h57, hv1, hI]

theorem parsePattern_valid {nd : Nat → Bool} {s : Str} {p : Pattern} (h : parsePattern nd s = some p) :
    p.weights.length = p.letters.length + 1 ∧ (∀ w ∈ p.weights, w ≤ 9) ∧ (∀ l ∈ p.letters, validRune l = true) := by
  rw [parsePattern_eq, Option.map_eq_some_iff] at h
  obtain ⟨x, hx, rfl⟩ := h
  obtain ⟨a, b, c⟩ := parseT_length nd _ x hx
  exact ⟨a, b, fun l hl => decodeRunes_valid s l (c l hl)⟩

/-! ### Loading -/

/-- What `Load` guarantees about every stored entry. -/
def LookupOk (pl : Lookup) : Prop := ∀ e ∈ pl, e.1 = encodeRunes e.2.letters ∧
  e.2.weights.length = e.2.letters.length + 1 ∧ (∀ w ∈ e.2.weights, w ≤ 9) ∧ (∀ l ∈ e.2.letters, validRune l = true)

theorem parseLines_ok {nd : Nat → Bool} : ∀ (ls : List Str) (pl pl' : Lookup), LookupOk pl →
    parseLines nd pl ls = some pl' → LookupOk pl' := by
  intro ls
  induction ls with
  | nil => intro pl pl' h1 h2; simp only [parseLines, Option.some.injEq] at h2; rwa [← h2]
  | cons l ls ih =>
    intro pl pl' h1 h2
    simp only [parseLines] at h2
    split at h2
    · exact ih _ _ h1 h2
    · split at h2
      · cases h2
      · rename_i p hp
        refine ih _ _ ?_ h2
        intro e he
        simp only [List.mem_cons] at he
        rcases he with rfl | he
        · obtain ⟨a, b, c⟩ := parsePattern_valid hp
          exact ⟨rfl, a, b, c⟩
        · exact h1 e he

theorem parsePatterns_ok {nd : Nat → Bool} {text : Str} {pl : Lookup} (h : parsePatterns nd text = some pl) :
    LookupOk pl := parseLines_ok _ _ _ (by intro e he; simp at he) h

theorem lookup_mem {α β : Type} [BEq α] [LawfulBEq α] {k : α} {v : β} : ∀ {l : List (α × β)},
    l.lookup k = some v → (k, v) ∈ l := by
  intro l
  induction l with
  | nil => intro h; simp at h
  | cons e l ih =>
    intro h
    obtain ⟨a, b⟩ := e
    by_cases hk : k = a
    · subst hk; simp [List.lookup] at h; simp [h]
    · have : (k == a) = false := by simpa using hk
      simp only [List.lookup, this] at h
      exact List.mem_cons_of_mem _ (ih h)

/-- A found pattern has as many letters as the substring looked up. -/
theorem find_weights_length {pl : Lookup} (hok : LookupOk pl) {sub : List Nat} (hs : ∀ r ∈ sub, validRune r = true)
    {p : Pattern} (h : find pl (encodeRunes sub) = some p) : p.letters = sub ∧ p.weights.length = sub.length + 1 := by
  have hm := lookup_mem h
  obtain ⟨e1, e2, _, e3⟩ := hok _ hm
  have : p.letters = sub := (encodeRunes_injective hs e3 e1).symm
  exact ⟨this, by rw [e2, this]⟩

end Verif.Proofs
