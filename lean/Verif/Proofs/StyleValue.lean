import Verif.Spec.Style
import Verif.Proofs.Utf8
import Mathlib.Data.List.Basic
/- Lemmas about colors and quadruples. -/
namespace Verif.Proofs
open Verif.Go Verif.Model Verif.Spec

theorem digitVal_eq_hexDigit (c : UInt8) : digitVal c = hexDigit c := by
  have h : ∀ n : Fin 256, digitVal (UInt8.ofNat n.1) = hexDigit (UInt8.ofNat n.1) := by decide +kernel
  have := h ⟨c.toNat, c.toNat_lt⟩
  simpa using this

theorem digitVal_lt {c : UInt8} {x : Nat} (h : digitVal c = some x) : x < 16 := by
  unfold digitVal at h
  split at h
  · simp at h; omega
  · split at h
    · simp at h; omega
    · split at h
      · simp at h; omega
      · simp at h

theorem digitsVal_none_of {c : UInt8} (hc : digitVal c = none) (base : Nat) : ∀ (s : Str) (acc : Nat), c ∈ s →
    digitsVal base acc s = none := by
  intro s
  induction s with
  | nil => intro _ h; simp at h
  | cons d ds ih =>
    intro acc h
    simp only [digitsVal]
    simp only [List.mem_cons] at h
    rcases h with rfl | h
    · rw [hc]
    · split
      · rfl
      · split
        · exact ih _ h
        · rfl

theorem parse_six {a b c d e f : UInt8} {n : Nat} : parseUint 16 32 [a, b, c, d, e, f] = some n ↔
    ∃ x1 x2 x3 x4 x5 x6, digitVal a = some x1 ∧ digitVal b = some x2 ∧ digitVal c = some x3 ∧ digitVal d = some x4 ∧
      digitVal e = some x5 ∧ digitVal f = some x6 ∧
      n = ((((x1 * 16 + x2) * 16 + x3) * 16 + x4) * 16 + x5) * 16 + x6 := by
  constructor
  · intro h
    have key : ∀ z ∈ [a, b, c, d, e, f], ∃ x, digitVal z = some x := by
      intro z hz
      cases hd : digitVal z with
      | some x => exact ⟨x, rfl⟩
      | none =>
        exfalso
        have := digitsVal_none_of hd 16 [a, b, c, d, e, f] 0 hz
        simp [parseUint, this] at h
    obtain ⟨x1, h1⟩ := key a (by simp)
    obtain ⟨x2, h2⟩ := key b (by simp)
    obtain ⟨x3, h3⟩ := key c (by simp)
    obtain ⟨x4, h4⟩ := key d (by simp)
    obtain ⟨x5, h5⟩ := key e (by simp)
    obtain ⟨x6, h6⟩ := key f (by simp)
    have := digitVal_lt h1; have := digitVal_lt h2; have := digitVal_lt h3
    have := digitVal_lt h4; have := digitVal_lt h5; have := digitVal_lt h6
    refine ⟨x1, x2, x3, x4, x5, x6, h1, h2, h3, h4, h5, h6, ?_⟩
    simp_all [parseUint, digitsVal]
  · rintro ⟨x1, x2, x3, x4, x5, x6, h1, h2, h3, h4, h5, h6, rfl⟩
    have := digitVal_lt h1; have := digitVal_lt h2; have := digitVal_lt h3
    have := digitVal_lt h4; have := digitVal_lt h5; have := digitVal_lt h6
    simp_all [parseUint, digitsVal]
    omega

theorem hexDigit_lt {c : UInt8} {x : Nat} (h : hexDigit c = some x) : x < 16 := by
  rw [← digitVal_eq_hexDigit] at h; exact digitVal_lt h

theorem rgb_six {a b c d e f : UInt8} {col : RGB} :
    (match parseUint 16 32 [a, b, c, d, e, f] with
      | none => none
      | some n => some { r := (n / 2 ^ 16 : Nat), g := (n / 2 ^ 8 % 2 ^ 8 : Nat), b := (n % 2 ^ 8 : Nat) : RGB }) = some col ↔
    HexPair a b col.r ∧ HexPair c d col.g ∧ HexPair e f col.b := by
  constructor
  · intro h
    cases hp : parseUint 16 32 [a, b, c, d, e, f] with
    | none => simp [hp] at h
    | some n =>
      obtain ⟨x1, x2, x3, x4, x5, x6, h1, h2, h3, h4, h5, h6, hn⟩ := parse_six.mp hp
      have := digitVal_lt h1; have := digitVal_lt h2; have := digitVal_lt h3
      have := digitVal_lt h4; have := digitVal_lt h5; have := digitVal_lt h6
      simp only [digitVal_eq_hexDigit] at h1 h2 h3 h4 h5 h6
      simp only [hp, Option.some.injEq] at h
      subst h
      refine ⟨⟨x1, x2, h1, h2, ?_⟩, ⟨x3, x4, h3, h4, ?_⟩, ⟨x5, x6, h5, h6, ?_⟩⟩ <;> simp only <;> omega
  · rintro ⟨⟨x1, x2, h1, h2, e1⟩, ⟨x3, x4, h3, h4, e2⟩, ⟨x5, x6, h5, h6, e3⟩⟩
    have := hexDigit_lt h1; have := hexDigit_lt h2; have := hexDigit_lt h3
    have := hexDigit_lt h4; have := hexDigit_lt h5; have := hexDigit_lt h6
    simp only [← digitVal_eq_hexDigit] at h1 h2 h3 h4 h5 h6
    rw [parse_six.mpr ⟨x1, x2, x3, x4, x5, x6, h1, h2, h3, h4, h5, h6, rfl⟩]
    obtain ⟨r, g, b⟩ := col
    simp only [Option.some.injEq, RGB.mk.injEq] at *
    refine ⟨?_, ?_, ?_⟩ <;> omega

theorem length_six {s : Str} (h : s.length = 6) : ∃ a b c d e f, s = [a, b, c, d, e, f] := by
  match s, h with
  | [a, b, c, d, e, f], _ => exact ⟨a, b, c, d, e, f, rfl⟩

/-! ### Scanning -/

theorem skipSpace_gap {w : List Nat} (h : Gap w) (rs : List Nat) : skipSpace (w ++ rs) = skipSpace rs := by
  induction w with
  | nil => rfl
  | cons r w ih =>
    have h1 := h r (by simp)
    simp only [List.cons_append, skipSpace, h1.1, h1.2, if_false, if_true]
    exact ih (fun x hx => h x (by simp [hx]))

theorem skipSpace_some {rs out : List Nat} (h : skipSpace rs = some out) :
    ∃ w, rs = w ++ out ∧ Gap w ∧ (∀ r, out.head? = some r → isSpaceRune r = false ∧ r ≠ 10) := by
  induction rs with
  | nil => simp [skipSpace] at h; subst h; exact ⟨[], rfl, by simp [Gap], by simp⟩
  | cons r rs ih =>
    simp only [skipSpace] at h
    split at h
    · simp at h
    · rename_i h10
      split at h
      · rename_i hs
        obtain ⟨w, h1, h2, h3⟩ := ih h
        refine ⟨r :: w, by simp [h1], ?_, h3⟩
        intro x hx
        simp only [List.mem_cons] at hx
        rcases hx with rfl | hx
        · exact ⟨hs, h10⟩
        · exact h2 x hx
      · rename_i hs
        simp at h; subst h
        exact ⟨[], rfl, by simp [Gap], by simpa using ⟨by simpa using hs, h10⟩⟩

theorem skipSpace_id {rs : List Nat} (h : ∀ r, rs.head? = some r → isSpaceRune r = false ∧ r ≠ 10) : skipSpace rs = some rs := by
  cases rs with
  | nil => rfl
  | cons r rs =>
    have := h r rfl
    simp [skipSpace, this]

theorem acceptRun_eq (ok : Nat → Bool) (rs : List Nat) : acceptRun ok rs = (rs.takeWhile ok, rs.dropWhile ok) := by
  induction rs with
  | nil => rfl
  | cons r rs ih =>
    simp only [acceptRun, ih]
    cases h : ok r <;> simp [h]

/-- Maximal munch: a run of accepted runes followed by something else. -/
theorem acceptRun_append {ok : Nat → Bool} {t rest : List Nat} (h : ∀ r ∈ t, ok r = true)
    (hr : ∀ r, rest.head? = some r → ok r = false) : acceptRun ok (t ++ rest) = (t, rest) := by
  induction t with
  | nil =>
    cases rest with
    | nil => rfl
    | cons r rs => simp [acceptRun, hr r rfl]
  | cons x xs ih =>
    simp [acceptRun, h x (by simp), ih (fun r hx => h r (by simp [hx]))]

theorem acceptRun_spec (ok : Nat → Bool) (rs : List Nat) : rs = (acceptRun ok rs).1 ++ (acceptRun ok rs).2 ∧
    (∀ r ∈ (acceptRun ok rs).1, ok r = true) ∧ (∀ r, (acceptRun ok rs).2.head? = some r → ok r = false) := by
  induction rs with
  | nil => simp [acceptRun]
  | cons r rs ih =>
    cases h : ok r with
    | true =>
      simp only [acceptRun, h, if_true, List.cons_append, ← ih.1, true_and]
      refine ⟨?_, ih.2.2⟩
      intro x hx
      simp only [List.mem_cons] at hx
      rcases hx with rfl | hx
      · exact h
      · exact ih.2.1 x hx
    | false => simp [acceptRun, h]

/-! ### Decimal integers -/

theorem digits_ne_nil {ds : List Nat} {n : Nat} (h : Digits ds n) : ds ≠ [] := by cases h <;> simp

theorem digits_isDec {ds : List Nat} {n : Nat} (h : Digits ds n) : ∀ r ∈ ds, isDec r = true := by
  induction h with
  | one h => intro r hr; simp at hr; subst hr; simp [isDec]; omega
  | snoc _ h ih =>
    intro r hr
    simp only [List.mem_append, List.mem_singleton] at hr
    rcases hr with hr | rfl
    · exact ih r hr
    · simp [isDec]; omega

theorem digitsVal_append (base : Nat) : ∀ (s t : Str) (acc : Nat), digitsVal base acc (s ++ t) =
    match digitsVal base acc s with | none => none | some n => digitsVal base n t := by
  intro s
  induction s with
  | nil => intro t acc; rfl
  | cons c cs ih =>
    intro t acc
    simp only [List.cons_append, digitsVal]
    split
    · rfl
    · split
      · exact ih t _
      · rfl

theorem digitVal_dec {d : Nat} (h : d < 10) : digitVal (UInt8.ofNat (48 + d)) = some d := by
  have h1 : (UInt8.ofNat (48 + d)).toNat = 48 + d := toNat_ofNat_lt (by omega)
  unfold digitVal
  rw [h1, if_pos (by omega)]
  congr 1; omega

theorem digits_val {ds : List Nat} {n : Nat} (h : Digits ds n) : digitsVal 10 0 (runeBytes ds) = some n := by
  induction h with
  | one h => simp only [runeBytes, List.map_cons, List.map_nil, digitsVal, digitVal_dec h, if_pos h]; simp
  | @snoc ds n d _ h ih =>
    simp only [runeBytes, List.map_append, List.map_cons, List.map_nil] at ih ⊢
    rw [digitsVal_append, ih]
    simp only [digitsVal, digitVal_dec h, if_pos h]
    congr 1; omega

theorem digits_exists : ∀ (k : Nat) (ds : List Nat), ds.length = k → ds ≠ [] → (∀ r ∈ ds, isDec r = true) → ∃ n, Digits ds n := by
  intro k
  induction k with
  | zero => intro ds h h0; exact absurd (List.length_eq_zero_iff.mp h) h0
  | succ k ih =>
    intro ds hl h0 hd
    rcases List.eq_nil_or_concat ds with rfl | ⟨xs, x, rfl⟩
    · exact absurd rfl h0
    · have hx : ∃ d, d < 10 ∧ x = 48 + d := by
        have := hd x (by simp)
        simp [isDec] at this
        exact ⟨x - 48, by omega, by omega⟩
      obtain ⟨d, hd10, rfl⟩ := hx
      by_cases hxs : xs = []
      · subst hxs; exact ⟨d, by simpa using Digits.one hd10⟩
      · obtain ⟨n, hn⟩ := ih xs (by simp at hl; exact hl) hxs (fun r hr => hd r (by simp [hr]))
        exact ⟨_, by simpa using Digits.snoc hn hd10⟩

theorem digits_head {ds : List Nat} {n : Nat} (h : Digits ds n) : ∃ r rs, ds = r :: rs ∧ isDec r = true := by
  cases ds with
  | nil => exact absurd rfl (digits_ne_nil h)
  | cons r rs => exact ⟨r, rs, rfl, digits_isDec h r (by simp)⟩

theorem parseUint_digits {ds : List Nat} {n : Nat} (h : Digits ds n) :
    parseUint 10 64 (runeBytes ds) = if n < 2 ^ 64 then some n else none := by
  have : runeBytes ds ≠ [] := by simpa [runeBytes] using digits_ne_nil h
  simp [parseUint, this, digits_val h]

theorem parseInt_plain {ds : List Nat} {n : Nat} (h : Digits ds n) :
    parseInt (runeBytes ds) = if n < 2 ^ 63 then some (n : Int) else none := by
  obtain ⟨r, rs, rfl, hr⟩ := digits_head h
  have hp := parseUint_digits h
  simp only [runeBytes, List.map_cons] at hp ⊢
  have h1 : r < 256 ∧ 48 ≤ r := by simp [isDec] at hr; omega
  have h2 : (UInt8.ofNat r).toNat = r := toNat_ofNat_lt h1.1
  unfold parseInt
  split
  · rename_i heq; simp at heq
  · rename_i heq
    simp only [List.cons.injEq] at heq
    have := congrArg UInt8.toNat heq.1
    rw [h2] at this; simp at this; omega
  · rename_i heq
    simp only [List.cons.injEq] at heq
    have := congrArg UInt8.toNat heq.1
    rw [h2] at this; simp at this; omega
  · rw [hp]
    by_cases hn : n < 2 ^ 64
    · simp only [if_pos hn]
    · have : ¬ n < 2 ^ 63 := by omega
      simp only [if_neg hn, if_neg this]

theorem parseInt_plus {ds : List Nat} {n : Nat} (h : Digits ds n) :
    parseInt (runeBytes (43 :: ds)) = if n < 2 ^ 63 then some (n : Int) else none := by
  have hp := parseUint_digits h
  have : runeBytes (43 :: ds) = 43 :: runeBytes ds := rfl
  rw [this]
  simp only [parseInt, hp]
  by_cases hn : n < 2 ^ 64
  · simp only [if_pos hn]
  · have : ¬ n < 2 ^ 63 := by omega
    simp only [if_neg hn, if_neg this]

theorem parseInt_minus {ds : List Nat} {n : Nat} (h : Digits ds n) :
    parseInt (runeBytes (45 :: ds)) = if n ≤ 2 ^ 63 then some (-(n : Int)) else none := by
  have hp := parseUint_digits h
  have : runeBytes (45 :: ds) = 45 :: runeBytes ds := rfl
  rw [this]
  simp only [parseInt, hp]
  by_cases hn : n < 2 ^ 64
  · simp only [if_pos hn]
  · have : ¬ n ≤ 2 ^ 63 := by omega
    simp only [if_neg hn, if_neg this]

theorem isDec_not_space {r : Nat} (h : isDec r = true) : isSpaceRune r = false ∧ r ≠ 10 := by
  simp [isDec] at h
  refine ⟨?_, by omega⟩
  simp [isSpaceRune]; omega

theorem intText_cases {t : List Nat} {n : Int} (h : IntText t n) : ∃ sg ds, t = sg ++ ds ∧
    (sg = [] ∨ sg = [43] ∨ sg = [45]) ∧ (∃ m, Digits ds m) ∧ parseInt (runeBytes t) = some n := by
  cases h with
  | @plain _ n hd hn => exact ⟨[], _, rfl, .inl rfl, ⟨n, hd⟩, by rw [parseInt_plain hd, if_pos hn]⟩
  | @plus ds n hd hn => exact ⟨[43], ds, rfl, .inr (.inl rfl), ⟨n, hd⟩, by rw [parseInt_plus hd, if_pos hn]⟩
  | @minus ds n hd hn => exact ⟨[45], ds, rfl, .inr (.inr rfl), ⟨n, hd⟩, by rw [parseInt_minus hd, if_pos hn]⟩

theorem scanInt_intText {w t rest : List Nat} {n : Int} (hw : Gap w) (h : IntText t n)
    (hr : ∀ r, rest.head? = some r → isDec r = false) : scanInt (w ++ (t ++ rest)) = some (n, rest) := by
  obtain ⟨sg, ds, rfl, hsg, ⟨m, hm⟩, hp⟩ := intText_cases h
  have hne := digits_ne_nil hm
  have hrun := acceptRun_append (digits_isDec hm) hr
  obtain ⟨x, xs, rfl, hx⟩ := digits_head hm
  unfold scanInt
  rw [skipSpace_gap hw]
  rcases hsg with rfl | rfl | rfl
  · rw [skipSpace_id (by intro r hh; simp at hh; subst hh; exact isDec_not_space hx)]
    have hs : isSign x = false := by simp [isSign, isDec] at hx ⊢; omega
    simp only [List.nil_append, List.cons_append, acceptOne, hs] at hrun hp ⊢
    simp [hrun, hp]
  · rw [skipSpace_id (by intro r hh; simp at hh; subst hh; decide)]
    simp only [List.nil_append, List.cons_append, acceptOne] at hrun hp ⊢
    simp [hrun, hp, isSign]
  · rw [skipSpace_id (by intro r hh; simp at hh; subst hh; decide)]
    simp only [List.nil_append, List.cons_append, acceptOne] at hrun hp ⊢
    simp [hrun, hp, isSign]

theorem intText_of_parse {sg ds : List Nat} {n : Int} (hsg : sg = [] ∨ sg = [43] ∨ sg = [45]) (hne : ds ≠ [])
    (hd : ∀ r ∈ ds, isDec r = true) (h : parseInt (runeBytes (sg ++ ds)) = some n) : IntText (sg ++ ds) n := by
  obtain ⟨m, hm⟩ := digits_exists _ ds rfl hne hd
  rcases hsg with rfl | rfl | rfl
  · rw [List.nil_append, parseInt_plain hm] at h
    split at h
    · rename_i hlt; simp at h; subst h; exact .plain hm hlt
    · simp at h
  · rw [List.singleton_append, parseInt_plus hm] at h
    split at h
    · rename_i hlt; simp at h; subst h; exact .plus hm hlt
    · simp at h
  · rw [List.singleton_append, parseInt_minus hm] at h
    split at h
    · rename_i hlt; simp at h; subst h; exact .minus hm hlt
    · simp at h

theorem acceptOne_sign (rs : List Nat) : ∃ sg, (sg = [] ∨ sg = [43] ∨ sg = [45]) ∧ acceptOne isSign rs = (sg, (acceptOne isSign rs).2) ∧
    rs = sg ++ (acceptOne isSign rs).2 := by
  cases rs with
  | nil => exact ⟨[], .inl rfl, rfl, rfl⟩
  | cons r rs =>
    cases h : isSign r with
    | false => exact ⟨[], .inl rfl, by simp [acceptOne, h], by simp [acceptOne, h]⟩
    | true =>
      refine ⟨[r], ?_, by simp [acceptOne, h], by simp [acceptOne, h]⟩
      simp [isSign] at h
      rcases h with rfl | rfl
      · exact .inr (.inl rfl)
      · exact .inr (.inr rfl)

theorem scanInt_some {rs rest : List Nat} {n : Int} (h : scanInt rs = some (n, rest)) :
    ∃ w t, rs = w ++ (t ++ rest) ∧ Gap w ∧ IntText t n ∧ ∀ r, rest.head? = some r → isDec r = false := by
  unfold scanInt at h
  split at h
  · simp at h
  · rename_i out hs
    obtain ⟨w, rfl, hw, _⟩ := skipSpace_some hs
    obtain ⟨sg, hsg, h1, h2⟩ := acceptOne_sign out
    rw [h1] at h
    simp only at h
    obtain ⟨h3, h4, h5⟩ := acceptRun_spec isDec (acceptOne isSign out).2
    split at h
    · simp at h
    · rename_i hne
      split at h
      · simp at h
      · rename_i m hm
        simp only [Option.some.injEq, Prod.mk.injEq] at h
        obtain ⟨rfl, rfl⟩ := h
        refine ⟨w, sg ++ (acceptRun isDec (acceptOne isSign out).2).1, ?_, hw, intText_of_parse hsg hne h4 hm, h5⟩
        rw [List.append_assoc, ← h3, ← h2]

theorem scanComma_some {rs out : List Nat} : scanComma rs = some out ↔ rs = 44 :: out := by
  unfold scanComma
  split
  · simp
  · rename_i h
    constructor
    · intro hx; simp at hx
    · intro hx; exact absurd hx (h out)

/-- A quadruple is accepted iff its parts are. -/
theorem scanQuad_some {α : Type} {one : List Nat → Option (α × List Nat)} {s : Str} {a b c d : α} :
    scanQuad one s = some (a, b, c, d) ↔ ∃ r1 r2 r3 rest, one (decodeRunes s) = some (a, 44 :: r1) ∧
      one r1 = some (b, 44 :: r2) ∧ one r2 = some (c, 44 :: r3) ∧ one r3 = some (d, rest) := by
  constructor
  · intro h
    unfold scanQuad at h
    split at h
    · simp at h
    · rename_i a' q1 h1
      split at h
      · simp at h
      · rename_i r1 hc1
        split at h
        · simp at h
        · rename_i b' q2 h2
          split at h
          · simp at h
          · rename_i r2 hc2
            split at h
            · simp at h
            · rename_i c' q3 h3
              split at h
              · simp at h
              · rename_i r3 hc3
                split at h
                · simp at h
                · rename_i d' q4 h4
                  simp only [Option.some.injEq, Prod.mk.injEq] at h
                  obtain ⟨rfl, rfl, rfl, rfl⟩ := h
                  rw [scanComma_some] at hc1 hc2 hc3
                  subst hc1 hc2 hc3
                  exact ⟨r1, r2, r3, q4, h1, h2, h3, h4⟩
  · rintro ⟨r1, r2, r3, rest, h1, h2, h3, h4⟩
    simp [scanQuad, h1, h2, h3, h4, scanComma]

theorem isDec_false_iff {r : Nat} : isDec r = false ↔ ¬ (48 ≤ r ∧ r ≤ 57) := by
  simp [isDec]

theorem quad_int {s : Str} {a b c d : Int} :
    scanQuad scanInt s = some (a, b, c, d) ↔ QuadText intItem (decodeRunes s) a b c d := by
  rw [scanQuad_some]
  constructor
  · rintro ⟨r1, r2, r3, rest, h1, h2, h3, h4⟩
    obtain ⟨w1, t1, e1, g1, i1, n1⟩ := scanInt_some h1
    obtain ⟨w2, t2, e2, g2, i2, n2⟩ := scanInt_some h2
    obtain ⟨w3, t3, e3, g3, i3, n3⟩ := scanInt_some h3
    obtain ⟨w4, t4, e4, g4, i4, n4⟩ := scanInt_some h4
    refine ⟨w1, t1, w2, t2, w3, t3, w4, t4, rest, ?_, g1, g2, g3, g4, ⟨i1, by simp⟩, ⟨i2, by simp⟩, ⟨i3, by simp⟩, ⟨i4, ?_⟩⟩
    · rw [e1, e2, e3, e4]
    · intro r hr; exact isDec_false_iff.mp (n4 r hr)
  · rintro ⟨w1, t1, w2, t2, w3, t3, w4, t4, rest, e, g1, g2, g3, g4, i1, i2, i3, i4⟩
    have hcomma : ∀ (rs : List Nat) (r : Nat), (44 :: rs).head? = some r → isDec r = false := by
      intro rs r hr; simp at hr; subst hr; rfl
    refine ⟨_, _, _, rest, ?_, scanInt_intText g2 i2.1 (hcomma _), scanInt_intText g3 i3.1 (hcomma _),
      scanInt_intText g4 i4.1 (fun r hr => isDec_false_iff.mpr (i4.2 r hr))⟩
    rw [e]
    exact scanInt_intText g1 i1.1 (hcomma _)

/-! ### Floats -/

theorem acceptOne_spec (ok : Nat → Bool) (rs : List Nat) : rs = (acceptOne ok rs).1 ++ (acceptOne ok rs).2 := by
  cases rs with
  | nil => rfl
  | cons r rs => simp only [acceptOne]; split <;> rfl

theorem acceptOne_skip {ok : Nat → Bool} {rs : List Nat} (h : ∀ r, rs.head? = some r → ok r = false) :
    acceptOne ok rs = ([], rs) := by
  cases rs with
  | nil => rfl
  | cons r rs => simp [acceptOne, h r rfl]

theorem acceptOne_take {ok : Nat → Bool} {r : Nat} (rs : List Nat) (h : ok r = true) : acceptOne ok (r :: rs) = ([r], rs) := by
  simp [acceptOne, h]

theorem acceptWord_spec (a b c : Nat → Bool) (rs : List Nat) :
    rs = (acceptWord a b c rs).1.1 ++ (acceptWord a b c rs).1.2 := by
  unfold acceptWord
  split
  · split
    · split
      · split
        · split
          · split <;> rfl
          · rfl
        · rfl
      · rfl
    · rfl
  · rfl

theorem acceptWord_skip {a b c : Nat → Bool} {rs : List Nat} (h : ∀ r, rs.head? = some r → a r = false) :
    acceptWord a b c rs = (([], rs), false) := by
  cases rs with
  | nil => rfl
  | cons r rs => simp [acceptWord, h r rfl]

theorem floatTail_spec (hex : Bool) (rs : List Nat) : rs = (floatTail hex rs).1 ++ (floatTail hex rs).2 := by
  unfold floatTail
  simp only
  generalize (fun r => isDec r || r == 95 || (hex && ((97 ≤ r && r ≤ 102) || (65 ≤ r && r ≤ 70)))) = isDig
  generalize (fun r => (r == 80 || r == 112) || (!hex && (r == 69 || r == 101))) = isExp
  obtain ⟨h1, -, -⟩ := acceptRun_spec isDig rs
  generalize acceptRun isDig rs = x1 at *
  obtain ⟨d, r1⟩ := x1
  have h2 := acceptOne_spec (· == 46) r1
  generalize acceptOne (· == 46) r1 = x2 at *
  obtain ⟨p, r2⟩ := x2
  have h3 : r2 = (if p = [] then ([], r2) else acceptRun isDig r2).1 ++ (if p = [] then ([], r2) else acceptRun isDig r2).2 := by
    split
    · rfl
    · exact (acceptRun_spec isDig r2).1
  simp only at *
  generalize (if p = [] then ([], r2) else acceptRun isDig r2) = x3 at *
  obtain ⟨f, r3⟩ := x3
  simp only at *
  have h4 := acceptOne_spec isExp r3
  generalize acceptOne isExp r3 = x4 at *
  obtain ⟨e, r4⟩ := x4
  simp only at *
  have h5 : r4 = (if e = [] then ([], r4) else acceptOne isSign r4).1 ++ (if e = [] then ([], r4) else acceptOne isSign r4).2 := by
    split
    · rfl
    · exact acceptOne_spec isSign r4
  generalize (if e = [] then ([], r4) else acceptOne isSign r4) = x5 at *
  obtain ⟨es, r5⟩ := x5
  simp only at *
  have h6 : r5 = (if e = [] then ([], r5) else acceptRun (fun r => isDec r || r == 95) r5).1 ++
      (if e = [] then ([], r5) else acceptRun (fun r => isDec r || r == 95) r5).2 := by
    split
    · rfl
    · exact (acceptRun_spec _ r5).1
  generalize (if e = [] then ([], r5) else acceptRun (fun r => isDec r || r == 95) r5) = x6 at *
  obtain ⟨ed, r6⟩ := x6
  simp only at *
  subst h6 h5 h4 h3 h2 h1
  simp

theorem floatBody_spec (rs : List Nat) : rs = (floatBody rs).1 ++ (floatBody rs).2 := by
  unfold floatBody
  simp only
  have h1 := acceptOne_spec (· == 48) rs
  generalize acceptOne (· == 48) rs = x1 at *
  obtain ⟨z, r1⟩ := x1
  simp only at *
  have h2 : r1 = (if z = [] then ([], r1) else acceptOne (isLetter 88 120) r1).1 ++
      (if z = [] then ([], r1) else acceptOne (isLetter 88 120) r1).2 := by
    split
    · rfl
    · exact acceptOne_spec _ r1
  generalize (if z = [] then ([], r1) else acceptOne (isLetter 88 120) r1) = x2 at *
  obtain ⟨x, r2⟩ := x2
  simp only at *
  have h3 := floatTail_spec (decide (x ≠ [])) r2
  generalize floatTail (decide (x ≠ [])) r2 = x3 at *
  obtain ⟨t, r3⟩ := x3
  simp only at *
  subst h3 h2 h1
  simp

theorem floatToken_spec (rs : List Nat) : rs = (floatToken rs).1 ++ (floatToken rs).2 := by
  unfold floatToken
  simp only
  have h1 := acceptWord_spec (isLetter 78 110) (isLetter 65 97) (isLetter 78 110) rs
  generalize acceptWord (isLetter 78 110) (isLetter 65 97) (isLetter 78 110) rs = x1 at *
  obtain ⟨⟨t0, r1⟩, nan⟩ := x1
  simp only at *
  split
  · exact h1
  · have h2 := acceptOne_spec isSign r1
    generalize acceptOne isSign r1 = x2 at *
    obtain ⟨t1, r2⟩ := x2
    simp only at *
    have h3 := acceptWord_spec (isLetter 73 105) (isLetter 78 110) (isLetter 70 102) r2
    generalize acceptWord (isLetter 73 105) (isLetter 78 110) (isLetter 70 102) r2 = x3 at *
    obtain ⟨⟨t2, r3⟩, inf⟩ := x3
    simp only at *
    split
    · subst h3 h2 h1; simp
    · have h4 := floatBody_spec r3
      generalize floatBody r3 = x4 at *
      obtain ⟨t3, r4⟩ := x4
      simp only at *
      subst h4 h3 h2 h1
      simp

/-- The rest does not continue the number. -/
def Ends (rest : List Nat) : Prop := ∀ r, rest.head? = some r → ¬ continuesNumber r

theorem floatTail_plain {ds fr rest : List Nat} (hd : ∀ r ∈ ds, 48 ≤ r ∧ r ≤ 57)
    (hf : fr = [] ∨ ∃ fs, fr = 46 :: fs ∧ ∀ r ∈ fs, 48 ≤ r ∧ r ≤ 57) (he : Ends rest) :
    floatTail false (ds ++ (fr ++ rest)) = (ds ++ fr, rest) := by
  have hdig : ∀ r, 48 ≤ r ∧ r ≤ 57 → (isDec r || r == 95 || (false && ((97 ≤ r && r ≤ 102) || (65 ≤ r && r ≤ 70)))) = true := by
    intro r hr; simp [isDec]; omega
  have hend : ∀ r, rest.head? = some r → (isDec r || r == 95 || (false && ((97 ≤ r && r ≤ 102) || (65 ≤ r && r ≤ 70)))) = false := by
    intro r hr
    have := he r hr
    simp only [continuesNumber] at this
    simp [isDec]; omega
  have hexp : ∀ r, rest.head? = some r → ((r == 80 || r == 112) || (!false && (r == 69 || r == 101))) = false := by
    intro r hr
    have := he r hr
    simp only [continuesNumber] at this
    simp; omega
  have hdot : ∀ r, rest.head? = some r → (r == 46) = false := by
    intro r hr
    have := he r hr
    simp only [continuesNumber] at this
    simp; omega
  unfold floatTail
  rcases hf with rfl | ⟨fs, rfl, hfs⟩
  · simp only [List.nil_append]
    rw [acceptRun_append (fun r hr => hdig r (hd r hr)) hend]
    simp only [acceptOne_skip hdot, if_true, acceptOne_skip hexp, List.append_nil]
  · have h46 : ∀ r, (46 :: fs ++ rest).head? = some r →
        (isDec r || r == 95 || (false && ((97 ≤ r && r ≤ 102) || (65 ≤ r && r ≤ 70)))) = false := by
      intro r hr
      simp only [List.cons_append, List.head?_cons, Option.some.injEq] at hr; subst hr; rfl
    have e1 := acceptRun_append (fun r hr => hdig r (hd r hr)) h46
    have e2 := acceptRun_append (fun r hr => hdig r (hfs r hr)) hend
    have e3 : acceptOne (· == 46) (46 :: fs ++ rest) = ([46], fs ++ rest) := rfl
    simp only [e1, e3, List.cons_ne_nil, if_false, e2, acceptOne_skip hexp, if_true]
    simp

theorem floatBody_plain {ds fr rest : List Nat} (hd : ∀ r ∈ ds, 48 ≤ r ∧ r ≤ 57)
    (hf : fr = [] ∨ ∃ fs, fr = 46 :: fs ∧ ∀ r ∈ fs, 48 ≤ r ∧ r ≤ 57) (he : Ends rest) :
    floatBody (ds ++ (fr ++ rest)) = (ds ++ fr, rest) := by
  unfold floatBody
  by_cases hz : ∃ ds', ds = 48 :: ds'
  · obtain ⟨ds', rfl⟩ := hz
    have hx : ∀ r, (ds' ++ (fr ++ rest)).head? = some r → isLetter 88 120 r = false := by
      intro r hr
      cases ds' with
      | cons a as =>
        simp at hr; subst hr
        have := hd a (by simp)
        simp [isLetter]; omega
      | nil =>
        rcases hf with rfl | ⟨fs, rfl, _⟩
        · have := he r (by simpa using hr)
          simp only [continuesNumber] at this
          simp [isLetter]; omega
        · simp at hr; subst hr; rfl
    simp only [List.cons_append, acceptOne_take (ok := (· == 48)) _ (show (48 == 48) = true from rfl), List.cons_ne_nil, if_false,
      acceptOne_skip hx]
    have := floatTail_plain (rest := rest) (fun r hr => hd r (by simp [hr]) : ∀ r ∈ ds', 48 ≤ r ∧ r ≤ 57) hf he
    simp [this]
  · have h0 : ∀ r, (ds ++ (fr ++ rest)).head? = some r → (r == 48) = false := by
      intro r hr
      cases ds with
      | cons a as =>
        simp at hr; subst hr
        simp
        intro h; exact hz ⟨as, by rw [h]⟩
      | nil =>
        rcases hf with rfl | ⟨fs, rfl, _⟩
        · have := he r (by simpa using hr)
          simp only [continuesNumber] at this
          simp; omega
        · simp at hr; subst hr; rfl
    rw [acceptOne_skip h0]
    have := floatTail_plain (rest := rest) hd hf he
    simp [this]

theorem floatToken_plain {t rest : List Nat} (h : PlainNumber t) (he : Ends rest) :
    floatToken (t ++ rest) = (t, rest) ∧ ∃ r rs, t = r :: rs ∧ isSpaceRune r = false ∧ r ≠ 10 := by
  obtain ⟨hsg, hd, hf⟩ := h
  rename_i sg ds fr
  have hf' : fr = [] ∨ ∃ fs, fr = 46 :: fs ∧ ∀ r ∈ fs, 48 ≤ r ∧ r ≤ 57 := by
    rcases hf with ⟨h1, _⟩ | h
    · exact .inl h1
    · exact .inr h
  have hbody := floatBody_plain (rest := rest) hd hf' he
  -- the first rune after the sign is a digit or a period
  have hhead : ∃ r rs, ds ++ fr = r :: rs ∧ ((48 ≤ r ∧ r ≤ 57) ∨ r = 46) := by
    cases ds with
    | cons a as => exact ⟨a, as ++ fr, rfl, .inl (hd a (by simp))⟩
    | nil =>
      rcases hf with ⟨_, h2⟩ | ⟨fs, rfl, _⟩
      · exact absurd rfl h2
      · exact ⟨46, fs, rfl, .inr rfl⟩
  obtain ⟨r, rs, hrs, hr⟩ := hhead
  have hb' : floatBody (r :: rs ++ rest) = (r :: rs, rest) := by
    rw [← hrs, List.append_assoc]; exact hbody
  have hn : isLetter 78 110 r = false := by simp [isLetter]; omega
  have hi : isLetter 73 105 r = false := by simp [isLetter]; omega
  have hs : isSign r = false := by simp [isSign]; omega
  have hsp : isSpaceRune r = false := by simp [isSpaceRune]; omega
  rw [hrs]
  unfold floatToken
  rcases hsg with rfl | rfl | rfl
  · refine ⟨?_, r, rs, rfl, hsp, by omega⟩
    rw [List.nil_append, acceptWord_skip (by intro x hx; simp at hx; subst hx; exact hn)]
    simp only [Bool.false_eq_true, if_false]
    rw [acceptOne_skip (by intro x hx; simp at hx; subst hx; exact hs)]
    simp only
    rw [acceptWord_skip (by intro x hx; simp at hx; subst hx; exact hi)]
    simp [show floatBody (r :: (rs ++ rest)) = (r :: rs, rest) from hb']
  all_goals
    refine ⟨?_, _, r :: rs, rfl, by decide, by decide⟩
    rw [acceptWord_skip (by intro x hx; simp at hx; subst hx; rfl)]
    simp only [Bool.false_eq_true, if_false, List.cons_append, List.nil_append, acceptOne,
      show isSign 43 = true from rfl, show isSign 45 = true from rfl, if_true]
    rw [acceptWord_skip (by intro x hx; simp at hx; subst hx; exact hi)]
    simp [show floatBody (r :: (rs ++ rest)) = (r :: rs, rest) from hb']

theorem scanFloat_plain {fl : Floats} {w t rest : List Nat} {q : ℚ} (hw : Gap w) (ht : PlainNumber t)
    (hq : fl.convertFloat (runeBytes t) = some q) (he : Ends rest) : scanFloat fl (w ++ (t ++ rest)) = some (q, rest) := by
  obtain ⟨h1, r, rs, rfl, h2, h3⟩ := floatToken_plain ht he
  unfold scanFloat
  rw [skipSpace_gap hw, skipSpace_id (by intro x hx; simp at hx; subst hx; exact ⟨h2, h3⟩)]
  simp only [List.cons_append] at h1 ⊢
  simp [h1, hq]

theorem scanFloat_some {fl : Floats} {rs rest : List Nat} {q : ℚ} (h : scanFloat fl rs = some (q, rest)) :
    ∃ w t, rs = w ++ (t ++ rest) ∧ Gap w ∧ fl.convertFloat (runeBytes t) = some q := by
  unfold scanFloat at h
  split at h
  · simp at h
  · simp at h
  · rename_i r out hs
    obtain ⟨w, rfl, hw, _⟩ := skipSpace_some hs
    split at h
    · simp at h
    · rename_i x hx
      simp only [Option.some.injEq, Prod.mk.injEq] at h
      obtain ⟨rfl, rfl⟩ := h
      exact ⟨w, _, by rw [← floatToken_spec], hw, hx⟩

end Verif.Proofs
