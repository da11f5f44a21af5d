import Verif.Proofs.StyleCascade
import Verif.Proofs.Space
/-
Properties C12-C20: style declarations, values, class sheets and the cascade (/repo/style, /repo/xdoc/style.go).
-/
namespace Verif.Props
open Verif.Go Verif.Model Verif.Spec Verif.Proofs

/-! ### C12 -/

/-- C12: a style text is accepted exactly if it follows the grammar. -/
theorem C12_accepts_iff (s : Str) : (parseRaw s).isSome ↔ ∃ ds, Decls s ds := by
  constructor
  · intro h
    obtain ⟨r, hr⟩ := Option.isSome_iff_exists.mp h
    obtain ⟨ds, hd, _⟩ := parseRaw_some_iff.mp hr
    exact ⟨ds, hd⟩
  · rintro ⟨ds, hd⟩
    rw [parseRaw_some_iff.mpr ⟨ds, hd, rfl⟩]; rfl

/-- C12: it is rejected iff some piece has a non-blank and not exactly one ':'. -/
theorem C12_rejects_iff (s : Str) :
    parseRaw s = none ↔ ∃ p, IsPiece s p ∧ (∃ c ∈ p, ¬ Blank c) ∧ p.count 58 ≠ 1 := by
  unfold parseRaw
  rw [parseRawLoop_none]
  constructor
  · rintro ⟨p, hp, h⟩; exact ⟨p, isPiece_iff.mpr hp, pieceStep_none_iff.mp h⟩
  · rintro ⟨p, hp, h⟩; exact ⟨p, isPiece_iff.mp hp, pieceStep_none_iff.mpr h⟩

/-- C12: the declarations of a text are determined by it. -/
theorem C12_unique {s : Str} {ds ds' : List (Str × Str)} (h : Decls s ds) (h' : Decls s ds') : ds = ds' :=
  decls_unique h h'

/-- C12: for every key the map has the value of its last declaration, and nothing else; no key occurs twice. -/
theorem C12_last_wins {s : Str} {ds : List (Str × Str)} (h : Decls s ds) :
    ∃ raw, parseRaw s = some raw ∧ (∀ k, mapGet k raw = lastValue k ds) ∧ (raw.map Prod.fst).Nodup ∧
      ∀ k v, (k, v) ∈ raw ↔ lastValue k ds = some v := by
  have hg : ∀ k, mapGet k (enterAll ds []) = lastValue k ds := by
    intro k
    rw [mapGet_enterAll]
    cases lastValue k ds <;> rfl
  have hn := enterAll_nodup ds [] (by simp)
  refine ⟨_, parseRaw_some_iff.mpr ⟨ds, h, rfl⟩, hg, hn, ?_⟩
  intro k v
  rw [← hg]
  exact ⟨fun hm => mapGet_of_mem hn hm, mem_of_mapGet⟩

/-- `lastValue` is what it says: the declaration is there and none follows with the same key. -/
theorem C12_lastValue_spec (k v : Str) (ds : List (Str × Str)) :
    lastValue k ds = some v ↔ ∃ a b, ds = a ++ (k, v) :: b ∧ ∀ w, (k, w) ∉ b := by
  induction ds with
  | nil => simp [lastValue]
  | cons d ds ih =>
    obtain ⟨k', v'⟩ := d
    simp only [lastValue]
    cases hl : lastValue k ds with
    | some w =>
      rw [hl] at ih
      simp only
      rw [ih]
      constructor
      · rintro ⟨a, b, h1, h2⟩; exact ⟨(k', v') :: a, b, by simp [h1], h2⟩
      · rintro ⟨a, b, h1, h2⟩
        cases a with
        | cons x a => simp only [List.cons_append, List.cons.injEq] at h1; exact ⟨a, b, h1.2, h2⟩
        | nil =>
          exfalso
          simp only [List.nil_append, List.cons.injEq] at h1
          have hx : ∃ u, (k, u) ∈ ds := by
            have : ∀ (l : List (Str × Str)) u, lastValue k l = some u → (k, u) ∈ l := by
              intro l
              induction l with
              | nil => intro u h; simp [lastValue] at h
              | cons e l ihl =>
                intro u h
                obtain ⟨a, b⟩ := e
                simp only [lastValue] at h
                cases hh : lastValue k l with
                | some z => rw [hh] at h; simp at h; subst h; simp [ihl _ hh]
                | none =>
                  rw [hh] at h
                  simp only at h
                  split at h
                  · rename_i hk; simp at h; simp [hk, h]
                  · simp at h
            exact ⟨w, this ds w hl⟩
          obtain ⟨u, hu⟩ := hx
          rw [h1.2] at hu
          exact h2 u hu
    | none =>
      have hno : ∀ w, (k, w) ∉ ds := by
        have : ∀ (l : List (Str × Str)), lastValue k l = none → ∀ w, (k, w) ∉ l := by
          intro l
          induction l with
          | nil => intro _ w h; simp at h
          | cons e l ihl =>
            intro h w
            obtain ⟨a, b⟩ := e
            simp only [lastValue] at h
            cases hh : lastValue k l with
            | some z => rw [hh] at h; simp at h
            | none =>
              rw [hh] at h
              simp only at h
              split at h
              · simp at h
              · rename_i hk
                simp only [List.mem_cons, Prod.mk.injEq, not_or]
                exact ⟨fun hx => hk hx.1.symm, ihl hh w⟩
        exact this ds hl
      simp only
      constructor
      · intro h
        split at h
        · rename_i hk; simp at h; subst hk h; exact ⟨[], ds, rfl, hno⟩
        · simp at h
      · rintro ⟨a, b, h1, h2⟩
        cases a with
        | nil => simp only [List.nil_append, List.cons.injEq, Prod.mk.injEq] at h1; simp [h1.1.1, h1.1.2]
        | cons x a =>
          exfalso
          simp only [List.cons_append, List.cons.injEq] at h1
          exact hno v (by rw [h1.2]; simp)

/-- A text with blanks, an empty piece and a repeated key. -/
example : Decls b!" width : 3;; width:4" [(b!"width", b!"3"), (b!"width", b!"4")] ∧
    parseRaw b!" width : 3;; width:4" = some [(b!"width", b!"4")] := by
  refine ⟨?_, by decide⟩
  refine Decls.more (p := b!" width : 3") (d := [(b!"width", b!"3")]) (rest := b!"; width:4") (by decide) ?_ ?_
  · refine .decl (k := b!" width ") (v := b!" 3") rfl (by decide) (by decide) ⟨b!" ", b!" ", rfl, ?_⟩ ⟨b!" ", [], rfl, ?_⟩ <;>
    simp [Blank]
  · refine Decls.more (p := []) (d := []) (by decide) (.blank (by simp)) (.last (by decide) ?_)
    refine .decl (k := b!" width") (v := b!"4") rfl (by decide) (by decide) ⟨b!" ", [], rfl, ?_⟩ ⟨[], [], rfl, ?_⟩ <;>
    simp [Blank]

/-- A piece with two colons is rejected. -/
example : parseRaw b!"width:3; a:b:c" = none := by decide

/-! ### C13 -/

/-- C13: two decodings of the same text, with whatever map orders, either both fail or both give mutators with the
same effect on every style. -/
theorem C13_order_irrelevant (fl : Floats) (o o' : MapOrder) (s : Str) :
    (decodeMutator fl o s = none ∧ decodeMutator fl o' s = none) ∨
    ∃ m m', decodeMutator fl o s = some m ∧ decodeMutator fl o' s = some m' ∧ ∀ st, mutate m st = mutate m' st := by
  by_cases hd : ∃ ds, Decls s ds
  · obtain ⟨ds, hd⟩ := hd
    cases h : decodeMutator fl o s with
    | none =>
      left
      refine ⟨rfl, ?_⟩
      rw [decodeMutator_none_of_decls hd] at h ⊢
      exact h
    | some m =>
      right
      cases h' : decodeMutator fl o' s with
      | none =>
        rw [decodeMutator_none_of_decls hd, ← decodeMutator_none_of_decls (ord := o) hd] at h'
        rw [h] at h'; simp at h'
      | some m' =>
        exact ⟨m, m', rfl, rfl, Behaves_unique_effect (decodeMutator_behaves hd h) (decodeMutator_behaves hd h')⟩
  · left
    have : parseRaw s = none := by
      cases hp : parseRaw s with
      | none => rfl
      | some r =>
        obtain ⟨ds, h, _⟩ := parseRaw_some_iff.mp hp
        exact absurd ⟨ds, h⟩ hd
    simp [decodeMutator, this]

/-- The two orders of a two-entry map give different mutators with the same effect. -/
private def fl0 : Floats := { parseFloat := fun s => (parseInt s).map (fun n => (n : ℚ)), convertFloat := fun s => (parseInt s).map (fun n => (n : ℚ)) }
private def ordId : MapOrder := ⟨id, fun _ => .refl _⟩
private def ordRev : MapOrder := ⟨List.reverse, fun l => l.reverse_perm⟩

example : decodeMutator fl0 ordId b!"h-align:left;font-style:italic" = some [([4, 0], .str b!"left"), ([0, 2], .str b!"italic")] ∧
    decodeMutator fl0 ordRev b!"h-align:left;font-style:italic" = some [([0, 2], .str b!"italic"), ([4, 0], .str b!"left")] := by
  decide

/-! ### C14 -/

/-- C14: applying a decoded style text gives each property the value read from its last declaration and leaves
the properties without declaration unchanged. -/
theorem C14_effect {fl : Floats} {o : MapOrder} {s : Str} {m : Mutator} {ds : List (Str × Str)} (h : Decls s ds)
    (hm : decodeMutator fl o s = some m) (st : Styles) (p : Prp) :
    (∀ v, lastValue p.name ds = some v → ∃ x, p.read fl v = some x ∧ p.get (mutate m st) = x) ∧
    (lastValue p.name ds = none → p.get (mutate m st) = p.get st) := by
  have hb := (decodeMutator_behaves h hm st).2 p
  constructor
  · intro v hv
    cases hr : p.read fl v with
    | none => rw [(decodeMutator_none_of_decls h).mpr (.inr ⟨p, v, hv, hr⟩)] at hm; simp at hm
    | some x =>
      refine ⟨x, rfl, ?_⟩
      rw [hb]; simp [sets, hv, hr]
  · intro hv
    rw [hb]; simp [sets, hv]

/-- C14: the twenty properties are all there is in a style. -/
theorem C14_properties_complete {s t : Styles} (h : ∀ p : Prp, p.get s = p.get t) : s = t := styles_ext h

/-- C14: applying never panics in reflect. -/
theorem C14_no_panic {fl : Floats} {o : MapOrder} {s : Str} {m : Mutator} (hm : decodeMutator fl o s = some m) (st : Styles) :
    mutate? m st = some (mutate m st) := by
  obtain ⟨ds, hd⟩ := decls_of_some hm
  exact (decodeMutator_behaves hd hm st).1

/-- C14: applying twice equals applying once. -/
theorem C14_idempotent {fl : Floats} {o : MapOrder} {s : Str} {m : Mutator} (hm : decodeMutator fl o s = some m) (st : Styles) :
    mutate m (mutate m st) = mutate m st := by
  obtain ⟨ds, hd⟩ := decls_of_some hm
  have hb := decodeMutator_behaves hd hm
  apply styles_ext
  intro p
  rw [(hb _).2 p, (hb st).2 p]
  cases sets fl ds p <;> rfl

/-- C14: unknown names are ignored: a text whose declarations only have unknown (non-empty) names is accepted and
changes nothing. -/
theorem C14_unknown_ignored {fl : Floats} {o : MapOrder} {s : Str} {ds : List (Str × Str)} (h : Decls s ds)
    (hu : ∀ d ∈ ds, d.1 ≠ [] ∧ ∀ p : Prp, d.1 ≠ p.name) :
    ∃ m, decodeMutator fl o s = some m ∧ ∀ st, mutate m st = st := by
  have hnone : ∀ k, (k = [] ∨ ∃ p : Prp, k = p.name) → lastValue k ds = none := by
    intro k hk
    cases hl : lastValue k ds with
    | none => rfl
    | some v =>
      obtain ⟨a, b, h1, _⟩ := (C12_lastValue_spec k v ds).mp hl
      have := hu (k, v) (by rw [h1]; simp)
      rcases hk with hk | ⟨p, hk⟩
      · exact absurd hk this.1
      · exact absurd hk (this.2 p)
  cases hm : decodeMutator fl o s with
  | none =>
    rcases (decodeMutator_none_of_decls h).mp hm with ⟨v, hv⟩ | ⟨p, v, hv, _⟩
    · rw [hnone [] (.inl rfl)] at hv; simp at hv
    · rw [hnone _ (.inr ⟨p, rfl⟩)] at hv; simp at hv
  | some m =>
    refine ⟨m, rfl, fun st => styles_ext (fun p => ?_)⟩
    exact (C14_effect h hm st p).2 (hnone _ (.inr ⟨p, rfl⟩))

private def st0 : Styles :=
  { font := ⟨b!"Arial", 12, b!"normal", b!"normal", b!"normal"⟩,
    box := ⟨⟨0, 0, 0, 0⟩, ⟨0, 0, 0, 0⟩, ⟨0, 0, 0, 0⟩⟩,
    dim := ⟨-1, -1, 1, 0, 0⟩, columnWidth := 0, align := ⟨b!"left", b!"top"⟩,
    color := ⟨⟨0, 0, 0⟩, ⟨0, 0, 0⟩, ⟨255, 255, 255⟩⟩, lineWidth := 1 }

example : ∃ m, decodeMutator fl0 ordId b!"border:1,2,3,4; colour:red; color:#102030; border: 5, 6,7,8" = some m ∧
    mutate m st0 = { st0 with box := { st0.box with border := ⟨5, 6, 7, 8⟩ }, color := { st0.color with foreground := ⟨16, 32, 48⟩ } } :=
  ⟨[([1, 0], .border ⟨5, 6, 7, 8⟩), ([5, 0], .rgb ⟨16, 32, 48⟩)], by decide +kernel, rfl⟩

/-! ### C15 -/

/-- C15: decoding fails exactly if the syntax is wrong, or a property name is empty, or the value that counts for a
known property cannot be read. -/
theorem C15_error_iff (fl : Floats) (o : MapOrder) (s : Str) :
    decodeMutator fl o s = none ↔
      (∃ p, IsPiece s p ∧ (∃ c ∈ p, ¬ Blank c) ∧ p.count 58 ≠ 1) ∨
      (∃ ds, Decls s ds ∧ ((∃ v, ([], v) ∈ ds) ∨ ∃ (p : Prp) (v : Str), lastValue p.name ds = some v ∧ p.read fl v = none)) := by
  by_cases hd : ∃ ds, Decls s ds
  · obtain ⟨ds, hd⟩ := hd
    rw [decodeMutator_none_of_decls hd]
    have hno : ¬ ∃ p, IsPiece s p ∧ (∃ c ∈ p, ¬ Blank c) ∧ p.count 58 ≠ 1 := by
      rw [← C12_rejects_iff, parseRaw_some_iff.mpr ⟨ds, hd, rfl⟩]; simp
    have hemp : (∃ v, lastValue [] ds = some v) ↔ ∃ v, ([], v) ∈ ds := by
      constructor
      · rintro ⟨v, hv⟩
        obtain ⟨a, b, h1, _⟩ := (C12_lastValue_spec [] v ds).mp hv
        exact ⟨v, by rw [h1]; simp⟩
      · rintro ⟨v, hv⟩
        cases hl : lastValue [] ds with
        | some w => exact ⟨w, rfl⟩
        | none =>
          exfalso
          have : ∀ (l : List (Str × Str)), ([], v) ∈ l → lastValue [] l ≠ none := by
            intro l
            induction l with
            | nil => intro h; simp at h
            | cons e l ih =>
              intro h
              obtain ⟨a, b⟩ := e
              simp only [lastValue]
              cases hh : lastValue [] l with
              | some z => simp
              | none =>
                simp only [List.mem_cons, Prod.mk.injEq] at h
                rcases h with h | h
                · simp [← h.1]
                · exact absurd hh (ih h)
          exact this ds hv hl
    constructor
    · rintro (h | h)
      · exact .inr ⟨ds, hd, .inl (hemp.mp h)⟩
      · exact .inr ⟨ds, hd, .inr h⟩
    · rintro (h | ⟨ds', hd', h⟩)
      · exact absurd h hno
      · rw [decls_unique hd' hd] at h
        exact h.imp hemp.mpr id
  · have hp : parseRaw s = none := by
      cases hp : parseRaw s with
      | none => rfl
      | some r =>
        obtain ⟨ds, h, _⟩ := parseRaw_some_iff.mp hp
        exact absurd ⟨ds, h⟩ hd
    have hp' := (C12_rejects_iff s).mp hp
    simp only [decodeMutator, hp, true_iff]
    exact .inl hp'

/-- C15: a bad value that is overridden by a later declaration of the same property is not reported. -/
theorem C15_overridden_unreported : ∃ m, decodeMutator fl0 ordId b!"color:nonsense;color:#000001" = some m :=
  ⟨[([5, 0], .rgb ⟨0, 0, 1⟩)], by decide +kernel⟩

example : decodeMutator fl0 ordId b!"h-align:left;color:#12345" = none ∧ decodeMutator fl0 ordId b!"h-align:left; :x" = none ∧
    decodeMutator fl0 ordId b!"width:abc" = none ∧ decodeMutator fl0 ordId b!"border:1,2,3" = none := by
  refine ⟨?_, ?_, ?_, ?_⟩ <;> decide +kernel

/-! ### C16 -/

/-- C16: a color is accepted iff it is six hex digits with an optional '#', and its components are the values of the
three pairs. -/
theorem C16_accept_iff (s : Str) (c : RGB) : unmarshalRGB s = some c ↔
    ∃ d1 d2 d3 d4 d5 d6, (s = [d1, d2, d3, d4, d5, d6] ∨ s = 35 :: [d1, d2, d3, d4, d5, d6]) ∧
      HexPair d1 d2 c.r ∧ HexPair d3 d4 c.g ∧ HexPair d5 d6 c.b := by
  have h35 : hexDigit 35 = none := by decide
  unfold unmarshalRGB
  by_cases hp : List.isPrefixOf b!"#" s = true
  · obtain ⟨t, rfl⟩ := List.isPrefixOf_iff_prefix.mp hp
    simp only [if_pos hp]
    simp only [List.cons_append, List.nil_append, List.drop_succ_cons, List.drop_zero]
    split
    · rename_i hl
      constructor
      · intro h; simp at h
      · rintro ⟨d1, d2, d3, d4, d5, d6, hs, h1, _⟩
        rcases hs with hs | hs
        · simp only [List.cons.injEq] at hs
          obtain ⟨x, y, hx, _⟩ := h1
          rw [← hs.1, h35] at hx; simp at hx
        · simp only [List.cons.injEq, true_and] at hs
          subst hs; exact absurd rfl hl
    · rename_i hl
      obtain ⟨a, b, c', d, e, f, rfl⟩ := length_six (Classical.not_not.mp hl)
      refine Iff.trans rgb_six ?_
      constructor
      · rintro ⟨h1, h2, h3⟩
        exact ⟨a, b, c', d, e, f, .inr rfl, h1, h2, h3⟩
      · rintro ⟨d1, d2, d3, d4, d5, d6, hs, h1, h2, h3⟩
        rcases hs with hs | hs
        · simp at hs
        · simp only [List.cons.injEq, true_and, and_true] at hs
          obtain ⟨rfl, rfl, rfl, rfl, rfl, rfl⟩ := hs
          exact ⟨h1, h2, h3⟩
  · rw [if_neg hp]
    simp only
    split
    · rename_i hl
      constructor
      · intro h; simp at h
      · rintro ⟨d1, d2, d3, d4, d5, d6, hs, _⟩
        rcases hs with rfl | rfl
        · exact absurd rfl hl
        · exact absurd (by simp) hp
    · rename_i hl
      obtain ⟨a, b, c', d, e, f, rfl⟩ := length_six (Classical.not_not.mp hl)
      refine Iff.trans rgb_six ?_
      constructor
      · rintro ⟨h1, h2, h3⟩
        exact ⟨a, b, c', d, e, f, .inl rfl, h1, h2, h3⟩
      · rintro ⟨d1, d2, d3, d4, d5, d6, hs, h1, h2, h3⟩
        rcases hs with hs | hs
        · simp only [List.cons.injEq, and_true] at hs
          obtain ⟨rfl, rfl, rfl, rfl, rfl, rfl⟩ := hs
          exact ⟨h1, h2, h3⟩
        · simp at hs

/-- C16: components of an accepted color lie in 0..255. -/
theorem C16_range {s : Str} {c : RGB} (h : unmarshalRGB s = some c) :
    (0 ≤ c.r ∧ c.r ≤ 255) ∧ (0 ≤ c.g ∧ c.g ≤ 255) ∧ (0 ≤ c.b ∧ c.b ≤ 255) := by
  obtain ⟨d1, d2, d3, d4, d5, d6, _, ⟨x1, y1, a1, b1, e1⟩, ⟨x2, y2, a2, b2, e2⟩, ⟨x3, y3, a3, b3, e3⟩⟩ := (C16_accept_iff s c).mp h
  have := hexDigit_lt a1; have := hexDigit_lt b1; have := hexDigit_lt a2
  have := hexDigit_lt b2; have := hexDigit_lt a3; have := hexDigit_lt b3
  omega

private theorem hexPair_hex2 {n : Nat} (h : n < 256) : HexPair (hexChar (n / 16)) (hexChar (n % 16)) n := by
  have key : ∀ d : Fin 16, hexDigit (hexChar d.1) = some d.1 := by decide
  refine ⟨n / 16, n % 16, key ⟨n / 16, by omega⟩, key ⟨n % 16, by omega⟩, by omega⟩

/-- C16: writing a color as '#rrggbb' (or 'rrggbb') and decoding it gives it back. -/
theorem C16_roundtrip (r g b : Nat) (hr : r < 256) (hg : g < 256) (hb : b < 256) :
    unmarshalRGB (35 :: (hex2 r ++ hex2 g ++ hex2 b)) = some ⟨r, g, b⟩ ∧
    unmarshalRGB (hex2 r ++ hex2 g ++ hex2 b) = some ⟨r, g, b⟩ :=
  ⟨(C16_accept_iff _ _).mpr ⟨_, _, _, _, _, _, .inr rfl, hexPair_hex2 hr, hexPair_hex2 hg, hexPair_hex2 hb⟩,
   (C16_accept_iff _ _).mpr ⟨_, _, _, _, _, _, .inl rfl, hexPair_hex2 hr, hexPair_hex2 hg, hexPair_hex2 hb⟩⟩

example : unmarshalRGB b!"#fF8000" = some ⟨255, 128, 0⟩ ∧ unmarshalRGB b!"#fF800" = none ∧ unmarshalRGB b!"##12345" = none ∧
    unmarshalRGB b!"+12345" = none := by decide +kernel

/-! ### C17 -/

/-- C17 (border): accepted exactly if the text is four integers separated by commas (with white space allowed before each
and anything after the last); they are left, top, right, bottom in that order. -/
theorem C17_border_iff (s : Str) (l t r b : Int) :
    unmarshalBorder s = some ⟨l, t, r, b⟩ ↔ QuadText intItem (decodeRunes s) l t r b := by
  rw [← quad_int]
  unfold unmarshalBorder
  cases h : scanQuad scanInt s with
  | none => simp
  | some q => obtain ⟨a, b', c, d⟩ := q; simp

private theorem digits_of_nat (n : Nat) : ∃ ds, Digits ds n := by
  induction n using Nat.strongRecOn with
  | ind n ih =>
    by_cases h : n < 10
    · exact ⟨_, .one h⟩
    · obtain ⟨ds, hd⟩ := ih (n / 10) (by omega)
      refine ⟨ds ++ [48 + n % 10], ?_⟩
      have := Digits.snoc (d := n % 10) hd (by omega)
      rwa [show 10 * (n / 10) + n % 10 = n by omega] at this

/-- C17 (border): every 64-bit integer has a text. -/
theorem C17_int_has_text (n : Int) (h : -2 ^ 63 ≤ n) (h' : n < 2 ^ 63) : ∃ t, IntText t n := by
  by_cases hn : 0 ≤ n
  · obtain ⟨ds, hd⟩ := digits_of_nat n.toNat
    have := IntText.plain hd (by omega)
    rw [Int.toNat_of_nonneg hn] at this
    exact ⟨ds, this⟩
  · obtain ⟨ds, hd⟩ := digits_of_nat (-n).toNat
    have := IntText.minus hd (by omega)
    rw [Int.toNat_of_nonneg (by omega), Int.neg_neg] at this
    exact ⟨45 :: ds, this⟩

/-- Every rune of an integer text is ASCII. -/
private theorem intText_ascii {t : List Nat} {n : Int} (h : IntText t n) : ∀ r ∈ t, r < 128 := by
  have key : ∀ {ds m}, Digits ds m → ∀ r ∈ ds, r < 128 := by
    intro ds m hd r hr
    have := digits_isDec hd r hr
    simp [isDec] at this; omega
  intro r hr
  cases h with
  | plain hd _ => exact key hd r hr
  | plus hd _ => simp only [List.mem_cons] at hr; rcases hr with rfl | hr; · decide
                 exact key hd r hr
  | minus hd _ => simp only [List.mem_cons] at hr; rcases hr with rfl | hr; · decide
                  exact key hd r hr

private theorem decode_ascii {rs : List Nat} (h : ∀ r ∈ rs, r < 128) : decodeRunes (runeBytes rs) = rs := by
  have ha : isAscii (runeBytes rs) = true := by
    rw [isAscii_iff]
    intro c hc
    obtain ⟨r, hr, rfl⟩ := List.mem_map.mp hc
    have := h r hr
    rw [toNat_ofNat_lt (by omega)]; exact this
  rw [decodeRunes_ascii ha, runeBytes, List.map_map]
  conv_rhs => rw [← List.map_id rs]
  apply List.map_congr_left
  intro r hr
  have := h r hr
  simp only [Function.comp, id]
  exact toNat_ofNat_lt (by omega)

/-- C17 (border): 'l,t,r,b' decodes to l, t, r, b. -/
theorem C17_border_roundtrip {t1 t2 t3 t4 : List Nat} {l t r b : Int} (h1 : IntText t1 l) (h2 : IntText t2 t) (h3 : IntText t3 r)
    (h4 : IntText t4 b) : unmarshalBorder (runeBytes (t1 ++ 44 :: (t2 ++ 44 :: (t3 ++ 44 :: t4)))) = some ⟨l, t, r, b⟩ := by
  rw [C17_border_iff, decode_ascii]
  · exact ⟨[], t1, [], t2, [], t3, [], t4, [], by simp, by simp [Gap], by simp [Gap], by simp [Gap], by simp [Gap],
      ⟨h1, by simp⟩, ⟨h2, by simp⟩, ⟨h3, by simp⟩, ⟨h4, by simp⟩⟩
  · intro x hx
    simp only [List.mem_append, List.mem_cons] at hx
    rcases hx with hx | rfl | hx | rfl | hx | rfl | hx
    · exact intText_ascii h1 x hx
    · decide
    · exact intText_ascii h2 x hx
    · decide
    · exact intText_ascii h3 x hx
    · decide
    · exact intText_ascii h4 x hx

/-- C17 (padding, margin): 'l,t,r,b' with plain decimal numbers, optionally with white space before each, decodes to
l, t, r, b. -/
theorem C17_floats_accepted (fl : Floats) (s : Str) (l t r b : ℚ) (h : QuadText (plainItem fl) (decodeRunes s) l t r b) :
    unmarshalQuad fl s = some ⟨l, t, r, b⟩ := by
  obtain ⟨w1, t1, w2, t2, w3, t3, w4, t4, rest, e, g1, g2, g3, g4, ⟨p1, q1, _⟩, ⟨p2, q2, _⟩, ⟨p3, q3, _⟩, ⟨p4, q4, e4⟩⟩ := h
  have hc : ∀ rs : List Nat, Ends (44 :: rs) := by
    intro rs x hx; simp at hx; subst hx; simp [continuesNumber]
  have : scanQuad (scanFloat fl) s = some (l, t, r, b) := by
    rw [scanQuad_some]
    refine ⟨_, _, _, rest, ?_, scanFloat_plain g2 p2 q2 (hc _), scanFloat_plain g3 p3 q3 (hc _), scanFloat_plain g4 p4 q4 e4⟩
    rw [e]
    exact scanFloat_plain g1 p1 q1 (hc _)
  simp [unmarshalQuad, this]

/-- C17 (padding, margin): an accepted text consists of four tokens separated by commas, each of which the float conversion
accepts with the value of its place; so with fewer than four numbers, a missing comma or a non-number it is an error. -/
theorem C17_floats_only (fl : Floats) (s : Str) (l t r b : ℚ) (h : unmarshalQuad fl s = some ⟨l, t, r, b⟩) :
    QuadText (anyItem fl) (decodeRunes s) l t r b := by
  unfold unmarshalQuad at h
  cases hs : scanQuad (scanFloat fl) s with
  | none => simp [hs] at h
  | some q =>
    obtain ⟨a, b', c, d⟩ := q
    simp only [hs, Option.some.injEq, Quad.mk.injEq] at h
    obtain ⟨rfl, rfl, rfl, rfl⟩ := h
    obtain ⟨r1, r2, r3, rest, h1, h2, h3, h4⟩ := scanQuad_some.mp hs
    obtain ⟨w1, t1, e1, g1, i1⟩ := scanFloat_some h1
    obtain ⟨w2, t2, e2, g2, i2⟩ := scanFloat_some h2
    obtain ⟨w3, t3, e3, g3, i3⟩ := scanFloat_some h3
    obtain ⟨w4, t4, e4, g4, i4⟩ := scanFloat_some h4
    exact ⟨w1, t1, w2, t2, w3, t3, w4, t4, rest, by rw [e1, e2, e3, e4], g1, g2, g3, g4, i1, i2, i3, i4⟩

/-- C17: fewer than three commas are always an error. -/
theorem C17_too_few (fl : Floats) (s : Str) (h : (decodeRunes s).count 44 < 3) :
    unmarshalBorder s = none ∧ unmarshalQuad fl s = none := by
  have key : ∀ {α : Type} {item : List Nat → List Nat → α → Prop} {a b c d : α}, QuadText item (decodeRunes s) a b c d → False := by
    intro α item a b c d hq
    obtain ⟨w1, t1, w2, t2, w3, t3, w4, t4, rest, e, _⟩ := hq
    rw [e] at h
    simp only [List.count_append, List.count_cons_self] at h
    omega
  constructor
  · cases hb : unmarshalBorder s with
    | none => rfl
    | some q => obtain ⟨a, b, c, d⟩ := q; exact absurd ((C17_border_iff s a b c d).mp hb) key
  · cases hb : unmarshalQuad fl s with
    | none => rfl
    | some q => obtain ⟨a, b, c, d⟩ := q; exact absurd (C17_floats_only fl s a b c d hb) key

example : unmarshalBorder b!"1, -2,+3,40" = some ⟨1, -2, 3, 40⟩ ∧ unmarshalBorder b!"1 ,2,3,4" = none ∧
    unmarshalBorder b!"1,2,3" = none ∧ unmarshalBorder b!"1,2,x,4" = none ∧
    unmarshalBorder b!"1,2,3,4 and more" = some ⟨1, 2, 3, 4⟩ ∧ unmarshalBorder b!"9223372036854775808,0,0,0" = none := by
  decide +kernel

example : unmarshalQuad fl0 b!"1, -2,+3,40" = some ⟨1, -2, 3, 40⟩ ∧ PlainNumber [45, 50, 46, 53] :=
  ⟨by decide +kernel, PlainNumber.mk (sg := [45]) (ds := [50]) (fr := [46, 53]) (by simp) (by simp) (.inr ⟨[53], by simp⟩)⟩

/-! ### C18 -/

/-- C18: every sheet text is a list of blocks followed by text without '{', or by a block without '}'. -/
theorem C18_forms (s : Str) : ∃ bs : List Block, (∀ b ∈ bs, b.ok) ∧
    ((∃ tail, flat s = blocksText bs ++ tail ∧ (123 : UInt8) ∉ tail) ∨
     (∃ head rest, flat s = blocksText bs ++ (head ++ 123 :: rest) ∧ (123 : UInt8) ∉ head ∧ (125 : UInt8) ∉ rest)) :=
  sheet_forms _ (flat s) rfl

/-- C18: a closed sheet is accepted exactly if the blocks, entered one after the other, have a meaning (each has a name, a
correct body, and a base class if it is a selector), and then the classes do what this meaning says. -/
theorem C18_closed (fl : Floats) (ord : Nat → MapOrder) {s : Str} {bs : List Block} {tail : Str} (hok : ∀ b ∈ bs, b.ok)
    (hs : flat s = blocksText bs ++ tail) (ht : (123 : UInt8) ∉ tail) :
    (∀ cs, decodeClasses fl ord s = some cs → ∃ S, Sheet fl (fun _ => none) bs S ∧ Rep cs S) ∧
    (∀ S, Sheet fl (fun _ => none) bs S → ∃ cs, decodeClasses fl ord s = some cs ∧ Rep cs S) := by
  unfold decodeClasses
  rw [sheetText_eq, hs]
  exact ⟨fun cs h => loop_sound ht bs 0 [] cs _ hok rep_nil h, fun S h => loop_complete ht bs 0 [] _ S hok rep_nil h⟩

/-- C18: the meaning of a list of blocks is unique. -/
theorem C18_meaning_unique {fl : Floats} {S S' S'' : SheetMeaning} {bs : List Block} (h : Sheet fl S bs S') (h' : Sheet fl S bs S'') :
    S' = S'' := sheet_unique h h'

/-- C18: a block without '}' is an error. -/
theorem C18_unclosed (fl : Floats) (ord : Nat → MapOrder) {s : Str} {bs : List Block} {head rest : Str} (hok : ∀ b ∈ bs, b.ok)
    (hs : flat s = blocksText bs ++ (head ++ 123 :: rest)) (h1 : (123 : UInt8) ∉ head) (h2 : (125 : UInt8) ∉ rest) :
    decodeClasses fl ord s = none := by
  unfold decodeClasses
  rw [sheetText_eq, hs]
  exact loop_unclosed_blocks h1 h2 bs 0 [] hok

private theorem sheet_append {fl : Floats} : ∀ (as bs : List Block) (S S'' : SheetMeaning), Sheet fl S (as ++ bs) S'' →
    ∃ S', Sheet fl S as S' ∧ Sheet fl S' bs S'' := by
  intro as
  induction as with
  | nil => intro bs S S'' h; exact ⟨S, .nil, h⟩
  | cons a as ih =>
    intro bs S S'' h
    cases h with
    | cons h1 h2 h3 h4 h5 =>
      obtain ⟨S', h6, h7⟩ := ih bs _ S'' h5
      exact ⟨S', .cons h1 h2 h3 h4 h6, h7⟩

/-- C18: a block with a blank name, a bad body, or a selector whose base class is not defined by the blocks before it
makes the sheet an error. -/
theorem C18_bad_block (fl : Floats) (ord : Nat → MapOrder) {s : Str} {as bs : List Block} {b : Block} {tail : Str}
    (hok : ∀ x ∈ as ++ b :: bs, x.ok) (hs : flat s = blocksText (as ++ b :: bs) ++ tail) (ht : (123 : UInt8) ∉ tail)
    (hbad : (∀ c ∈ b.head, Blank c) ∨ (¬ ∃ σ, BodySets fl b.body σ) ∨
      ∃ base sel, Strips b.head (base ++ 58 :: sel) ∧ base ≠ [] ∧ (58 : UInt8) ∉ base ∧
        ∀ S, Sheet fl (fun _ => none) as S → S base = none) : decodeClasses fl ord s = none := by
  cases h : decodeClasses fl ord s with
  | none => rfl
  | some cs =>
    exfalso
    obtain ⟨S, hS, _⟩ := (C18_closed fl ord hok hs ht).1 cs h
    obtain ⟨S', h1, h2⟩ := sheet_append as (b :: bs) _ S hS
    cases h2 with
    | cons a1 a2 a3 a4 a5 =>
      rcases hbad with hb | hb | ⟨base, sel, hb, h0, h58, hno⟩
      · exact a2 (by rw [← strips_unique a1]; exact trimWS_nil_iff.mpr hb)
      · exact hb ⟨_, a3⟩
      · have e : _ = _ := (strips_unique a1).symm.trans (strips_unique hb)
        subst e
        have hnone := hno S' h1
        generalize hN : base ++ 58 :: sel = N at a4
        cases a4 with
        | plain h => subst hN; simp at h
        | colon =>
          cases base with
          | nil => exact h0 rfl
          | cons x xs => simp at hN; simp [hN.1] at h58
        | selector c0 c1 hC =>
          obtain ⟨rfl, rfl⟩ := append_cut_unique h58 c1 hN
          rw [hnone] at hC; simp at hC

/-- C18: the slice expression of line 80 never panics: the closing brace comes after the opening one. -/
theorem C18_no_panic {curr : Str} {i j : Nat} (hi : indexByte 123 curr = some i) (hj : indexByte 125 (curr.drop i) = some j) :
    ∃ body, slice? curr (i + 1) (j + i) = some body := by
  have h1 : (123 : UInt8) ∈ curr := by
    by_contra h; rw [indexByte_none_iff.mpr h] at hi; simp at hi
  obtain ⟨k, v, rfl, hk⟩ := exists_cut h1
  rw [indexByte_append hk] at hi
  simp only [Option.some.injEq] at hi
  subst hi
  rw [List.drop_left] at hj
  have hlt := indexByte_lt hj
  have hpos : j ≠ 0 := by
    rintro rfl
    simp only [indexByte] at hj
    split at hj
    · rename_i h; simp at h
    · cases hx : indexByte 125 v with
      | none => simp [hx] at hj
      | some n => simp [hx] at hj
  unfold slice?
  rw [if_pos ⟨by omega, by simp at hlt ⊢; omega⟩]
  exact ⟨_, rfl⟩

/-- A sheet with a class, a selector for it and a redefinition of another class. -/
private def sheet0 : Str := b!"a {h-align:left}\n a:hover{h-align:right} b{v-align:top} b{v-align:bottom} rest"

example : ((decodeClasses fl0 (fun _ => ordId) sheet0).map (fun cs => cs.map (fun e => (e.1, e.2.mutator, e.2.selectors)))) =
    some [(b!"a", [([4, 0], .str b!"left")], [(b!"hover", [([4, 0], .str b!"right")])]),
      (b!"b", [([4, 1], .str b!"bottom")], [])] := by
  have h : flat sheet0 = blocksText [⟨b!"a ", b!"h-align:left"⟩, ⟨b!"  a:hover", b!"h-align:right"⟩, ⟨b!" b", b!"v-align:top"⟩,
      ⟨b!" b", b!"v-align:bottom"⟩] ++ b!" rest" := by decide
  unfold decodeClasses
  rw [sheetText_eq, h]
  simp only [blocksText, List.flatMap_cons, List.flatMap_nil, List.append_assoc, List.nil_append]
  rw [loop_block _ _ _ _ ⟨by decide, by decide⟩, if_neg (by decide),
    show decodeMutator fl0 ordId b!"h-align:left" = some [([4, 0], .str b!"left")] by decide]
  simp only [show addBlock [] (trimWS b!"a ") [([4, 0], .str b!"left")] = some [(b!"a", ⟨[([4, 0], .str b!"left")], []⟩)] from rfl]
  rw [loop_block _ _ _ _ ⟨by decide, by decide⟩, if_neg (by decide),
    show decodeMutator fl0 ordId b!"h-align:right" = some [([4, 0], .str b!"right")] by decide]
  simp only [show addBlock [(b!"a", ⟨[([4, 0], .str b!"left")], []⟩)] (trimWS b!"  a:hover") [([4, 0], .str b!"right")] =
    some [(b!"a", ⟨[([4, 0], .str b!"left")], [(b!"hover", [([4, 0], .str b!"right")])]⟩)] from rfl]
  rw [loop_block _ _ _ _ ⟨by decide, by decide⟩, if_neg (by decide),
    show decodeMutator fl0 ordId b!"v-align:top" = some [([4, 1], .str b!"top")] by decide]
  simp only [show addBlock [(b!"a", ⟨[([4, 0], .str b!"left")], [(b!"hover", [([4, 0], .str b!"right")])]⟩)] (trimWS b!" b") [([4, 1], .str b!"top")] =
    some [(b!"a", ⟨[([4, 0], .str b!"left")], [(b!"hover", [([4, 0], .str b!"right")])]⟩), (b!"b", ⟨[([4, 1], .str b!"top")], []⟩)] from rfl]
  rw [loop_block _ _ _ _ ⟨by decide, by decide⟩, if_neg (by decide),
    show decodeMutator fl0 ordId b!"v-align:bottom" = some [([4, 1], .str b!"bottom")] by decide]
  simp only [show addBlock [(b!"a", ⟨[([4, 0], .str b!"left")], [(b!"hover", [([4, 0], .str b!"right")])]⟩), (b!"b", ⟨[([4, 1], .str b!"top")], []⟩)]
      (trimWS b!" b") [([4, 1], .str b!"bottom")] =
    some [(b!"a", ⟨[([4, 0], .str b!"left")], [(b!"hover", [([4, 0], .str b!"right")])]⟩), (b!"b", ⟨[([4, 1], .str b!"bottom")], []⟩)] from rfl]
  rw [loop_tail _ _ _ (by decide)]
  rfl

/-! ### C19 -/

/-- C19: the value of a property after the cascade is that of the last source that sets it - the classes of the class
list in order, then the inline styles in order - and otherwise the inherited value; unknown class names are no source. -/
theorem C19_cascade {cs : Classes} {S : SheetMeaning} (hR : Rep cs S) {st : Styled} {σs : List (Prp → Option Leaf)}
    (hσ : List.Forall₂ Behaves st.mutators σs) (s : Styles) (p : Prp) :
    p.get (st.mutatedStyles cs s) =
      lastSetter (st.classes.filterMap (fun n => (S n).map (·.own)) ++ σs) (p.get s) p := by
  unfold Styled.mutatedStyles
  rw [inline_get hσ, classes_get hR, lastSetter_append]

/-- C19: `lastSetter` is what it says. -/
theorem C19_lastSetter_spec (sources : List (Prp → Option Leaf)) (inh : Leaf) (p : Prp) :
    (∀ a σ b v, sources = a ++ σ :: b → σ p = some v → (∀ τ ∈ b, τ p = none) → lastSetter sources inh p = v) ∧
    ((∀ σ ∈ sources, σ p = none) → lastSetter sources inh p = inh) := by
  have hnone : ∀ (l : List (Prp → Option Leaf)) (i : Leaf), (∀ σ ∈ l, σ p = none) → lastSetter l i p = i := by
    intro l
    induction l with
    | nil => intro i _; rfl
    | cons a l ih =>
      intro i h
      rw [lastSetter_cons, h a (by simp), Option.getD_none]
      exact ih i (fun σ hσ => h σ (by simp [hσ]))
  refine ⟨?_, hnone sources inh⟩
  rintro a σ b v rfl hv hb
  rw [lastSetter_append, lastSetter_cons, hv, Option.getD_some]
  exact hnone b v hb

/-- C19: the attributes: the inline sources are the style attributes in order, the class list is the words of the class
attributes in order. -/
theorem C19_attrs (fl : Floats) (ord : Nat → MapOrder) (as : List Attr) (st : Styled)
    (h : Styled.decodeAttrs fl ord as ⟨[], []⟩ = some st) :
    ∃ σs, List.Forall₂ (BodySets fl) ((as.filter (fun a => a.1 = b!"style")).map Prod.snd) σs ∧
      List.Forall₂ Behaves st.mutators σs ∧
      st.classes = ((as.filter (fun a => a.1 = b!"class")).map Prod.snd).flatMap fields := by
  obtain ⟨σs, h1, ⟨ms, h2, h3⟩, h4⟩ := decodeAttrs_some as _ st h
  simp only [List.nil_append] at h2 h4
  exact ⟨σs, h1, h2 ▸ h3, h4⟩

/-- C19: the attributes are an error exactly if some style attribute is not a correct style text. -/
theorem C19_attrs_error (fl : Floats) (ord : Nat → MapOrder) (as : List Attr) (st : Styled) :
    Styled.decodeAttrs fl ord as st = none ↔ ∃ v, (b!"style", v) ∈ as ∧ ¬ ∃ σ, BodySets fl v σ :=
  decodeAttrs_none as st

/-- C19: `fields` gives the words of the attribute. -/
theorem C19_words (s : Str) (ws : List Str) : fields s = ws ↔ Words s ws := by
  constructor
  · rintro rfl
    obtain ⟨ws, h⟩ := words_exist _ s rfl
    rw [fields_words h]; exact h
  · exact fields_words

/-- C19 from end to end: a sheet text, the attributes of an element and inherited styles. -/
theorem C19_end_to_end (fl : Floats) (ord ord' : Nat → MapOrder) {sheet : Str} {bs : List Block} {tail : Str} {S : SheetMeaning}
    {as : List Attr} {st : Styled} {cs : Classes} (hok : ∀ b ∈ bs, b.ok) (hs : flat sheet = blocksText bs ++ tail)
    (ht : (123 : UInt8) ∉ tail) (hS : Sheet fl (fun _ => none) bs S) (hcs : decodeClasses fl ord sheet = some cs)
    (hst : Styled.decodeAttrs fl ord' as ⟨[], []⟩ = some st) :
    ∃ σs, List.Forall₂ (BodySets fl) ((as.filter (fun a => a.1 = b!"style")).map Prod.snd) σs ∧
      ∀ s p, Prp.get (st.mutatedStyles cs s) p = lastSetter
        ((((as.filter (fun a => a.1 = b!"class")).map Prod.snd).flatMap fields).filterMap (fun n => (S n).map (·.own)) ++ σs)
        (p.get s) p := by
  obtain ⟨S', hS', hR⟩ := (C18_closed fl ord hok hs ht).1 cs hcs
  rw [sheet_unique hS' hS] at hR
  obtain ⟨σs, h1, h2, h3⟩ := C19_attrs fl ord' as st hst
  refine ⟨σs, h1, fun s p => ?_⟩
  rw [C19_cascade hR h2 s p, h3]

private def st1 : Styled := ⟨[[([4, 0], .str b!"center")]], [b!"a", b!"nosuch", b!"b"]⟩
private def cs1 : Classes := [(b!"a", ⟨[([4, 1], .str b!"middle"), ([4, 0], .str b!"left")], [(b!"first", [([2, 0], .flt 7)])]⟩),
  (b!"b", ⟨[([4, 1], .str b!"bottom")], []⟩)]

example : (st1.mutatedStyles cs1 st0).align = ⟨b!"center", b!"bottom"⟩ ∧ (st1.mutatedStyles cs1 st0).font = st0.font := by
  decide +kernel

example : fields b!" a  nosuch\tb " = [b!"a", b!"nosuch", b!"b"] ∧ fields b!"ä\u00a0a\u2003b" = [b!"ä", b!"a", b!"b"] := by decide +kernel

/-! ### C20 -/

/-- C20: with a selector, each class contributes its selector block of that name if it has one, and otherwise its own
block, never both; everything else is as in C19. -/
theorem C20_selector {cs : Classes} {S : SheetMeaning} (hR : Rep cs S) {st : Styled} {σs : List (Prp → Option Leaf)}
    (hσ : List.Forall₂ Behaves st.mutators σs) (sel : Str) (s : Styles) (p : Prp) :
    p.get (st.mutatedStylesWithSelector sel cs s) =
      lastSetter (st.classes.filterMap (fun n => (S n).map (fun C => (C.sel sel).getD C.own)) ++ σs) (p.get s) p := by
  unfold Styled.mutatedStylesWithSelector
  rw [inline_get hσ, classes_get_sel hR, lastSetter_append]

/-- C20: without any selector of that name it is the plain cascade. -/
theorem C20_fallback {cs : Classes} {S : SheetMeaning} (hR : Rep cs S) {st : Styled} {σs : List (Prp → Option Leaf)}
    (hσ : List.Forall₂ Behaves st.mutators σs) (sel : Str) (hno : ∀ n C, S n = some C → C.sel sel = none) (s : Styles) :
    st.mutatedStylesWithSelector sel cs s = st.mutatedStyles cs s := by
  apply styles_ext
  intro p
  rw [C20_selector hR hσ, C19_cascade hR hσ]
  congr 2
  apply List.filterMap_congr
  intro n _
  cases h : S n with
  | none => rfl
  | some C => simp [hno n C h]

example : (st1.mutatedStylesWithSelector b!"first" cs1 st0).dim.width = 7 ∧
    (st1.mutatedStylesWithSelector b!"first" cs1 st0).align = ⟨b!"center", b!"bottom"⟩ ∧
    (({ st1 with mutators := [] } : Styled).mutatedStylesWithSelector b!"first" cs1 st0).align = ⟨b!"left", b!"bottom"⟩ := by
  refine ⟨?_, ?_, ?_⟩ <;> decide +kernel

end Verif.Props
