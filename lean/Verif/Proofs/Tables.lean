import Verif.Proofs.Load
import Verif.Proofs.Bytes
import Verif.Proofs.Hyphen
import Mathlib.Data.List.Nodup
import Mathlib.Data.List.Basic
/- Lemmas for the built-in pattern tables. -/
namespace Verif.Proofs
open Verif.Go Verif.Model Verif.Spec

/-- Parsing depends on the digit table only through the runes of the line. -/
theorem parseT_congr {nd nd' : Nat → Bool} (rs : List Nat) : (∀ r ∈ rs, 0xFF < r → nd r = nd' r) →
    parseT nd rs = parseT nd' rs := by
  have hd : ∀ r, (0xFF < r → nd r = nd' r) → isDigit nd r = isDigit nd' r := by
    intro r h
    unfold isDigit
    split
    · rfl
    · exact h (by omega)
  fun_induction parseT nd' rs with
  | case1 => intro _; rfl
  | case2 r h1 h2 => intro h; have := hd r (h r (by simp)); simp [parseT, this, h1, h2]
  | case3 r h1 h2 => intro h; have := hd r (h r (by simp)); simp [parseT, this, h1, h2]
  | case4 r h1 => intro h; have := hd r (h r (by simp)); simp [parseT, this, h1]
  | case5 r l rs h1 h2 ih =>
    intro h; have := hd r (h r (by simp))
    simp [parseT, this, h1, h2, ih (fun x hx => h x (by simp [hx]))]
  | case6 r l rs h1 h2 => intro h; have := hd r (h r (by simp)); rw [parseT]; simp [this, h1, h2]
  | case7 r l rs h1 ih =>
    intro h; have := hd r (h r (by simp))
    simp [parseT, this, h1, ih (fun x hx => h x (by simp at hx ⊢; right; exact hx))]

theorem parsePattern_congr {nd nd' : Nat → Bool} {s : Str} (h : ∀ r ∈ decodeRunes s, 0xFF < r → nd r = nd' r) :
    parsePattern nd s = parsePattern nd' s := by
  rw [parsePattern_eq, parsePattern_eq, parseT_congr _ h]

/-- No digits above Latin-1. -/
def nd0 (_ : Nat) : Bool := false

/-- Left-aligned base-512 number. -/
def keyFrom : Nat → Nat → List Nat → Nat
  | acc, _, [] => acc
  | acc, m, r :: rs => keyFrom (acc + r * m) (m / 512) rs

/-- One number per letter sequence, ordered like the letters. -/
def keyOf (letters : List Nat) : Nat := keyFrom 0 (512 ^ 15) letters

/-- A search tree from keys to line numbers (used only as a certificate; nothing about its order is assumed). -/
inductive KT
  | leaf
  | node (l : KT) (k v : Nat) (r : KT)

/-- Search. -/
def KT.get (x : Nat) : KT → Option Nat
  | .leaf => none
  | .node l k v r => bif Nat.beq x k then some v else bif Nat.ble x k then KT.get x l else KT.get x r

/-- The search result is `i`. -/
def isIdx (o : Option Nat) (i : Nat) : Bool := match o with | none => false | some v => Nat.beq v i

/-- Every key is mapped to its line number, counted from `i`. -/
def idxOk (t : KT) : Nat → List Nat → Bool
  | _, [] => true
  | i, k :: ks => isIdx (t.get k) i && idxOk t (i + 1) ks

theorem isIdx_iff {o : Option Nat} {i : Nat} : isIdx o i = true ↔ o = some i := by
  unfold isIdx
  split
  · simp
  · simp

theorem idxOk_append (t : KT) : ∀ (as bs : List Nat) (i : Nat), idxOk t i as = true → idxOk t (i + as.length) bs = true →
    idxOk t i (as ++ bs) = true := by
  intro as
  induction as with
  | nil => intro bs i _ h; simpa using h
  | cons a as ih =>
    intro bs i h1 h2
    simp only [idxOk, Bool.and_eq_true] at h1
    simp only [List.cons_append, idxOk, Bool.and_eq_true]
    refine ⟨h1.1, ih bs (i + 1) h1.2 ?_⟩
    rw [← h2]; congr 1; simp; omega

theorem idxOk_spec (t : KT) : ∀ (ks : List Nat) (i : Nat), idxOk t i ks = true →
    (∀ k ∈ ks, ∃ v, i ≤ v ∧ t.get k = some v) ∧ ks.Nodup := by
  intro ks
  induction ks with
  | nil => intro i _; simp
  | cons a as ih =>
    intro i h
    simp only [idxOk, Bool.and_eq_true] at h
    obtain ⟨h1, h2⟩ := ih (i + 1) h.2
    have ha := isIdx_iff.mp h.1
    refine ⟨?_, ?_⟩
    · intro k hk
      simp only [List.mem_cons] at hk
      rcases hk with rfl | hk
      · exact ⟨i, Nat.le_refl _, ha⟩
      · obtain ⟨v, hv, hg⟩ := h1 k hk
        exact ⟨v, by omega, hg⟩
    · rw [List.nodup_cons]
      refine ⟨?_, h2⟩
      intro hm
      obtain ⟨v, hv, hg⟩ := h1 a hm
      rw [ha] at hg
      injection hg with hg
      omega

/-- A line with no blanks at its ends is left alone by `trim`. -/
def tidy (l : Str) : Bool := trim wsCut l == l && l != [] && !(l.contains 10) && decide (l.length < 65536)

/-- One table line is fine: tidy and parses. -/
def lineOk (l : Str) : Bool := tidy l && (parsePattern nd0 l).isSome

/-- The keys of a list of lines. -/
def keysOf (ls : List Str) : List Nat := ls.map (fun l => ((parsePattern nd0 l).map (fun p => keyOf p.letters)).getD 0)

theorem tidy_iff {l : Str} : tidy l = true ↔ trim wsCut l = l ∧ l ≠ [] ∧ (10 : UInt8) ∉ l ∧ l.length < 65536 := by
  simp [tidy, and_assoc]

/-- Fast evaluation of the key of a line: `wd` as in `parsePattern`. -/
def scanKey (k : Nat) : Bool → Nat → Nat → List Nat → Bool
  | _, acc, _, [] => Nat.beq acc k
  | wd, acc, m, r :: rs =>
    bif wd && (Nat.ble 48 r && Nat.ble r 57) then scanKey k false acc m rs else scanKey k true (acc + r * m) (m / 512) rs

/-- Fast check of one line against its key. -/
def goodLine (l : Str) (k : Nat) : Bool :=
  l.all (fun c => Nat.blt 32 c.toNat) && (!l.isEmpty && (Nat.blt l.length 65536 && scanKey k true 0 (512 ^ 15) (decodeRunes l)))

/-- Fast check of a chunk of lines against its keys. -/
def goodChunk : List Str → List Nat → Bool
  | [], [] => true
  | l :: ls, k :: ks => goodLine l k && goodChunk ls ks
  | _, _ => false

theorem isDigit_nd0 (r : Nat) : isDigit nd0 r = (Nat.ble 48 r && Nat.ble r 57) := by
  unfold isDigit nd0
  rw [Bool.eq_iff_iff]
  split
  · simp
  · simp; omega

theorem scanKey_eq (k : Nat) (rs : List Nat) : ∀ acc m, scanKey k true acc m rs = true →
    ∃ x, parseT nd0 rs = some x ∧ keyFrom acc m x.1 = k := by
  have hd : ∀ r, isDigit nd0 r = true → 48 ≤ r ∧ r ≤ 57 := by
    intro r h; rw [isDigit_nd0] at h; simpa using h
  fun_induction parseT nd0 rs with
  | case1 => intro acc m h; exact ⟨_, rfl, by simpa [scanKey, keyFrom] using h⟩
  | case2 r h1 h2 =>
    intro acc m h
    rw [isDigit_nd0] at h1
    exact ⟨_, rfl, by simpa [scanKey, h1, keyFrom] using h⟩
  | case3 r h1 h2 => exact absurd (hd r h1) h2
  | case4 r h1 =>
    intro acc m h
    rw [isDigit_nd0] at h1
    exact ⟨_, rfl, by simpa [scanKey, h1, keyFrom] using h⟩
  | case5 r l rs h1 h2 ih =>
    intro acc m h
    rw [isDigit_nd0] at h1
    simp only [scanKey, h1, Bool.and_self, cond_true, Bool.false_and, cond_false] at h
    obtain ⟨x, hx, he⟩ := ih _ _ h
    exact ⟨_, by rw [hx]; rfl, by simpa [keyFrom] using he⟩
  | case6 r l rs h1 h2 => exact absurd (hd r h1) h2
  | case7 r l rs h1 ih =>
    intro acc m h
    rw [isDigit_nd0, Bool.not_eq_true] at h1
    rw [scanKey] at h
    simp only [h1, Bool.and_false, cond_false] at h
    obtain ⟨x, hx, he⟩ := ih _ _ h
    exact ⟨_, by rw [hx]; rfl, by simpa [keyFrom] using he⟩

theorem trim_id {cut : UInt8 → Bool} {l : Str} (h : ∀ c ∈ l, cut c = false) : trim cut l = l := by
  have h1 : l.dropWhile cut = l := by
    cases l with
    | nil => rfl
    | cons c cs => rw [List.dropWhile_cons, h c (by simp)]; simp
  unfold trim trimLeft
  rw [h1]
  have := trimRight_append_of_not_cut cut
  clear h1
  induction l with
  | nil => rfl
  | cons c cs ih =>
    have := this [] cs c (h c (by simp))
    simp only [List.nil_append] at this
    rw [this, ih (fun x hx => h x (by simp [hx]))]

theorem goodLine_ok {l : Str} {k : Nat} (h : goodLine l k = true) :
    lineOk l = true ∧ ((parsePattern nd0 l).map (fun p => keyOf p.letters)).getD 0 = k := by
  simp only [goodLine, Bool.and_eq_true, List.all_eq_true, Bool.not_eq_true', List.isEmpty_eq_false_iff] at h
  obtain ⟨h1, h2, h3, h4⟩ := h
  obtain ⟨x, hx, he⟩ := scanKey_eq k _ 0 _ h4
  have hp : parsePattern nd0 l = some ⟨x.1, x.2⟩ := by rw [parsePattern_eq, hx]; rfl
  have hb : ∀ c ∈ l, 32 < c.toNat := fun c hc => by simpa [Nat.blt_eq] using h1 c hc
  refine ⟨?_, ?_⟩
  · simp only [lineOk, Bool.and_eq_true]
    refine ⟨tidy_iff.mpr ⟨trim_id ?_, h2, ?_, by simpa [Nat.blt_eq] using h3⟩, by simp [hp]⟩
    · intro c hc
      have := hb c hc
      have hne : ∀ d : UInt8, d.toNat ≤ 32 → c ≠ d := by rintro d hd rfl; omega
      have e1 := hne 32 (by decide)
      have e2 := hne 10 (by decide)
      have e3 := hne 13 (by decide)
      have e4 := hne 9 (by decide)
      simp [wsCut, e1, e2, e3, e4]
    · intro hc
      have := hb 10 hc
      have e : (10 : UInt8).toNat = 10 := rfl
      omega
  · simp [hp, keyOf, he]

theorem goodChunk_ok : ∀ (ls : List Str) (ks : List Nat), goodChunk ls ks = true →
    (∀ l ∈ ls, lineOk l = true) ∧ keysOf ls = ks := by
  intro ls
  induction ls with
  | nil => intro ks h; cases ks with
    | nil => simp [keysOf]
    | cons => simp [goodChunk] at h
  | cons l ls ih =>
    intro ks h
    cases ks with
    | nil => simp [goodChunk] at h
    | cons k ks =>
      simp only [goodChunk, Bool.and_eq_true] at h
      obtain ⟨a, b⟩ := goodLine_ok h.1
      obtain ⟨c, d⟩ := ih ks h.2
      refine ⟨?_, ?_⟩
      · intro m hm
        simp only [List.mem_cons] at hm
        rcases hm with rfl | hm
        · exact a
        · exact c m hm
      · simp only [keysOf, List.map_cons] at d ⊢
        rw [b, d]

theorem text_split (ls : List Str) (h : ∀ l ∈ ls, (10 : UInt8) ∉ l) : split 10 (10 :: ls.flatMap (· ++ [10])) = [] :: (ls ++ [[]]) := by
  have : ∀ ls : List Str, (∀ l ∈ ls, (10 : UInt8) ∉ l) → split 10 (ls.flatMap (· ++ [10])) = ls ++ [[]] := by
    intro ls
    induction ls with
    | nil => intro _; rfl
    | cons l ls ih =>
      intro h
      have h1 : (l :: ls).flatMap (· ++ [10]) = l ++ 10 :: ls.flatMap (· ++ [10]) := by simp
      rw [h1, split_append_sep _ _ (h l (by simp)), ih (fun x hx => h x (by simp [hx]))]
      rfl
  rw [split]
  simp [this ls h]

theorem cleanLines_tidy (ls : List Str) (h : ∀ l ∈ ls, tidy l = true) : cleanLines ls = ls := by
  induction ls with
  | nil => rfl
  | cons l ls ih =>
    have h1 := tidy_iff.mp (h l (by simp))
    have h2 := ih (fun x hx => h x (by simp [hx]))
    simp only [cleanLines] at h2 ⊢
    rw [List.map_cons, List.filter_cons, h2]
    simp [h1.1, h1.2.1]

theorem table_load {nd : Nat → Bool} (ls : List Str) (htidy : ∀ l ∈ ls, lineOk l = true)
    (hnd : ∀ l ∈ ls, ∀ r ∈ decodeRunes l, 0xFF < r → nd r = nd0 r) :
    parsePatterns nd (10 :: ls.flatMap (· ++ [10]))
      = some ((ls.filterMap (parsePattern nd0)).map (fun p => (encodeRunes p.letters, p))).reverse ∧
    (∀ l ∈ ls, parsePattern nd l = parsePattern nd0 l) := by
  have ht : ∀ l ∈ ls, tidy l = true := fun l hl => by
    have := htidy l hl; simp only [lineOk, Bool.and_eq_true] at this; exact this.1
  have hp : ∀ l ∈ ls, (parsePattern nd0 l).isSome = true := fun l hl => by
    have := htidy l hl; simp only [lineOk, Bool.and_eq_true] at this; exact this.2
  have hc : ∀ l ∈ ls, parsePattern nd l = parsePattern nd0 l := fun l hl => parsePattern_congr (hnd l hl)
  refine ⟨?_, hc⟩
  have h10 : ∀ l ∈ ls, (10 : UInt8) ∉ l := fun l hl => (tidy_iff.mp (ht l hl)).2.2.1
  unfold parsePatterns scanLines
  rw [text_split ls h10, parseLines_eq, cleanLines_scanPieces]
  · have hcl : cleanLines ([] :: (ls ++ [[]])) = ls := by
      have := cleanLines_tidy ls ht
      simp only [cleanLines] at this ⊢
      have he : trim wsCut [] = [] := rfl
      simp only [List.map_cons, List.map_append, List.map_nil, he, List.filter_cons, List.filter_append, this]
      simp
    rw [hcl]
    have hs : (readAll nd ls).isSome = true := readAll_isSome nd ls (fun l hl => by rw [hc l hl]; exact hp l hl)
    cases hr : readAll nd ls with
    | none => rw [hr] at hs; simp at hs
    | some ps =>
      have h1 := (readAll_filterMap nd ls ps hr).1
      have h2 : ls.filterMap (parsePattern nd) = ls.filterMap (parsePattern nd0) := by
        clear htidy hnd ht hp h10 hcl hs hr h1
        induction ls with
        | nil => rfl
        | cons l ls ih =>
          simp only [List.filterMap_cons, hc l (by simp), ih (fun x hx => hc x (by simp [hx]))]
      rw [h2] at h1
      simp [h1]
  · intro l hl
    simp only [List.mem_cons, List.mem_append, List.not_mem_nil, or_false] at hl
    rcases hl with rfl | hl | rfl
    · simp
    · exact (tidy_iff.mp (ht l hl)).2.2.2
    · simp

/-- With distinct letters, every line is found. -/
theorem table_find (ls : List Str) (hok : ∀ l ∈ ls, lineOk l = true) (hk : (keysOf ls).Nodup) :
    ∀ l ∈ ls, ∀ p, parsePattern nd0 l = some p →
      find ((ls.filterMap (parsePattern nd0)).map (fun p => (encodeRunes p.letters, p))).reverse (encodeRunes p.letters) = some p := by
  have hpar : ((ls.filterMap (parsePattern nd0)).map (fun p => keyOf p.letters)).Nodup := by
    have : (ls.filterMap (parsePattern nd0)).map (fun p => keyOf p.letters) = keysOf ls := by
      clear hk
      induction ls with
      | nil => rfl
      | cons l ls ih =>
        have h1 := hok l (by simp)
        simp only [lineOk, Bool.and_eq_true] at h1
        cases hp : parsePattern nd0 l with
        | none => rw [hp] at h1; simp at h1
        | some p =>
          have := ih (fun x hx => hok x (by simp [hx]))
          simp only [keysOf] at this ⊢
          simp [hp, this]
    rw [this]; exact hk
  intro l hl p hp
  have hmem : p ∈ ls.filterMap (parsePattern nd0) := List.mem_filterMap.mpr ⟨l, hl, hp⟩
  have hv : ∀ q ∈ ls.filterMap (parsePattern nd0), ∀ r ∈ q.letters, validRune r = true := by
    intro q hq
    obtain ⟨m, _, hm⟩ := List.mem_filterMap.mp hq
    exact (parsePattern_valid hm).2.2
  unfold find
  rw [← List.map_reverse, lookup_map_find]
  have hnd := hpar
  rw [← List.nodup_reverse, ← List.map_reverse] at hnd
  have hmem' := List.mem_reverse.mpr hmem
  have hv' : ∀ q ∈ (ls.filterMap (parsePattern nd0)).reverse, ∀ r ∈ q.letters, validRune r = true :=
    fun q hq => hv q (List.mem_reverse.mp hq)
  generalize (ls.filterMap (parsePattern nd0)).reverse = qs at *
  have hvp := hv' p hmem'
  clear hmem hv hpar
  induction qs with
  | nil => simp at hmem'
  | cons q qs ih =>
    rw [List.find?_cons]
    by_cases hq : encodeRunes q.letters = encodeRunes p.letters
    · have hl := encodeRunes_injective (hv' q (by simp)) hvp hq
      simp only [List.mem_cons] at hmem'
      rcases hmem' with rfl | hmem'
      · simp
      · exfalso
        rw [List.map_cons, List.nodup_cons] at hnd
        exact hnd.1 (List.mem_map.mpr ⟨p, hmem', by rw [hl]⟩)
    · have hb : (encodeRunes q.letters == encodeRunes p.letters) = false := by simpa using hq
      rw [hb]
      simp only
      apply ih
      · rw [List.map_cons, List.nodup_cons] at hnd; exact hnd.2
      · simp only [List.mem_cons] at hmem'
        rcases hmem' with rfl | hmem'
        · exact absurd rfl hq
        · exact hmem'
      · exact fun x hx => hv' x (by simp [hx])

/-- The map built from a list of lines. -/
def tableLookup (ls : List Str) : Lookup :=
  ((ls.filterMap (parsePattern nd0)).map (fun p => (encodeRunes p.letters, p))).reverse

theorem tableLookup_ok (ls : List Str) : LookupOk (tableLookup ls) := by
  intro e he
  simp only [tableLookup, List.mem_reverse, List.mem_map] at he
  obtain ⟨p, hp, rfl⟩ := he
  obtain ⟨l, _, hl⟩ := List.mem_filterMap.mp hp
  obtain ⟨a, b, c⟩ := parsePattern_valid hl
  exact ⟨rfl, a, b, c⟩

theorem find_table_mem {ls : List Str} {sub : List Nat} (hs : ∀ r ∈ sub, validRune r = true) {p : Pattern}
    (h : find (tableLookup ls) (encodeRunes sub) = some p) :
    p.letters = sub ∧ ∃ l ∈ ls, parsePattern nd0 l = some p := by
  refine ⟨(find_weights_length (tableLookup_ok ls) hs h).1, ?_⟩
  have hm := lookup_mem h
  simp only [tableLookup, List.mem_reverse, List.mem_map, Prod.mk.injEq] at hm
  obtain ⟨q, hq, _, rfl⟩ := hm
  obtain ⟨l, hl, hp⟩ := List.mem_filterMap.mp hq
  exact ⟨l, hl, hp⟩

/-- Looking up in a big table is looking up in the few lines that matter. -/
theorem find_restrict {ls small : List Str} (hok : ∀ l ∈ ls, lineOk l = true) (hk : (keysOf ls).Nodup)
    (hsub : ∀ l ∈ small, l ∈ ls) (hks : (keysOf small).Nodup) {sub : List Nat} (hv : ∀ r ∈ sub, validRune r = true)
    (h : keyOf sub ∉ keysOf ls ∨ sub ∈ (small.filterMap (parsePattern nd0)).map (·.letters)) :
    find (tableLookup ls) (encodeRunes sub) = find (tableLookup small) (encodeRunes sub) := by
  have hoks : ∀ l ∈ small, lineOk l = true := fun l hl => hok l (hsub l hl)
  rcases h with h | h
  · have key : ∀ l ∈ ls, ∀ p, parsePattern nd0 l = some p → p.letters ≠ sub := by
      intro l hl p hp he
      apply h
      simp only [keysOf, List.mem_map]
      exact ⟨l, hl, by simp [hp, he]⟩
    have h1 : find (tableLookup ls) (encodeRunes sub) = none := by
      cases hf : find (tableLookup ls) (encodeRunes sub) with
      | none => rfl
      | some p =>
        obtain ⟨he, l, hl, hp⟩ := find_table_mem hv hf
        exact absurd he (key l hl p hp)
    have h2 : find (tableLookup small) (encodeRunes sub) = none := by
      cases hf : find (tableLookup small) (encodeRunes sub) with
      | none => rfl
      | some p =>
        obtain ⟨he, l, hl, hp⟩ := find_table_mem hv hf
        exact absurd he (key l (hsub l hl) p hp)
    rw [h1, h2]
  · simp only [List.mem_map] at h
    obtain ⟨p, hp, rfl⟩ := h
    obtain ⟨l, hl, hpl⟩ := List.mem_filterMap.mp hp
    have h1 := table_find ls hok hk l (hsub l hl) p hpl
    have h2 := table_find small hoks hks l hl p hpl
    unfold tableLookup
    rw [h1, h2]

theorem foldlM_congr {α β : Type} (l : List α) (f g : β → α → Option β) (h : ∀ x ∈ l, ∀ b, f b x = g b x) :
    ∀ b, l.foldlM f b = l.foldlM g b := by
  induction l with
  | nil => intro b; rfl
  | cons x l ih =>
    intro b
    simp only [List.foldlM_cons, h x (by simp)]
    congr 1
    funext b
    exact ih (fun y hy => h y (by simp [hy])) b

theorem hyphWeights_congr {pl pl' : Lookup} {rs : List Nat}
    (h : ∀ i n, i + n ≤ rs.length → find pl (encodeRunes ((rs.drop i).take n)) = find pl' (encodeRunes ((rs.drop i).take n))) :
    hyphWeights pl rs = hyphWeights pl' rs := by
  have hstep : ∀ n i ws, hyphStep pl rs n i ws = hyphStep pl' rs n i ws := by
    intro n i ws
    unfold hyphStep
    by_cases hin : i + n ≤ rs.length
    · have hsl : slice? rs i (i + n) = some ((rs.drop i).take n) := by simp [slice?, hin]
      simp only [hsl, h i n hin]
    · have hsl : slice? rs i (i + n) = none := by simp only [slice?]; rw [if_neg]; omega
      simp only [hsl]
  unfold hyphWeights
  apply foldlM_congr
  intro k _ ws
  apply foldlM_congr
  intro i _ ws
  exact hstep _ _ _

theorem hyphenate_congr {lower : Nat → Nat} {pl pl' : Lookup} {s : Str}
    (h : ∀ i n, i + n ≤ (decodeRunes ([46] ++ toLower lower s ++ [46])).length →
      find pl (encodeRunes (((decodeRunes ([46] ++ toLower lower s ++ [46])).drop i).take n))
        = find pl' (encodeRunes (((decodeRunes ([46] ++ toLower lower s ++ [46])).drop i).take n))) :
    hyphenate lower pl s = hyphenate lower pl' s := by
  unfold hyphenate
  simp only [hyphWeights_congr h]

/-- Every stretch of the dotted word is either no key of the table or among the few lines. -/
def restrictOk (t : KT) (small : List Str) (rs : List Nat) : Bool :=
  (List.range (rs.length + 1)).all fun i => (List.range (rs.length + 1)).all fun n =>
    ((small.filterMap (parsePattern nd0)).map (·.letters)).contains ((rs.drop i).take n) ||
      (t.get (keyOf ((rs.drop i).take n))).isNone

theorem hyphenate_restrict {lower : Nat → Nat} {ls small : List Str} (hok : ∀ l ∈ ls, lineOk l = true)
    {t : KT} (hk : idxOk t 0 (keysOf ls) = true) (hsub : ∀ l ∈ small, l ∈ ls) (hks : (keysOf small).Nodup) {s : Str} {D : List Nat}
    (hD : decodeRunes ([46] ++ toLower lower s ++ [46]) = D) (h : restrictOk t small D = true) :
    hyphenate lower (tableLookup ls) s = hyphenate lower (tableLookup small) s := by
  apply hyphenate_congr
  intro i n hin
  rw [hD] at hin ⊢
  apply find_restrict hok (idxOk_spec t _ 0 hk).2 hsub hks
  · intro r hr
    rw [← hD] at hr
    exact decodeRunes_valid _ r (List.mem_of_mem_drop (List.mem_of_mem_take hr))
  · simp only [restrictOk, List.all_eq_true, List.mem_range] at h
    have := h i (by omega) n (by omega)
    simp only [Bool.or_eq_true, List.contains_eq_mem, decide_eq_true_eq, Option.isNone_iff_eq_none] at this
    rcases this with h1 | h1
    · right; exact h1
    · left
      intro hm
      obtain ⟨v, _, hv⟩ := (idxOk_spec t _ 0 hk).1 _ hm
      rw [h1] at hv; cases hv

end Verif.Proofs
