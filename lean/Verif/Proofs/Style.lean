import Verif.Proofs.StyleText
/- Lemmas about decoding and applying style declarations. -/
namespace Verif.Proofs
open Verif.Go Verif.Model Verif.Spec

/-- The place of a property in `Styles`. -/
def path : Prp → List Nat
  | .fontFamily => [0, 0] | .fontPointSize => [0, 1] | .fontStyle => [0, 2] | .fontWeight => [0, 3] | .fontDecoration => [0, 4]
  | .border => [1, 0] | .padding => [1, 1] | .margin => [1, 2]
  | .width => [2, 0] | .height => [2, 1] | .lineSpacing => [2, 2] | .offsetX => [2, 3] | .offsetY => [2, 4]
  | .columnWidth => [3, 0] | .hAlign => [4, 0] | .vAlign => [4, 1]
  | .color => [5, 0] | .textColor => [5, 1] | .backgroundColor => [5, 2] | .lineWidth => [6, 0]

def toFnc (fl : Floats) (k v : Str) : Found := makeMutateFnc fl stylesFields 0 k v []

/-- All properties. -/
def allPrp : List Prp :=
  [.fontFamily, .fontPointSize, .fontStyle, .fontWeight, .fontDecoration, .border, .padding, .margin, .width, .height,
   .lineSpacing, .offsetX, .offsetY, .columnWidth, .hAlign, .vAlign, .color, .textColor, .backgroundColor, .lineWidth]

theorem mem_allPrp (p : Prp) : p ∈ allPrp := by cases p <;> decide

theorem toFnc_empty (fl : Floats) (v : Str) : toFnc fl [] v = .err := rfl

theorem toFnc_known (fl : Floats) (p : Prp) (v : Str) :
    toFnc fl p.name v = match p.read fl v with | none => .err | some l => .yes (path p, l) := by
  cases p <;>
  simp [toFnc, makeMutateFnc, stylesFields, fontFields, boxFields, dimFields, tableFields, alignFields, colorFields,
    drawFields, leafField, quadFields, rgbFields, Prp.name, Prp.read, path, makeSetValue, unmarshal] <;>
  (try cases fl.parseFloat v <;> simp) <;> (try cases unmarshalBorder v <;> simp) <;>
  (try cases unmarshalQuad fl v <;> simp) <;> (try cases unmarshalRGB v <;> simp)

theorem toFnc_unknown (fl : Floats) (k v : Str) (h0 : k ≠ []) (h : ∀ p : Prp, k ≠ p.name) : toFnc fl k v = .no := by
  have hn := fun p => Ne.symm (h p)
  have h0 := Ne.symm h0
  have a1 := hn .fontFamily; have a2 := hn .fontPointSize; have a3 := hn .fontStyle; have a4 := hn .fontWeight
  have a5 := hn .fontDecoration; have a6 := hn .border; have a7 := hn .padding; have a8 := hn .margin
  have a9 := hn .width; have a10 := hn .height; have a11 := hn .lineSpacing; have a12 := hn .offsetX
  have a13 := hn .offsetY; have a14 := hn .columnWidth; have a15 := hn .hAlign; have a16 := hn .vAlign
  have a17 := hn .color; have a18 := hn .textColor; have a19 := hn .backgroundColor; have a20 := hn .lineWidth
  simp only [Prp.name, ne_eq] at a1 a2 a3 a4 a5 a6 a7 a8 a9 a10 a11 a12 a13 a14 a15 a16 a17 a18 a19 a20
  simp [toFnc, makeMutateFnc, stylesFields, fontFields, boxFields, dimFields, tableFields, alignFields, colorFields,
    drawFields, leafField, quadFields, rgbFields, h0, a1, a2, a3, a4, a5, a6, a7, a8, a9, a10, a11, a12, a13, a14, a15,
    a16, a17, a18, a19, a20]

theorem name_injective : ∀ {p q : Prp}, p.name = q.name → p = q := by
  have : ∀ p ∈ allPrp, ∀ q ∈ allPrp, p.name = q.name → p = q := by decide
  intro p q
  exact this p (mem_allPrp p) q (mem_allPrp q)

theorem name_ne_nil (p : Prp) : p.name ≠ [] := by cases p <;> simp [Prp.name]

theorem known_or (k : Str) : k = [] ∨ (∃ p : Prp, k = p.name) ∨ (k ≠ [] ∧ ∀ p : Prp, k ≠ p.name) := by
  by_cases h0 : k = []
  · exact .inl h0
  · by_cases h : ∃ p : Prp, k = p.name
    · exact .inr (.inl h)
    · exact .inr (.inr ⟨h0, fun p hp => h ⟨p, hp⟩⟩)

theorem setAt_path {fl : Floats} {p : Prp} {v : Str} {l : Leaf} (h : p.read fl v = some l) (s : Styles) :
    ∃ s', setAt (path p) l s = some s' ∧ ∀ q : Prp, q.get s' = if q = p then l else q.get s := by
  cases p <;> simp only [Prp.read, Option.map_eq_some_iff, Option.some.injEq] at h <;>
  first
  | (obtain ⟨x, -, rfl⟩ := h
     refine ⟨_, rfl, ?_⟩
     intro q; cases q <;> simp [Prp.get])
  | (subst h
     refine ⟨_, rfl, ?_⟩
     intro q; cases q <;> simp [Prp.get])

theorem styles_ext {s t : Styles} (h : ∀ p : Prp, p.get s = p.get t) : s = t := by
  have a1 := h .fontFamily; have a2 := h .fontPointSize; have a3 := h .fontStyle; have a4 := h .fontWeight
  have a5 := h .fontDecoration; have a6 := h .border; have a7 := h .padding; have a8 := h .margin
  have a9 := h .width; have a10 := h .height; have a11 := h .lineSpacing; have a12 := h .offsetX
  have a13 := h .offsetY; have a14 := h .columnWidth; have a15 := h .hAlign; have a16 := h .vAlign
  have a17 := h .color; have a18 := h .textColor; have a19 := h .backgroundColor; have a20 := h .lineWidth
  obtain ⟨⟨_, _, _, _, _⟩, ⟨_, _, _⟩, ⟨_, _, _, _, _⟩, _, ⟨_, _⟩, ⟨_, _, _⟩, _⟩ := s
  obtain ⟨⟨_, _, _, _, _⟩, ⟨_, _, _⟩, ⟨_, _, _, _, _⟩, _, ⟨_, _⟩, ⟨_, _, _⟩, _⟩ := t
  simp only [Prp.get, Leaf.str.injEq, Leaf.flt.injEq, Leaf.border.injEq, Leaf.quad.injEq, Leaf.rgb.injEq] at *
  subst_vars
  rfl

/-- An entry of the raw map is an error. -/
def badEntry (fl : Floats) (e : Str × Str) : Prop := toFnc fl e.1 e.2 = .err

theorem badEntry_iff {fl : Floats} {k v : Str} :
    badEntry fl (k, v) ↔ k = [] ∨ ∃ p : Prp, k = p.name ∧ p.read fl v = none := by
  unfold badEntry
  rcases known_or k with rfl | ⟨p, rfl⟩ | ⟨h0, h⟩
  · simp [toFnc_empty]
  · simp only [toFnc_known]
    constructor
    · intro h
      right
      refine ⟨p, rfl, ?_⟩
      cases hr : p.read fl v with
      | none => rfl
      | some l => simp [hr] at h
    · rintro (h | ⟨q, hq, hr⟩)
      · exact absurd h (name_ne_nil p)
      · rw [name_injective hq, hr]
  · simp only [toFnc_unknown fl k v h0 h]
    constructor
    · intro h; simp at h
    · rintro (h1 | ⟨q, hq, _⟩)
      · exact absurd h1 h0
      · exact absurd hq (h q)

theorem decodeLoop_none {fl : Floats} : ∀ (l : List (Str × Str)) (m : Mutator),
    decodeLoop fl l m = none ↔ ∃ e ∈ l, badEntry fl e := by
  intro l
  induction l with
  | nil => intro m; simp [decodeLoop]
  | cons e l ih =>
    intro m
    obtain ⟨k, v⟩ := e
    simp only [decodeLoop, List.mem_cons, exists_eq_or_imp, badEntry, toFnc]
    split
    · rename_i h; simp [h]
    · rename_i h; simp [h, ih, badEntry, toFnc]
    · rename_i h; simp [h, ih, badEntry, toFnc]

/-- The functions of the entries. -/
def fncs (fl : Floats) (l : List (Str × Str)) : Mutator :=
  l.filterMap (fun e => match toFnc fl e.1 e.2 with | .yes f => some f | _ => none)

theorem decodeLoop_some {fl : Floats} : ∀ (l : List (Str × Str)) (m r : Mutator),
    decodeLoop fl l m = some r → r = m ++ fncs fl l := by
  intro l
  induction l with
  | nil => intro m r h; simp [decodeLoop] at h; simp [fncs, h]
  | cons e l ih =>
    intro m r h
    obtain ⟨k, v⟩ := e
    simp only [decodeLoop] at h
    split at h
    · simp at h
    · rename_i hx; rw [ih _ _ h]; simp [fncs, toFnc, hx]
    · rename_i f hx; rw [ih _ _ h]; simp [fncs, toFnc, hx]

/-- What the entries of a map set. -/
def mapSets (fl : Floats) (l : List (Str × Str)) (p : Prp) : Option Leaf :=
  match mapGet p.name l with
  | some v => p.read fl v
  | none => none

theorem fncs_behaves {fl : Floats} : ∀ (l : List (Str × Str)), (l.map Prod.fst).Nodup → (∀ e ∈ l, ¬ badEntry fl e) →
    Behaves (fncs fl l) (mapSets fl l) := by
  intro l
  induction l with
  | nil => intro _ _ s; exact ⟨rfl, fun p => rfl⟩
  | cons e l ih =>
    intro hn hb s
    obtain ⟨k, v⟩ := e
    simp only [List.map_cons, List.nodup_cons] at hn
    have ih := ih hn.2 (fun e he => hb e (by simp [he]))
    have hbk := hb (k, v) (by simp)
    rcases known_or k with rfl | ⟨p, rfl⟩ | ⟨h0, h⟩
    · exact absurd (badEntry_iff.mpr (Or.inl rfl)) hbk
    · cases hr : p.read fl v with
      | none => exact absurd (badEntry_iff.mpr (Or.inr ⟨p, rfl, hr⟩)) hbk
      | some x =>
        have hf : fncs fl ((p.name, v) :: l) = (path p, x) :: fncs fl l := by
          simp [fncs, toFnc_known, hr]
        obtain ⟨s', h1, h2⟩ := setAt_path hr s
        have hm : mutate (fncs fl ((p.name, v) :: l)) s = mutate (fncs fl l) s' := by
          rw [hf]; simp [mutate, h1]
        refine ⟨?_, ?_⟩
        · rw [hm, hf]; simp only [mutate?, h1]; exact (ih s').1
        · intro q
          rw [hm, (ih s').2 q, h2 q]
          by_cases hq : q = p
          · subst hq
            have hnone : mapGet q.name l = none := by
              cases hg : mapGet q.name l with
              | none => rfl
              | some w => exact absurd (List.mem_map.mpr ⟨_, mem_of_mapGet hg, rfl⟩) hn.1
            simp [mapSets, mapGet, hnone, hr]
          · have : ¬ p.name = q.name := fun h => hq (name_injective h).symm
            simp [mapSets, mapGet, this, hq]
    · have hf : fncs fl ((k, v) :: l) = fncs fl l := by
        simp [fncs, toFnc_unknown fl k v h0 h]
      rw [hf]
      refine ⟨(ih s).1, ?_⟩
      intro q
      rw [(ih s).2 q]
      simp [mapSets, mapGet, h q]

theorem mapGet_perm {l l' : List (Str × Str)} (hp : l'.Perm l) (hn : (l.map Prod.fst).Nodup) (k : Str) :
    mapGet k l' = mapGet k l := by
  have hn' : (l'.map Prod.fst).Nodup := (hp.map Prod.fst).nodup_iff.mpr hn
  cases h : mapGet k l with
  | some v => exact mapGet_of_mem hn' (hp.mem_iff.mpr (mem_of_mapGet h))
  | none =>
    cases h' : mapGet k l' with
    | none => rfl
    | some v =>
      have := mapGet_of_mem hn (hp.mem_iff.mp (mem_of_mapGet h'))
      rw [h] at this; simp at this

theorem Behaves_unique_effect {m m' : Mutator} {σ : Prp → Option Leaf} (h : Behaves m σ) (h' : Behaves m' σ) (s : Styles) :
    mutate m s = mutate m' s :=
  styles_ext (fun p => by rw [(h s).2, (h' s).2])

/-- Errors of decodeMutator, in terms of the declarations. -/
theorem decodeMutator_none_of_decls {fl : Floats} {ord : MapOrder} {s : Str} {ds : List (Str × Str)} (h : Decls s ds) :
    decodeMutator fl ord s = none ↔
      (∃ v, lastValue [] ds = some v) ∨ ∃ (p : Prp) (v : Str), lastValue p.name ds = some v ∧ p.read fl v = none := by
  have hraw : parseRaw s = some (enterAll ds []) := parseRaw_some_iff.mpr ⟨ds, h, rfl⟩
  have hn : ((enterAll ds []).map Prod.fst).Nodup := enterAll_nodup ds [] (by simp)
  have hget : ∀ k v, (k, v) ∈ ord.order (enterAll ds []) ↔ lastValue k ds = some v := by
    intro k v
    rw [(ord.perm _).mem_iff]
    have := mapGet_enterAll k ds []
    constructor
    · intro hm
      rw [mapGet_of_mem hn hm] at this
      cases hl : lastValue k ds with
      | none => rw [hl] at this; simp [mapGet] at this
      | some w => rw [hl] at this; simpa using this.symm
    · intro hl
      rw [hl] at this
      exact mem_of_mapGet this
  simp only [decodeMutator, hraw, decodeLoop_none]
  constructor
  · rintro ⟨⟨k, v⟩, hm, hb⟩
    rw [hget] at hm
    rcases badEntry_iff.mp hb with rfl | ⟨p, rfl, hr⟩
    · exact .inl ⟨v, hm⟩
    · exact .inr ⟨p, v, hm, hr⟩
  · rintro (⟨v, hv⟩ | ⟨p, v, hv, hr⟩)
    · exact ⟨([], v), (hget _ _).mpr hv, badEntry_iff.mpr (.inl rfl)⟩
    · exact ⟨(p.name, v), (hget _ _).mpr hv, badEntry_iff.mpr (.inr ⟨p, rfl, hr⟩)⟩

theorem decodeMutator_behaves {fl : Floats} {ord : MapOrder} {s : Str} {ds : List (Str × Str)} {m : Mutator} (h : Decls s ds)
    (hm : decodeMutator fl ord s = some m) : Behaves m (sets fl ds) := by
  have hraw : parseRaw s = some (enterAll ds []) := parseRaw_some_iff.mpr ⟨ds, h, rfl⟩
  have hn : ((enterAll ds []).map Prod.fst).Nodup := enterAll_nodup ds [] (by simp)
  have hp := ord.perm (enterAll ds [])
  simp only [decodeMutator, hraw] at hm
  have hm' := decodeLoop_some _ _ _ hm
  rw [List.nil_append] at hm'
  subst hm'
  have hok : ∀ e ∈ ord.order (enterAll ds []), ¬ badEntry fl e := by
    intro e he hb
    have := (decodeLoop_none (fl := fl) (ord.order (enterAll ds [])) []).mpr ⟨e, he, hb⟩
    rw [hm] at this; simp at this
  have := fncs_behaves _ ((hp.map Prod.fst).nodup_iff.mpr hn) hok
  have he : mapSets fl (ord.order (enterAll ds [])) = sets fl ds := by
    funext p
    unfold mapSets sets
    rw [mapGet_perm hp hn, mapGet_enterAll]
    cases lastValue p.name ds <;> rfl
  rwa [he] at this

theorem decls_of_some {fl : Floats} {ord : MapOrder} {s : Str} {m : Mutator} (h : decodeMutator fl ord s = some m) :
    ∃ ds, Decls s ds := by
  unfold decodeMutator at h
  split at h
  · simp at h
  · rename_i raw hr
    obtain ⟨ds, hd, _⟩ := parseRaw_some_iff.mp hr
    exact ⟨ds, hd⟩

end Verif.Proofs
