import Verif.Proofs.AlikeTable
import Verif.Model.Load
import Verif.Proofs.LoadMono
import Verif.Props.Style
/-
Loading a document with two map orders gives two documents that look the same, or fails with both.
-/
namespace Verif.Proofs
open Verif.Go Verif.Model Verif.Spec Verif.Props

/-- Two mutators with the same effect. -/
def MutLike (m m' : Mutator) : Prop := ∀ s, mutate m s = mutate m' s

/-- The same classes, and mutators with the same effects. -/
structure StyledLike (st st' : Styled) : Prop where
  classes : st.classes = st'.classes
  mutators : List.Forall₂ MutLike st.mutators st'.mutators

structure ClassLike (c c' : Class) : Prop where
  mutator : MutLike c.mutator c'.mutator
  selectors : ∀ sel, OptLike MutLike (mapGet sel c.selectors) (mapGet sel c'.selectors)

/-- Style sheets with the same effects. -/
def SheetLike (cs cs' : Classes) : Prop := ∀ name, OptLike ClassLike (mapGet name cs) (mapGet name cs')

variable {fl : Floats}

theorem decodeMutator_like (o o' : MapOrder) (s : Str) : OptLike MutLike (decodeMutator fl o s) (decodeMutator fl o' s) := by
  rcases C13_order_irrelevant fl o o' s with ⟨h, h'⟩ | ⟨m, m', h, h', hm⟩
  · rw [h, h']; trivial
  · rw [h, h']; exact hm

theorem decodeAttrs_like (o o' : Nat → MapOrder) : ∀ (as : List Attr) {st st' : Styled}, StyledLike st st' →
    OptLike StyledLike (Styled.decodeAttrs fl o as st) (Styled.decodeAttrs fl o' as st')
  | [], _, _, h => h
  | (n, v) :: as, st, st', h => by
      simp only [Styled.decodeAttrs]
      split
      · have := decodeMutator_like (fl := fl) (o as.length) (o' as.length) v
        revert this
        cases decodeMutator fl (o as.length) v <;> cases decodeMutator fl (o' as.length) v <;> intro this
        · trivial
        · exact this.elim
        · exact this.elim
        · exact decodeAttrs_like o o' as ⟨h.classes, rel_append h.mutators (.cons this .nil)⟩
      · split
        · exact decodeAttrs_like o o' as ⟨by rw [h.classes], h.mutators⟩
        · exact decodeAttrs_like o o' as h

/-! ### Effects -/

theorem foldl_like : ∀ {ms ms' : List Mutator}, List.Forall₂ MutLike ms ms' → ∀ s : Styles,
    ms.foldl (fun s m => mutate m s) s = ms'.foldl (fun s m => mutate m s) s
  | _, _, .nil, _ => rfl
  | _, _, .cons h hr, s => by simp only [List.foldl_cons, h s]; exact foldl_like hr _

theorem sheet_mutate {cs cs' : Classes} (h : SheetLike cs cs') : ∀ (use : List Str) (s : Styles), cs.mutate use s = cs'.mutate use s
  | [], _ => rfl
  | n :: use, s => by
      have hn := h n
      simp only [Classes.mutate]
      revert hn
      cases mapGet n cs <;> cases mapGet n cs' <;> intro hn
      · exact sheet_mutate h use s
      · exact hn.elim
      · exact hn.elim
      · simp only [Class.mutate, hn.mutator s]; exact sheet_mutate h use _

theorem class_select {c c' : Class} (h : ClassLike c c') (sel : Str) (s : Styles) :
    c.mutateWithSelector sel s = c'.mutateWithSelector sel s := by
  have hs := h.selectors sel
  simp only [Class.mutateWithSelector]
  revert hs
  cases mapGet sel c.selectors <;> cases mapGet sel c'.selectors <;> intro hs
  · exact h.mutator s
  · exact hs.elim
  · exact hs.elim
  · exact hs s

theorem sheet_select {cs cs' : Classes} (h : SheetLike cs cs') (sel : Str) : ∀ (use : List Str) (s : Styles),
    cs.mutateWithSelector sel use s = cs'.mutateWithSelector sel use s
  | [], _ => rfl
  | n :: use, s => by
      have hn := h n
      simp only [Classes.mutateWithSelector]
      revert hn
      cases mapGet n cs <;> cases mapGet n cs' <;> intro hn
      · exact sheet_select h sel use s
      · exact hn.elim
      · exact hn.elim
      · simp only [class_select hn sel s]; exact sheet_select h sel use _

theorem same_effect {cs cs' : Classes} (h : SheetLike cs cs') {st st' : Styled} (hst : StyledLike st st') : SameEffect cs cs' st st' := by
  refine ⟨fun s => ?_, fun sel s => ?_⟩
  · simp only [Styled.mutatedStyles, hst.classes, sheet_mutate h]; exact foldl_like hst.mutators _
  · simp only [Styled.mutatedStylesWithSelector, hst.classes, sheet_select h]; exact foldl_like hst.mutators _

/-! ### Style sheets -/

theorem addBlock_like {cs cs' : Classes} (h : SheetLike cs cs') (name : Str) {m m' : Mutator} (hm : MutLike m m') :
    OptLike SheetLike (addBlock cs name m) (addBlock cs' name m') := by
  have plain : SheetLike (mapSet name { mutator := m, selectors := [] } cs) (mapSet name { mutator := m', selectors := [] } cs') := by
    intro n
    rw [mapGet_mapSet, mapGet_mapSet]
    split
    · exact ⟨hm, fun sel => trivial⟩
    · exact h n
  simp only [addBlock]
  cases hi : indexByte 58 name with
  | none => exact plain
  | some i =>
    cases i with
    | zero => exact plain
    | succ i =>
      simp only
      have hc := h (name.take (i + 1))
      revert hc
      cases mapGet (name.take (i + 1)) cs <;> cases mapGet (name.take (i + 1)) cs' <;> intro hc
      · trivial
      · exact hc.elim
      · exact hc.elim
      · intro n
        rw [mapGet_mapSet, mapGet_mapSet]
        split
        · refine ⟨hc.mutator, fun sel => ?_⟩
          simp only
          rw [mapGet_mapSet, mapGet_mapSet]
          split
          · exact hm
          · exact hc.selectors sel
        · exact h n

theorem decodeClassesLoop_like (o o' : Nat → MapOrder) (n : Nat) (curr : Str) (cs cs' : Classes) (h : SheetLike cs cs') :
    OptLike SheetLike (decodeClassesLoop fl o n curr cs) (decodeClassesLoop fl o' n curr cs') := by
  induction hl : curr.length using Nat.strong_induction_on generalizing n curr cs cs' with
  | _ len ih =>
    rw [decodeClassesLoop, decodeClassesLoop]
    split
    · exact h
    · rename_i i hi
      simp only
      split
      · trivial
      · split
        · rename_i hin; trivial
        · rename_i j hin
          cases slice? curr (i + 1) (j + i) with
          | none => trivial
          | some body =>
            have hb := decodeMutator_like (fl := fl) (o n) (o' n) body
            simp only
            revert hb
            cases decodeMutator fl (o n) body <;> cases decodeMutator fl (o' n) body <;> intro hb
            · trivial
            · exact hb.elim
            · exact hb.elim
            · have ha := addBlock_like h (trimWS (curr.take i)) hb
              simp only
              revert ha
              rename_i m m'
              cases addBlock cs (trimWS (curr.take i)) m <;> cases addBlock cs' (trimWS (curr.take i)) m' <;> intro ha
              · trivial
              · exact ha.elim
              · exact ha.elim
              · have := indexByte_lt hi
                exact ih (curr.drop (j + i + 1)).length (by simp only [List.length_drop]; omega) (n + 1) _ _ _ ha rfl

theorem decodeClasses_like (o o' : Nat → MapOrder) (s : Str) : OptLike SheetLike (decodeClasses fl o s) (decodeClasses fl o' s) :=
  decodeClassesLoop_like o o' 0 _ [] [] fun _ => trivial

/-! ### Elements -/

/-- The same state of the decoder, and both results fail or look the same. -/
def ResLike {α : Type} (P : α → α → Prop) (x y : Option α × Decoder) : Prop := x.2 = y.2 ∧ OptLike P x.1 y.1

theorem ResLike.of_eq {α : Type} (x : Option α × Decoder) : ResLike Eq x x := by
  refine ⟨rfl, ?_⟩
  cases x.1 <;> simp [OptLike]

theorem andThen_like {α β : Type} {P : α → α → Prop} {Q : β → β → Prop} {x y : Option α × Decoder} (h : ResLike P x y)
    {f g : α → Option β} (hf : ∀ a b, P a b → OptLike Q (f a) (g b)) : ResLike Q (andThen x f) (andThen y g) := by
  obtain ⟨a, d⟩ := x
  obtain ⟨b, d'⟩ := y
  obtain ⟨h1, h2⟩ := h
  refine ⟨h1, ?_⟩
  simp only [andThen]
  cases a <;> cases b
  · trivial
  · exact h2.elim
  · exact h2.elim
  · exact hf _ _ h2

theorem optLike_map {α β : Type} {P : α → α → Prop} {Q : β → β → Prop} {x y : Option α} (h : OptLike P x y) {f g : α → β}
    (hf : ∀ a b, P a b → Q (f a) (g b)) : OptLike Q (x.map f) (y.map g) := by
  cases x <;> cases y
  · trivial
  · exact h.elim
  · exact h.elim
  · exact hf _ _ h

theorem unmarshalInterface_like {α : Type} {P : α → α → Prop} {f g : Decoder → Option α × Decoder}
    (h : ∀ d, ResLike P (f d) (g d)) (d : Decoder) : ResLike P (unmarshalInterface f d) (unmarshalInterface g d) := by
  have h1 := h { d with stk := pushEOF d.stk }
  simp only [unmarshalInterface, ← h1.1]
  split
  · exact ⟨rfl, h1.2⟩
  · exact ⟨rfl, trivial⟩

local notation "L" => AlikeAll (fun _ => StyledLike) Eq

/-- Token loops that look the same. -/
def LoopLike (l l' : Loop) : Prop := ∀ pol name acc acc' d, L acc acc' → ResLike L (l pol name acc d) (l' pol name acc' d)

theorem alikeAll_append {R : StyledKind → Styled → Styled → Prop} {T : Str → Str → Prop} : ∀ {a a' b b'}, AlikeAll R T a a' → AlikeAll R T b b' → AlikeAll R T (a ++ b) (a' ++ b')
  | _, _, _, _, .nil, h => h
  | _, _, _, _, .cons h1 h2, h => .cons h1 (alikeAll_append h2 h)

theorem rowsOf_like {R : StyledKind → Styled → Styled → Prop} {T : Str → Str → Prop} : ∀ {a a'}, AlikeAll R T a a' → AlikeRows R T (rowsOf a) (rowsOf a')
  | _, _, .nil => .nil
  | _, _, .cons h hr => by
      have ih := rowsOf_like hr
      cases h with
      | tableRow h => exact .cons h ih
      | _ => exact ih

theorem cellsOf_like {R : StyledKind → Styled → Styled → Prop} {T : Str → Str → Prop} : ∀ {a a'}, AlikeAll R T a a' → AlikeCells R T (cellsOf a) (cellsOf a')
  | _, _, .nil => .nil
  | _, _, .cons h hr => by
      have ih := cellsOf_like hr
      cases h with
      | tableCell h => exact .cons h ih
      | _ => exact ih

theorem partsOf_like {R : StyledKind → Styled → Styled → Prop} {T : Str → Str → Prop} : ∀ {a a'}, AlikeAll R T a a' → AlikeParts R T (partsOf a) (partsOf a')
  | _, _, .nil => .nil
  | _, _, .cons h hr => by
      have ih := partsOf_like hr
      cases h with
      | gridPart h => exact .cons h ih
      | _ => exact ih

theorem gridRowsOf_like {R : StyledKind → Styled → Styled → Prop} {T : Str → Str → Prop} : ∀ {a a'}, AlikeAll R T a a' →
    List.Forall₂ (fun a b => R .gridRow a.1 b.1 ∧ a.2 = b.2) (gridRowsOf a) (gridRowsOf a')
  | _, _, .nil => .nil
  | _, _, .cons h hr => by
      have ih := gridRowsOf_like hr
      cases h with
      | gridRow _ h => exact .cons ⟨h, rfl⟩ ih
      | _ => exact ih

theorem gridRows_areas {R : StyledKind → Styled → Styled → Prop} {r r' : List (Styled × List Str)}
    (h : List.Forall₂ (fun a b => R .gridRow a.1 b.1 ∧ a.2 = b.2) r r') : r.map (·.2) = r'.map (·.2) := by
  induction h with
  | nil => rfl
  | cons h _ ih => simp [h.2, ih]

theorem parts_areas {R : StyledKind → Styled → Styled → Prop} {T : Str → Str → Prop} : ∀ {p p' : List GridPart}, AlikeParts R T p p' → p.map (·.area) = p'.map (·.area)
  | _, _, .nil => rfl
  | _, _, .cons (.mk _ _ _) hr => by rw [List.map_cons, List.map_cons, parts_areas hr]; rfl

variable (o o' : Nat → MapOrder)

theorem newStyled_like (attrs : List Attr) : OptLike StyledLike (newStyled fl o attrs) (newStyled fl o' attrs) :=
  decodeAttrs_like o o' attrs ⟨rfl, .nil⟩

theorem unmarshalInstructions_like {l l' : Loop} (h : LoopLike l l') (name : Str) (attrs : List Attr) (d : Decoder) :
    ResLike L (unmarshalInstructions fl o l name attrs d) (unmarshalInstructions fl o' l' name attrs d) := by
  have hs := newStyled_like (fl := fl) o o' attrs
  simp only [unmarshalInstructions]
  revert hs
  cases newStyled fl o attrs <;> cases newStyled fl o' attrs <;> intro hs
  · exact ⟨rfl, trivial⟩
  · exact hs.elim
  · exact hs.elim
  · exact h _ _ _ _ _ .nil

theorem decodeInstruction_like {l l' : Loop} (h : LoopLike l l') (name : Str) (attrs : List Attr) (d : Decoder) :
    ResLike (Alike (fun _ => StyledLike) Eq) (decodeInstruction fl o l name attrs d) (decodeInstruction fl o' l' name attrs d) := by
  have hs := newStyled_like (fl := fl) o o' attrs
  have hu := fun name => unmarshalInterface_like (unmarshalInstructions_like (fl := fl) o o' h name attrs) d
  have hl : ∀ pol name, ResLike L (unmarshalInterface (l pol name []) d) (unmarshalInterface (l' pol name []) d) := fun pol name =>
    unmarshalInterface_like (fun d => h pol name [] [] d .nil) d
  refine name_cases (motive := fun name => ResLike (Alike (fun _ => StyledLike) Eq) (decodeInstruction fl o l name attrs d)
    (decodeInstruction fl o' l' name attrs d)) ?_ ?_ ?_ ?_ ?_ ?_ ?_ ?_ ?_ ?_ ?_ ?_ ?_ ?_ ?_ ?_ ?_ name
  · rw [dec_font, dec_font]
    exact andThen_like (ResLike.of_eq _) fun _ _ _ => optLike_map hs fun _ _ hst => .font hst
  · rw [dec_box, dec_box]
    exact andThen_like (hu _) fun _ _ hi => optLike_map hs fun _ _ hst => .box hst hi
  · rw [dec_text, dec_text]
    exact andThen_like (hu _) fun _ _ hi => optLike_map hs fun _ _ hst => .text hst hi
  · rw [dec_lf, dec_lf]
    cases floatAttr fl b!"lines" attrs 0 with
    | none => exact ⟨rfl, trivial⟩
    | some x => exact andThen_like (ResLike.of_eq _) fun _ _ _ => .lineFeed x
  · rw [dec_setx, dec_setx]
    cases floatAttr fl b!"x" attrs 0 with
    | none => exact ⟨rfl, trivial⟩
    | some x => exact andThen_like (ResLike.of_eq _) fun _ _ _ => .setX x
  · rw [dec_sety, dec_sety]
    cases floatAttr fl b!"y" attrs 0 with
    | none => exact ⟨rfl, trivial⟩
    | some x => exact andThen_like (ResLike.of_eq _) fun _ _ _ => .setY x
  · rw [dec_image, dec_image]
    exact andThen_like (ResLike.of_eq _) fun a b hab => optLike_map hs fun _ _ hst => by rw [← hab]; exact .image a hst
  · rw [dec_table, dec_table]
    refine andThen_like (hl tablePolicy _) fun _ _ hi => ?_
    simp only [tableDecodeAttrs]
    cases tableAttrs attrs 0 with
    | none => trivial
    | some rh =>
      simp only [Option.map_map]
      exact optLike_map hs fun _ _ hst => .table rh hst (rowsOf_like hi)
  · rw [dec_tr, dec_tr]
    exact andThen_like (hl rowPolicy _) fun _ _ hi => optLike_map hs fun _ _ hst => .tableRow (.mk hst (cellsOf_like hi))
  · rw [dec_td, dec_td]
    refine andThen_like (hl cellPolicy _) fun _ _ hi => ?_
    simp only [cellDecodeAttrs]
    cases cellAttrs attrs 0 0 with
    | none => trivial
    | some x =>
      simp only [Option.map_map]
      exact optLike_map hs fun _ _ hst => .tableCell (.mk _ _ hst hi)
  · rw [dec_grid, dec_grid]
    refine andThen_like (P := L) (unmarshalInterface_like (fun d => ?_) d) fun _ _ hi => optLike_map hs fun _ _ hst =>
      .grid hst (gridRowsOf_like hi) (partsOf_like hi)
    refine andThen_like (h gridPolicy _ [] [] d .nil) fun a b hab => ?_
    rw [gridRows_areas (gridRowsOf_like hab), parts_areas (partsOf_like hab)]
    split
    · exact hab
    · trivial
  · rw [dec_gr, dec_gr]
    exact andThen_like (ResLike.of_eq _) fun a b hab => optLike_map hs fun _ _ hst => by rw [← hab]; exact .gridRow a hst
  · rw [dec_part, dec_part]
    refine andThen_like (hl partPolicy _) fun _ _ hi => ?_
    simp only [partDecodeAttrs, Option.map_map]
    exact optLike_map hs fun _ _ hst => .gridPart (.mk _ hst hi)
  · rw [dec_p, dec_p]
    exact andThen_like (ResLike.of_eq _) fun a b hab => optLike_map hs fun _ _ hst => by rw [← hab]; exact .paragraph hst rfl
  · rw [dec_br, dec_br]
    exact andThen_like (ResLike.of_eq _) fun _ _ _ => .lineBreak
  · rw [dec_newpage, dec_newpage]
    exact andThen_like (ResLike.of_eq _) fun _ _ _ => .pageBreak
  · intro name hn; rw [dec_unknown hn, dec_unknown hn]; exact ⟨rfl, trivial⟩

theorem childLoop_like : ∀ n, LoopLike (childLoop fl o n) (childLoop fl o' n)
  | 0 => fun _ _ _ _ _ _ => ⟨rfl, trivial⟩
  | n + 1 => fun pol name acc acc' d ha => by
      have ih := childLoop_like n
      simp only [childLoop]
      obtain ⟨tok, d1⟩ := d.token
      match tok with
      | none => exact ⟨rfl, trivial⟩
      | some (.close m) =>
        simp only
        split
        · exact ⟨rfl, ha⟩
        · exact ih _ _ _ _ _ ha
      | some (.start m attrs) =>
        have hi := decodeInstruction_like (fl := fl) o o' ih m attrs d1
        simp only
        revert hi
        obtain ⟨x, d2⟩ := decodeInstruction fl o (childLoop fl o n) m attrs d1
        obtain ⟨y, d3⟩ := decodeInstruction fl o' (childLoop fl o' n) m attrs d1
        rintro ⟨h1, h2⟩
        simp only at h1 h2
        subst h1
        cases x <;> cases y
        · simp only
          split
          · exact ih _ _ _ _ _ ha
          · exact ⟨rfl, trivial⟩
        · exact h2.elim
        · exact h2.elim
        · exact ih _ _ _ _ _ (alikeAll_append ha (.cons h2 .nil))
      | some (.chars t) =>
        simp only
        split
        · exact ih _ _ _ _ _ (alikeAll_append ha (.cons (.textBlock rfl) .nil))
        · exact ih _ _ _ _ _ ha
      | some .other => exact ih _ _ _ _ _ ha

/-! ### Documents -/

structure RawLike (x y : RawDoc) : Prop where
  info : x.info = y.info
  page : x.page = y.page
  style : x.style = y.style
  header : L x.header y.header
  footer : L x.footer y.footer
  body : L x.body y.body

theorem unmarshalField_like (name : Str) (attrs : List Attr) (d : Decoder) :
    ResLike L (unmarshalField fl o name attrs d) (unmarshalField fl o' name attrs d) :=
  unmarshalInterface_like (unmarshalInstructions_like o o' (childLoop_like o o' _) name attrs) d

theorem docField_like (name : Str) (attrs : List Attr) {x y : RawDoc} (h : RawLike x y) (d : Decoder) :
    ResLike RawLike (docField fl o name attrs x d) (docField fl o' name attrs y d) := by
  obtain ⟨x1, x2, x3, x4, x5, x6⟩ := x
  obtain ⟨y1, y2, y3, y4, y5, y6⟩ := y
  obtain rfl : x1 = y1 := h.info
  obtain rfl : x2 = y2 := h.page
  unfold docField
  split
  · exact andThen_like (ResLike.of_eq _) fun a b hab => ⟨hab, h.page, h.style, h.header, h.footer, h.body⟩
  split
  · exact andThen_like (ResLike.of_eq _) fun a b hab => ⟨h.info, hab, h.style, h.header, h.footer, h.body⟩
  split
  · exact andThen_like (ResLike.of_eq _) fun a b hab => ⟨h.info, h.page, hab, h.header, h.footer, h.body⟩
  split
  · exact andThen_like (unmarshalField_like o o' name attrs d) fun a b hab =>
      ⟨h.info, h.page, h.style, alikeAll_append h.header hab, h.footer, h.body⟩
  split
  · exact andThen_like (unmarshalField_like o o' name attrs d) fun a b hab =>
      ⟨h.info, h.page, h.style, h.header, alikeAll_append h.footer hab, h.body⟩
  split
  · exact andThen_like (unmarshalField_like o o' name attrs d) fun a b hab =>
      ⟨h.info, h.page, h.style, h.header, h.footer, alikeAll_append h.body hab⟩
  · exact andThen_like (ResLike.of_eq _) fun a b hab => h

theorem structLoop_like : ∀ (n : Nat) {x y : RawDoc} (d : Decoder), RawLike x y →
    ResLike RawLike (structLoop (docField fl o) n x d) (structLoop (docField fl o') n y d)
  | 0, _, _, _, _ => ⟨rfl, trivial⟩
  | n + 1, x, y, d, h => by
      simp only [structLoop]
      obtain ⟨tok, d1⟩ := d.token
      match tok with
      | none => exact ⟨rfl, trivial⟩
      | some (.close m) => exact ⟨rfl, h⟩
      | some (.start m attrs) =>
        have hi := docField_like (fl := fl) o o' m attrs h d1
        simp only
        revert hi
        obtain ⟨a, d2⟩ := docField fl o m attrs x d1
        obtain ⟨b, d3⟩ := docField fl o' m attrs y d1
        rintro ⟨h1, h2⟩
        simp only at h1 h2
        subst h1
        cases a <;> cases b
        · exact ⟨rfl, trivial⟩
        · exact h2.elim
        · exact h2.elim
        · exact structLoop_like n _ h2
      | some (.chars t) => exact structLoop_like n _ h
      | some .other => exact structLoop_like n _ h

theorem decodeRoot_like : ∀ (n : Nat) (d : Decoder), ResLike RawLike (decodeRoot fl o n d) (decodeRoot fl o' n d)
  | 0, _ => ⟨rfl, trivial⟩
  | n + 1, d => by
      simp only [decodeRoot]
      obtain ⟨tok, d1⟩ := d.token
      match tok with
      | none => exact ⟨rfl, trivial⟩
      | some (.start m attrs) =>
        simp only
        split
        · exact structLoop_like o o' _ _ ⟨rfl, rfl, rfl, .nil, .nil, .nil⟩
        · exact ⟨rfl, trivial⟩
      | some (.close m) => exact decodeRoot_like n d1
      | some (.chars t) => exact decodeRoot_like n d1
      | some .other => exact decodeRoot_like n d1

/-! ### Weaker relations -/

mutual
theorem Alike.mono {R S : StyledKind → Styled → Styled → Prop} {T : Str → Str → Prop} (hRS : ∀ k a b, R k a b → S k a b) : ∀ {i i'}, Alike R T i i' → Alike S T i i'
  | _, _, .font h => .font (hRS _ _ _ h)
  | _, _, .lineFeed n => .lineFeed n
  | _, _, .setX n => .setX n
  | _, _, .setY n => .setY n
  | _, _, .box h hi => .box (hRS _ _ _ h) (AlikeAll.mono hRS hi)
  | _, _, .text h hi => .text (hRS _ _ _ h) (AlikeAll.mono hRS hi)
  | _, _, .image src h => .image src (hRS _ _ _ h)
  | _, _, .textBlock t => .textBlock t
  | _, _, .paragraph h t => .paragraph (hRS _ _ _ h) t
  | _, _, .lineBreak => .lineBreak
  | _, _, .pageBreak => .pageBreak
  | _, _, .table rh h hr => .table rh (hRS _ _ _ h) (AlikeRows.mono hRS hr)
  | _, _, .tableRow h => .tableRow (AlikeRow.mono hRS h)
  | _, _, .tableCell h => .tableCell (AlikeCell.mono hRS h)
  | _, _, .grid h hr hp => .grid (hRS _ _ _ h) (hr.imp fun _ _ h => ⟨hRS _ _ _ h.1, h.2⟩) (AlikeParts.mono hRS hp)
  | _, _, .gridRow as h => .gridRow as (hRS _ _ _ h)
  | _, _, .gridPart h => .gridPart (AlikePart.mono hRS h)
theorem AlikeAll.mono {R S : StyledKind → Styled → Styled → Prop} {T : Str → Str → Prop} (hRS : ∀ k a b, R k a b → S k a b) : ∀ {i i'}, AlikeAll R T i i' → AlikeAll S T i i'
  | _, _, .nil => .nil
  | _, _, .cons h hr => .cons (Alike.mono hRS h) (AlikeAll.mono hRS hr)
theorem AlikeRow.mono {R S : StyledKind → Styled → Styled → Prop} {T : Str → Str → Prop} (hRS : ∀ k a b, R k a b → S k a b) : ∀ {i i'}, AlikeRow R T i i' → AlikeRow S T i i'
  | _, _, .mk h hc => .mk (hRS _ _ _ h) (AlikeCells.mono hRS hc)
theorem AlikeRows.mono {R S : StyledKind → Styled → Styled → Prop} {T : Str → Str → Prop} (hRS : ∀ k a b, R k a b → S k a b) : ∀ {i i'}, AlikeRows R T i i' → AlikeRows S T i i'
  | _, _, .nil => .nil
  | _, _, .cons h hr => .cons (AlikeRow.mono hRS h) (AlikeRows.mono hRS hr)
theorem AlikeCell.mono {R S : StyledKind → Styled → Styled → Prop} {T : Str → Str → Prop} (hRS : ∀ k a b, R k a b → S k a b) : ∀ {i i'}, AlikeCell R T i i' → AlikeCell S T i i'
  | _, _, .mk c r h hi => .mk c r (hRS _ _ _ h) (AlikeAll.mono hRS hi)
theorem AlikeCells.mono {R S : StyledKind → Styled → Styled → Prop} {T : Str → Str → Prop} (hRS : ∀ k a b, R k a b → S k a b) : ∀ {i i'}, AlikeCells R T i i' → AlikeCells S T i i'
  | _, _, .nil => .nil
  | _, _, .cons h hr => .cons (AlikeCell.mono hRS h) (AlikeCells.mono hRS hr)
theorem AlikePart.mono {R S : StyledKind → Styled → Styled → Prop} {T : Str → Str → Prop} (hRS : ∀ k a b, R k a b → S k a b) : ∀ {i i'}, AlikePart R T i i' → AlikePart S T i i'
  | _, _, .mk a h hi => .mk a (hRS _ _ _ h) (AlikeAll.mono hRS hi)
theorem AlikeParts.mono {R S : StyledKind → Styled → Styled → Prop} {T : Str → Str → Prop} (hRS : ∀ k a b, R k a b → S k a b) : ∀ {i i'}, AlikeParts R T i i' → AlikeParts S T i i'
  | _, _, .nil => .nil
  | _, _, .cons h hr => .cons (AlikePart.mono hRS h) (AlikeParts.mono hRS hr)
end

theorem load_like (so so' : Nat → MapOrder) (toks : List Tok) : OptLike LookAlike (load fl o so toks) (load fl o' so' toks) := by
  have h := (decodeRoot_like (fl := fl) o o' (toks.length + 1) ⟨[], toks⟩).2
  simp only [load]
  revert h
  cases (decodeRoot fl o (toks.length + 1) ⟨[], toks⟩).1 <;> cases (decodeRoot fl o' (toks.length + 1) ⟨[], toks⟩).1 <;> intro h
  · trivial
  · exact h.elim
  · exact h.elim
  · rename_i x y
    simp only [← h.style]
    have hc := decodeClasses_like (fl := fl) so so' x.style
    refine optLike_map hc fun cs cs' hcs => ?_
    have hm : ∀ (_ : StyledKind) a b, StyledLike a b → SameEffect cs cs' a b := fun _ _ _ => same_effect hcs
    exact ⟨h.info, h.page, AlikeAll.mono hm h.header, AlikeAll.mono hm h.footer, AlikeAll.mono hm h.body⟩

end Verif.Proofs
