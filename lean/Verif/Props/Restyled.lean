import Verif.Proofs.Restyled
import Verif.Props.Style
import Verif.Props.Alike
import Verif.Props.Load
/-
Property C106: what counts of styles is what they do.  Classes can be renamed, merged, replaced by style texts, unused and unknown ones
removed, and style texts written in another way without any change of the result.
-/
namespace Verif.Props
open Verif.Go Verif.Model Verif.Spec Verif.Proofs

/-- With the classes of the sheets, attributes that style elements the same way have the same effect. -/
theorem sameLooks_of_styling {fl : Floats} {o : Nat → MapOrder} {S S' : SheetMeaning} {cs cs' : Classes} (hR : Rep cs S) (hR' : Rep cs' S')
    {as as' : List Attr} (h : SameStyling fl S S' as as') : SameLooks fl o cs cs' as as' := by
  have key : ∀ {S : SheetMeaning} {cs : Classes} {as : List Attr} {σs : List (Prp → Option Leaf)}, Rep cs S →
      List.Forall₂ (BodySets fl) (styleTexts as) σs → ∃ st, newStyled fl o as = some st ∧
        (∀ s p, Prp.get (st.mutatedStyles cs s) p = lastSetter (sources S (classWords as) σs none) (p.get s) p) ∧
        ∀ sel s p, Prp.get (st.mutatedStylesWithSelector sel cs s) p = lastSetter (sources S (classWords as) σs (some sel)) (p.get s) p := by
    intro S cs as σs hR hσ
    cases hst : newStyled fl o as with
    | none =>
      obtain ⟨v, hv, hn⟩ := (C19_attrs_error fl o as _).mp hst
      have hv' : v ∈ styleTexts as := List.mem_map.mpr ⟨(b!"style", v), List.mem_filter.mpr ⟨hv, by simp⟩, rfl⟩
      exfalso
      clear hst hv
      revert hv'
      generalize styleTexts as = l at hσ
      intro hv'
      induction hσ with
      | nil => simp at hv'
      | cons h1 _ ih =>
        rcases List.mem_cons.mp hv' with rfl | h
        · exact hn ⟨_, h1⟩
        · exact ih h
    | some st =>
      obtain ⟨σs', h1, h2, h3⟩ := C19_attrs fl o as st hst
      have he : σs' = σs := by
        clear h2
        replace h1 : List.Forall₂ (BodySets fl) (styleTexts as) σs' := h1
        generalize styleTexts as = l at hσ h1
        induction hσ generalizing σs' with
        | nil => cases h1; rfl
        | cons ha _ ih =>
          cases h1 with
          | cons hb ht => rw [bodySets_unique hb ha, ih _ ht]
      subst he
      refine ⟨st, rfl, fun s p => ?_, fun sel s p => ?_⟩
      · rw [C19_cascade hR h2, h3]; rfl
      · rw [C20_selector hR h2, h3]; rfl
  refine ⟨h.1, ?_⟩
  rcases h.2 with ⟨⟨v, hv, hn⟩, ⟨v', hv', hn'⟩⟩ | ⟨σs, σs', h1, h2, h3⟩
  · have wrong : ∀ {as : List Attr} {v : Str}, v ∈ styleTexts as → (¬ ∃ σ, BodySets fl v σ) → newStyled fl o as = none := by
      intro as v hv hn
      obtain ⟨a, ha, rfl⟩ := List.mem_map.mp hv
      obtain ⟨h1, h2⟩ := List.mem_filter.mp ha
      refine (C19_attrs_error fl o as _).mpr ⟨a.2, ?_, hn⟩
      rw [← of_decide_eq_true h2]
      exact h1
    exact .inl ⟨wrong hv hn, wrong hv' hn'⟩
  · obtain ⟨st, ha, hb, hc⟩ := key hR h1
    obtain ⟨st', ha', hb', hc'⟩ := key hR' h2
    refine .inr ⟨st, st', ha, ha', fun s => styles_ext fun p => ?_, fun sel s => styles_ext fun p => ?_⟩
    · rw [hb, hb', h3]
    · rw [hc, hc', h3]

private theorem restyled_mono {A B : List Attr → List Attr → Prop} (h : ∀ as as', A as as' → B as as') {n n' : Node} (hn : Restyled A n n') : Restyled B n n' :=
  Restyled.rec (motive_1 := fun n n' _ => Restyled B n n') (motive_2 := fun ns ns' _ => RestyledAll B ns ns')
    (fun ha _ ih => .elem (h _ _ ha) ih) .chars .other .nil (fun _ _ ih ih' => .cons ih ih') hn

private theorem restyledAll_mono {A B : List Attr → List Attr → Prop} (h : ∀ as as', A as as' → B as as') {ns ns' : List Node} (hn : RestyledAll A ns ns') :
    RestyledAll B ns ns' :=
  RestyledAll.rec (motive_1 := fun n n' _ => Restyled B n n') (motive_2 := fun ns ns' _ => RestyledAll B ns ns')
    (fun ha _ ih => .elem (h _ _ ha) ih) .chars .other .nil (fun _ _ ih ih' => .cons ih ih') hn

theorem docRestyled_mono {A B : List Attr → List Attr → Prop} (h : ∀ as as', A as as' → B as as') {ns ns' : List Node} (hn : DocRestyled A ns ns') :
    DocRestyled B ns ns' := by
  induction hn with
  | nil => exact .nil
  | same n h1 _ ih => exact .same n h1 ih
  | sheet a b c d _ ih => exact .sheet a b c d ih
  | part h1 h2 h3 _ ih => exact .part h1 (h _ _ h2) (restyledAll_mono h h3) ih

/-- C106: two files whose elements are styled the same way, each by its own sheet, cannot be loaded both or give documents that look the same. -/
theorem C106_load (fl : Floats) (o so : Nat → MapOrder) {misc misc' : List Tok} (hm : misc.all isMisc = true) (hm' : misc'.all isMisc = true)
    (as as' : List Attr) {kids kids' : List Node} {S S' : SheetMeaning} (hS : SheetText fl (Spec.textOf b!"style" kids) S)
    (hS' : SheetText fl (Spec.textOf b!"style" kids') S') (h : DocRestyled (SameStyling fl S S') kids kids') (post post' : List Tok) :
    (load fl o so (misc ++ ((Node.elem b!"document" as kids).toks ++ post)) = none ∧
      load fl o so (misc' ++ ((Node.elem b!"document" as' kids').toks ++ post')) = none) ∨
    ∃ d d', load fl o so (misc ++ ((Node.elem b!"document" as kids).toks ++ post)) = some d ∧
      load fl o so (misc' ++ ((Node.elem b!"document" as' kids').toks ++ post')) = some d' ∧ LookAlike d d' := by
  rw [C61_exact so misc hm, C61_exact so misc' hm']
  obtain ⟨bs, tail, hok, hs, ht, hm⟩ := hS
  obtain ⟨bs', tail', hok', hs', ht', hm'⟩ := hS'
  obtain ⟨cs, hc, hR⟩ := (C18_closed fl so hok hs ht).2 S hm
  obtain ⟨cs', hc', hR'⟩ := (C18_closed fl so hok' hs' ht').2 S' hm'
  have := loaded_restyled (ord := o) hc hc' (docRestyled_mono (fun _ _ h => sameLooks_of_styling hR hR' h) h)
  revert this
  cases loaded fl o so kids <;> cases loaded fl o so kids' <;> intro h
  · exact .inl ⟨rfl, rfl⟩
  · exact h.elim
  · exact h.elim
  · exact .inr ⟨_, _, rfl, rfl, h⟩

/-- C106: such files give the same result with every engine, whatever the orders of the maps are in either run. -/
theorem C106_same {E : Type} (fl : Floats) (o so o' so' : Nat → MapOrder) {misc misc' : List Tok} (hm : misc.all isMisc = true)
    (hm' : misc'.all isMisc = true) (as as' : List Attr) {kids kids' : List Node} {S S' : SheetMeaning}
    (hS : SheetText fl (Spec.textOf b!"style" kids) S) (hS' : SheetText fl (Spec.textOf b!"style" kids') S')
    (h : DocRestyled (SameStyling fl S S') kids kids') (post post' : List Tok)
    (eng : Engine E) (start : Meta → DocPage → E) (hyphenate : Str → List Str) (resolve : Str → Str)
    (images : Str → Option ImageDesc) (n : Nat) :
    loadAndProcess fl o so (misc ++ ((Node.elem b!"document" as kids).toks ++ post)) eng start hyphenate resolve images n =
      loadAndProcess fl o' so' (misc' ++ ((Node.elem b!"document" as' kids').toks ++ post')) eng start hyphenate resolve images n := by
  rw [C72_deterministic fl o' o so' so]
  unfold loadAndProcess
  rcases C106_load fl o so hm hm' as as' hS hS' h post post' with ⟨h, h'⟩ | ⟨d, d', h, h', hl⟩
  · rw [h, h']
  · rw [h, h']
    simp only [Option.bind_some]
    rw [C72_process eng hyphenate resolve images hl, hl.info, hl.page]

/-! ### Ways to style elements the same way -/

/-- C106: the names of classes count for nothing: elements are styled the same way if their known classes mean the same, in the same order,
and their style texts set the same.  So classes can be renamed, two with the same meaning can be merged, and the names of unknown classes and the
definitions of classes that are not used can be removed. -/
theorem C106_attrs {fl : Floats} {S S' : SheetMeaning} {as as' : List Attr} (hp : SamePlain as as')
    (hc : (classWords as).filterMap S = (classWords as').filterMap S')
    (hs : List.Forall₂ (fun v v' => ∀ σ, BodySets fl v σ ↔ BodySets fl v' σ) (styleTexts as) (styleTexts as')) : SameStyling fl S S' as as' := by
  refine ⟨hp, ?_⟩
  by_cases hw : ∃ v ∈ styleTexts as, ¬ ∃ σ, BodySets fl v σ
  · refine .inl ⟨hw, ?_⟩
    generalize styleTexts as = l, styleTexts as' = l' at hs hw
    induction hs with
    | nil => simp at hw
    | cons h1 _ ih =>
      obtain ⟨v, hv, hn⟩ := hw
      rcases List.mem_cons.mp hv with rfl | h
      · exact ⟨_, List.mem_cons_self, fun ⟨σ, hσ⟩ => hn ⟨σ, (h1 σ).mpr hσ⟩⟩
      · obtain ⟨w, hw, hn'⟩ := ih ⟨v, h, hn⟩
        exact ⟨w, List.mem_cons_of_mem _ hw, hn'⟩
  · have hex : ∀ v ∈ styleTexts as, ∃ σ, BodySets fl v σ := fun v hv => by
      by_contra h
      exact hw ⟨v, hv, h⟩
    have : ∃ σs, List.Forall₂ (BodySets fl) (styleTexts as) σs ∧ List.Forall₂ (BodySets fl) (styleTexts as') σs := by
      clear hw
      generalize styleTexts as = l, styleTexts as' = l' at hs hex
      induction hs with
      | nil => exact ⟨[], .nil, .nil⟩
      | cons h1 _ ih =>
        obtain ⟨σ, hσ⟩ := hex _ List.mem_cons_self
        obtain ⟨σs, ha, hb⟩ := ih fun v hv => hex v (List.mem_cons_of_mem _ hv)
        exact ⟨σ :: σs, .cons hσ ha, .cons ((h1 σ).mp hσ) hb⟩
    obtain ⟨σs, ha, hb⟩ := this
    refine .inr ⟨σs, σs, ha, hb, fun sel inh p => ?_⟩
    have hmap : ∀ (S : SheetMeaning) (ws : List Str), ws.filterMap (fun n => (S n).map fun C => (sel.bind C.sel).getD C.own) =
        (ws.filterMap S).map fun C => (sel.bind C.sel).getD C.own := by
      intro S ws
      rw [List.map_filterMap]
    rw [sources, sources, hmap, hmap, hc]

/-- C106: classes renamed consistently in the sheet and in the elements. -/
theorem C106_rename {fl : Floats} {S S' : SheetMeaning} (ρ : Str → Str) {as as' : List Attr} (hp : SamePlain as as')
    (hs : styleTexts as = styleTexts as') (hc : classWords as' = (classWords as).map ρ) (hS : ∀ n ∈ classWords as, S' (ρ n) = S n) :
    SameStyling fl S S' as as' := by
  refine C106_attrs hp ?_ (hs ▸ List.forall₂_same.mpr fun _ _ _ => Iff.rfl)
  rw [hc, List.filterMap_map]
  exact (List.filterMap_congr fun n hn => hS n hn).symm

/-- C106: a class without selectors in front of the style texts can be replaced by a style text that sets the same. -/
theorem C106_inline {fl : Floats} {S S' : SheetMeaning} {n t cv : Str} {C : ClassMeaning} {rest : List Attr} (hn : fields cv = [n]) (hC : S n = some C)
    (hsel : ∀ x, C.sel x = none) (ht : BodySets fl t C.own) (hr : classWords rest = []) :
    SameStyling fl S S' ((b!"class", cv) :: rest) ((b!"style", t) :: rest) := by
  have e1 : styleTexts ((b!"class", cv) :: rest) = styleTexts rest := by simp [styleTexts]
  have e2 : styleTexts ((b!"style", t) :: rest) = t :: styleTexts rest := by simp [styleTexts]
  have e3 : classWords ((b!"class", cv) :: rest) = [n] := by
    have : classWords ((b!"class", cv) :: rest) = fields cv ++ classWords rest := by simp [classWords]
    rw [this, hn, hr]; rfl
  have e4 : classWords ((b!"style", t) :: rest) = [] := by
    have : classWords ((b!"style", t) :: rest) = classWords rest := by simp [classWords]
    rw [this, hr]
  refine ⟨fun k hk => ?_, ?_⟩
  · have h1 : b!"class" ≠ k := by rintro rfl; exact absurd hk (by decide)
    have h2 : b!"style" ≠ k := by rintro rfl; exact absurd hk (by decide)
    rw [given_cons, given_cons, if_neg h1, if_neg h2]
  by_cases hw : ∃ v ∈ styleTexts rest, ¬ ∃ σ, BodySets fl v σ
  · obtain ⟨v, hv, hn'⟩ := hw
    exact .inl ⟨⟨v, by rw [e1]; exact hv, hn'⟩, ⟨v, by rw [e2]; exact List.mem_cons_of_mem _ hv, hn'⟩⟩
  · have : ∃ σs, List.Forall₂ (BodySets fl) (styleTexts rest) σs := by
      generalize styleTexts rest = l at hw
      induction l with
      | nil => exact ⟨[], .nil⟩
      | cons v l ih =>
        obtain ⟨σs, h⟩ := ih fun ⟨w, hw1, hw2⟩ => hw ⟨w, List.mem_cons_of_mem _ hw1, hw2⟩
        have : ∃ σ, BodySets fl v σ := by
          by_contra hc
          exact hw ⟨v, List.mem_cons_self, hc⟩
        obtain ⟨σ, hσ⟩ := this
        exact ⟨σ :: σs, .cons hσ h⟩
    obtain ⟨σs, hσ⟩ := this
    refine .inr ⟨σs, C.own :: σs, by rw [e1]; exact hσ, by rw [e2]; exact .cons ht hσ, fun sel inh p => ?_⟩
    rw [sources, sources, e3, e4]
    have : (sel.bind C.sel).getD C.own = C.own := by
      cases sel with
      | none => rfl
      | some x => simp [hsel x]
    simp [hC, this]

/-- C106: how a style text is written counts for nothing: only the last declaration of each key. -/
theorem C106_spelling {fl : Floats} {v v' : Str} {ds ds' : List (Str × Str)} (h : Decls v ds) (h' : Decls v' ds')
    (he : ∀ k, lastValue k ds = lastValue k ds') (σ : Prp → Option Leaf) : BodySets fl v σ ↔ BodySets fl v' σ := by
  have hsets : sets fl ds = sets fl ds' := by
    funext p
    simp only [sets, he]
  constructor
  · rintro ⟨es, h1, h2, h3, rfl⟩
    obtain rfl := C12_unique h h1
    exact ⟨ds', h', fun p w hw => h2 p w (by rw [he]; exact hw), by rw [← he]; exact h3, hsets⟩
  · rintro ⟨es, h1, h2, h3, rfl⟩
    obtain rfl := C12_unique h' h1
    exact ⟨ds, h, fun p w hw => h2 p w (by rw [← he]; exact hw), by rw [he]; exact h3, hsets.symm⟩

/-! ### An example -/

private def fl0 : Floats := { parseFloat := fun s => (parseInt s).map (fun n => (n : ℚ)), convertFloat := fun s => (parseInt s).map (fun n => (n : ℚ)) }
private def ord0 : Nat → MapOrder := fun _ => ⟨id, fun _ => .refl _⟩
private def ord1 : Nat → MapOrder := fun _ => ⟨List.reverse, fun l => l.reverse_perm⟩

/-- With a class that is not used, and an unknown one. -/
private def before : List Node :=
  [.elem b!"style" [] [.chars b!"a{h-align:left}z{v-align:top}"],
   .elem b!"body" [] [.elem b!"text" [(b!"class", b!"a nosuch"), (b!"style", b!"v-align:top")] [.chars b!"Hi"],
     .elem b!"p" [(b!"class", b!"a")] [.chars b!"there"]]]

/-- The class has another name, the style text is written in another way, the class of the paragraph is replaced by a style text. -/
private def after : List Node :=
  [.elem b!"style" [(b!"lang", b!"none")] [.chars b!"x {h-align:left}"],
   .elem b!"body" [] [.elem b!"text" [(b!"style", b!"v-align:middle; v-align : top;"), (b!"class", b!"x")] [.chars b!"Hi"],
     .elem b!"p" [(b!"style", b!"h-align:left")] [.chars b!"there"]]]

private theorem strips_self {t : Str} (h1 : ∀ c, t.head? = some c → ¬ Blank c) (h2 : ∀ c, t.getLast? = some c → ¬ Blank c) : Strips t t :=
  ⟨[], [], by simp, by simp, by simp, h1, h2⟩

private theorem left_decls : Decls b!"h-align:left" [(b!"h-align", b!"left")] :=
  .last (by decide) (.decl (k := b!"h-align") (v := b!"left") rfl (by decide) (by decide) (strips_self (by simp [Blank]) (by simp [Blank]))
    (strips_self (by simp [Blank]) (by simp [Blank])))

private theorem top_decls : Decls b!"v-align:top" [(b!"v-align", b!"top")] :=
  .last (by decide) (.decl (k := b!"v-align") (v := b!"top") rfl (by decide) (by decide) (strips_self (by simp [Blank]) (by simp [Blank]))
    (strips_self (by simp [Blank]) (by simp [Blank])))

private theorem tops_decls : Decls b!"v-align:middle; v-align : top;" ([(b!"v-align", b!"middle")] ++ ([(b!"v-align", b!"top")] ++ [])) :=
  .more (p := b!"v-align:middle") (by decide) (.decl (k := b!"v-align") (v := b!"middle") rfl (by decide) (by decide)
      (strips_self (by simp [Blank]) (by simp [Blank])) (strips_self (by simp [Blank]) (by simp [Blank])))
    (.more (p := b!" v-align : top") (by decide) (.decl (k := b!" v-align ") (v := b!" top") rfl (by decide) (by decide)
      ⟨[32], [32], rfl, by simp [Blank], by simp [Blank], by simp [Blank], by simp [Blank]⟩
      ⟨[32], [], rfl, by simp [Blank], by simp [Blank], by simp [Blank], by simp [Blank]⟩)
    (.last (p := []) (by decide) (.blank (by simp))))

private theorem sets_one {v k w : Str} (h : Decls v [(k, w)]) (hk : k ≠ []) (hr : ∀ p : Prp, p.name = k → (p.read fl0 w).isSome) :
    BodySets fl0 v (sets fl0 [(k, w)]) := by
  refine ⟨_, h, fun p x hx => ?_, ?_, rfl⟩
  · simp only [lastValue] at hx
    split at hx
    · rename_i hk
      obtain rfl : w = x := by simpa using hx
      exact hr p hk.symm
    · simp at hx
  · simp [lastValue, hk]

private theorem left_sets : BodySets fl0 b!"h-align:left" (sets fl0 [(b!"h-align", b!"left")]) :=
  sets_one left_decls (by decide) (by intro p; cases p <;> decide +kernel)

private theorem top_sets : BodySets fl0 b!"v-align:top" (sets fl0 [(b!"v-align", b!"top")]) :=
  sets_one top_decls (by decide) (by intro p; cases p <;> decide +kernel)

private def S1 : SheetMeaning := fun n => if n = b!"z" then some ⟨sets fl0 [(b!"v-align", b!"top")], fun _ => none⟩ else
  (fun n => if n = b!"a" then some ⟨sets fl0 [(b!"h-align", b!"left")], fun _ => none⟩ else (fun _ => none) n) n
private def S2 : SheetMeaning := fun n => if n = b!"x" then some ⟨sets fl0 [(b!"h-align", b!"left")], fun _ => none⟩ else (fun _ => none) n

private theorem before_sheet : SheetText fl0 (Spec.textOf b!"style" before) S1 :=
  ⟨[⟨b!"a", b!"h-align:left"⟩, ⟨b!"z", b!"v-align:top"⟩], [], by simp [Block.ok], by decide +kernel, by simp,
    .cons (strips_self (by simp [Blank]) (by simp [Blank])) (by simp) left_sets (.plain (by decide))
      (.cons (strips_self (by simp [Blank]) (by simp [Blank])) (by simp) top_sets (.plain (by decide)) .nil)⟩

private theorem after_sheet : SheetText fl0 (Spec.textOf b!"style" after) S2 :=
  ⟨[⟨b!"x ", b!"h-align:left"⟩], [], by simp [Block.ok], by decide +kernel, by simp,
    .cons ⟨[], [32], rfl, by simp, by simp [Blank], by simp [Blank], by simp [Blank]⟩ (by simp) left_sets (.plain (by decide)) .nil⟩

private theorem before_after : DocRestyled (SameStyling fl0 S1 S2) before after := by
  refine .sheet _ _ _ _ (.part (.inr (.inr rfl)) (C106_attrs (fun _ _ => rfl) rfl .nil) (.cons (.elem ?_ (.cons (.chars _) .nil))
    (.cons (.elem ?_ (.cons (.chars _) .nil)) .nil)) .nil)
  · refine C106_attrs (by decide) ?_ (.cons (C106_spelling top_decls tops_decls ?_) .nil)
    · rw [show classWords [(b!"class", b!"a nosuch"), (b!"style", b!"v-align:top")] = [b!"a", b!"nosuch"] by decide +kernel,
        show classWords [(b!"style", b!"v-align:middle; v-align : top;"), (b!"class", b!"x")] = [b!"x"] by decide +kernel]
      rfl
    · intro k
      simp only [lastValue, List.cons_append, List.nil_append]
      split <;> simp_all
  · exact C106_inline (n := b!"a") (by decide +kernel) rfl (fun _ => rfl) left_sets rfl

example (eng : Engine Unit) (n : Nat) :
    loadAndProcess fl0 ord0 ord0 ([] ++ ((Node.elem b!"document" [] before).toks ++ [])) eng (fun _ _ => ()) (fun w => [w]) id (fun _ => none) n =
    loadAndProcess fl0 ord1 ord1 ([] ++ ((Node.elem b!"document" [] after).toks ++ [])) eng (fun _ _ => ()) (fun w => [w]) id (fun _ => none) n :=
  C106_same fl0 ord0 ord0 ord1 ord1 rfl rfl [] [] before_sheet after_sheet before_after _ _ eng _ _ _ _ n

example : SameStyling fl0 S1 S2 [(b!"class", b!" a  a "), (b!"colspan", b!"2")] [(b!"colspan", b!"2"), (b!"class", b!"x x")] :=
  C106_rename (fun n => if n = b!"a" then b!"x" else n) (by decide) (by decide) (by decide +kernel) (by
    rw [show classWords [(b!"class", b!" a  a "), (b!"colspan", b!"2")] = [b!"a", b!"a"] by decide +kernel]
    intro n hn
    obtain rfl : n = b!"a" := by simpa using hn
    rfl)

example : (load fl0 ord0 ord0 ([] ++ ((Node.elem b!"document" [] before).toks ++ []))).isSome = true := by decide +kernel

end Verif.Props
