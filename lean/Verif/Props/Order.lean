import Verif.Spec.Order
import Verif.Props.Restyled
/-
Property C112: the order of attributes and sections makes no difference, and neither do attributes and sections the program does not know.
-/
namespace Verif.Props
open Verif.Go Verif.Model Verif.Spec Verif.Proofs

section
variable {fl : Floats} {o : Nat → MapOrder}

/-! ### Sections -/

private theorem loaded_sections {so : Nat → MapOrder} {ns ns' : List Node} (h : SameSections ns ns') : loaded fl o so ns = loaded fl o so ns' := by
  have text : ∀ {name : Str} {ns ns' : List Node}, named name ns = named name ns' → Spec.textOf name ns = Spec.textOf name ns' := by
    intro name ns ns' h
    unfold named at h
    rw [Spec.textOf, Spec.textOf, h]
  have number : ∀ {name : Str} {ns ns' : List Node}, named name ns = named name ns' → numberOf fl name ns = numberOf fl name ns' := by
    intro name ns ns' h
    unfold named at h
    rw [numberOf, numberOf, h]
  have part : ∀ {name : Str} {ns ns' : List Node}, named name ns = named name ns' → section_ fl o name ns = section_ fl o name ns' := by
    intro name ns ns' h
    unfold named at h
    rw [section_, section_, h]
  unfold loaded
  simp only [number (h.margins b!"left" (by decide)), number (h.margins b!"top" (by decide)), number (h.margins b!"right" (by decide)),
    number (h.margins b!"bottom" (by decide)), part (h.parts b!"header" (by decide)), part (h.parts b!"footer" (by decide)),
    part (h.parts b!"body" (by decide)), text (h.parts b!"style" (by decide)), text (h.info b!"author" (by decide)),
    text (h.info b!"creator" (by decide)), text (h.info b!"subject" (by decide)), text (h.page b!"orientation" (by decide)),
    text (h.page b!"format" (by decide))]

/-- C112: files with the same sections, in any order and with any unknown ones between them, give the same document, or an error both. -/
theorem C112_sections (fl : Floats) (o so : Nat → MapOrder) {misc misc' : List Tok} (hm : misc.all isMisc = true) (hm' : misc'.all isMisc = true)
    (as as' : List Attr) {kids kids' : List Node} (h : SameSections kids kids') (post post' : List Tok) :
    load fl o so (misc ++ ((Node.elem b!"document" as kids).toks ++ post)) = load fl o so (misc' ++ ((Node.elem b!"document" as' kids').toks ++ post')) := by
  rw [C61_exact so misc hm, C61_exact so misc' hm', loaded_sections h]

/-- All sections of every name are the same: then the files have the same sections. -/
theorem sameSections_of_named {ns ns' : List Node} (h : ∀ name ∈ sectionNames, named name ns = named name ns') : SameSections ns ns' := by
  have hin : ∀ name ∈ sectionNames, inside name ns = inside name ns' := fun name hn => by
    have := h name hn
    unfold named at this
    rw [inside, inside, this]
  exact ⟨fun name hn => h name (by revert name; decide), fun _ _ => by rw [hin b!"meta" (by decide)], fun _ _ => by rw [hin b!"page" (by decide)],
    fun _ _ => by rw [hin b!"page" (by decide)]⟩

private theorem named_append (name : Str) : ∀ ns ns' : List Node, named name (ns ++ ns') = named name ns ++ named name ns'
  | [], _ => rfl
  | .elem n as kids :: ns, ns' => by
    have ih := named_append name ns ns'
    simp only [named, List.cons_append, elems, List.filter_cons] at ih ⊢
    split
    · rw [ih]; rfl
    · exact ih
  | .chars _ :: ns, ns' => named_append name ns ns'
  | .other :: ns, ns' => named_append name ns ns'

/-- C112: two neighbours with different names, or of which one is no section, may change places. -/
theorem C112_swap (pre post : List Node) {n m : Node} (h : MaySwap n m) : SameSections (pre ++ [n, m] ++ post) (pre ++ [m, n] ++ post) := by
  refine sameSections_of_named fun name hn => ?_
  simp only [named_append]
  congr 2
  cases n with
  | chars t => cases m <;> rfl
  | other => cases m <;> rfl
  | elem a as kids =>
    cases m with
    | chars t => rfl
    | other => rfl
    | elem b bs kids' =>
      simp only [named, elems, List.filter_cons, List.filter_nil]
      by_cases h1 : a = name
      · by_cases h2 : b = name
        · subst h1 h2
          exact absurd hn (h _ _ _ _ _ rfl rfl)
        · simp [h1, h2]
      · simp [h1]

/-- C112: what is no section may stand anywhere, or be removed. -/
theorem C112_unknown (pre post : List Node) {n : Node} (h : ¬ IsSection n) : SameSections (pre ++ [n] ++ post) (pre ++ post) := by
  refine sameSections_of_named fun name hn => ?_
  simp only [named_append]
  have : named name [n] = [] := by
    cases n with
    | chars t => rfl
    | other => rfl
    | elem a as kids =>
      have : a ≠ name := by
        rintro rfl
        exact h ⟨a, hn, as, kids, rfl⟩
      simp [named, elems, this]
  rw [this, List.append_nil]

/-! ### Attributes -/

private theorem mutLike_trans {m1 m2 m3 : Mutator} (h : MutLike m1 m2) (h' : MutLike m2 m3) : MutLike m1 m3 := fun s => (h s).trans (h' s)

private theorem styledLike_symm {a b : Styled} (h : StyledLike a b) : StyledLike b a :=
  ⟨h.classes.symm, h.mutators.flip.imp fun _ _ h s => (h s).symm⟩

private theorem forall₂_trans {l1 l2 l3 : List Mutator} (h : List.Forall₂ MutLike l1 l2) (h' : List.Forall₂ MutLike l2 l3) : List.Forall₂ MutLike l1 l3 := by
  induction h generalizing l3 with
  | nil => exact h'
  | cons h1 _ ih =>
    cases h' with
    | cons h2 h3 => exact .cons (mutLike_trans h1 h2) (ih h3)

/-- What the attributes give, in terms of the values of style and class. -/
private def styling (fl : Floats) (m : MapOrder) (texts words : List Str) (st : Styled) : Option Styled :=
  (texts.mapM (decodeMutator fl m)).map fun ms => ⟨st.mutators ++ ms, st.classes ++ words.flatMap fields⟩

private theorem decodeAttrs_given (m : MapOrder) : ∀ (as : List Attr) (st : Styled),
    OptLike StyledLike (Styled.decodeAttrs fl o as st) (styling fl m (given b!"style" as) (given b!"class" as) st)
  | [], st => ⟨by simp [given], by simpa using List.forall₂_same.mpr fun _ _ _ => rfl⟩
  | (n, v) :: as, st => by
    rw [given_cons, given_cons, Styled.decodeAttrs]
    by_cases h1 : n = b!"style"
    · have h2 : n ≠ b!"class" := by rw [h1]; decide
      rw [if_pos h1, if_pos h1, if_neg h2, styling, List.mapM_cons]
      have := decodeMutator_like (fl := fl) (o as.length) m v
      revert this
      cases decodeMutator fl (o as.length) v with
      | none =>
        cases decodeMutator fl m v with
        | none => intro _; trivial
        | some _ => intro h; exact h.elim
      | some x =>
        cases decodeMutator fl m v with
        | none => intro h; exact h.elim
        | some y =>
          intro hxy
          have ih := decodeAttrs_given m as ⟨st.mutators ++ [x], st.classes⟩
          simp only [styling] at ih ⊢
          revert ih
          cases (given b!"style" as).mapM (decodeMutator fl m) with
          | none => exact id
          | some ms =>
            simp only [Option.map_some, bind, Option.bind, pure]
            cases Styled.decodeAttrs fl o as ⟨st.mutators ++ [x], st.classes⟩ with
            | none => exact id
            | some s =>
              intro ih
              refine ⟨ih.classes, forall₂_trans ih.mutators ?_⟩
              simp only [List.append_assoc, List.singleton_append]
              exact rel_append (List.forall₂_same.mpr fun _ _ _ => rfl) (.cons hxy (List.forall₂_same.mpr fun _ _ _ => rfl))
    · rw [if_neg h1, if_neg h1]
      by_cases h2 : n = b!"class"
      · rw [if_pos h2, if_pos h2]
        have ih := decodeAttrs_given m as ⟨st.mutators, st.classes ++ fields v⟩
        simpa only [styling, List.flatMap_cons, List.append_assoc] using ih
      · rw [if_neg h2, if_neg h2]
        exact decodeAttrs_given m as st

private theorem sameLooks_of_given {cs : Classes} {as as' : List Attr} (h : SameGiven as as') : SameLooks fl o cs cs as as' := by
  refine ⟨fun k hk => h k (List.mem_append_left _ hk), ?_⟩
  have h1 := decodeAttrs_given (fl := fl) (o := o) (o 0) as ⟨[], []⟩
  have h2 := decodeAttrs_given (fl := fl) (o := o) (o 0) as' ⟨[], []⟩
  rw [h b!"style" (by decide), h b!"class" (by decide)] at h1
  unfold newStyled
  revert h1 h2
  cases styling fl (o 0) (given b!"style" as') (given b!"class" as') ⟨[], []⟩ <;> cases Styled.decodeAttrs fl o as ⟨[], []⟩ <;>
    cases Styled.decodeAttrs fl o as' ⟨[], []⟩ <;> intro h1 h2
  · exact .inl ⟨rfl, rfl⟩
  · exact h2.elim
  · exact h1.elim
  · exact h1.elim
  · exact h1.elim
  · exact h1.elim
  · exact h2.elim
  · refine .inr ⟨_, _, rfl, rfl, same_effect (fun name => ?_) ⟨h1.classes.trans h2.classes.symm, forall₂_trans h1.mutators (styledLike_symm h2).mutators⟩⟩
    cases mapGet name cs with
    | none => trivial
    | some c =>
      refine ⟨fun _ => rfl, fun sel => ?_⟩
      cases mapGet sel c.selectors with
      | none => trivial
      | some _ => exact fun _ => rfl

/-- C112: in the elements of header, footer and body, attributes may stand in any order, and attributes the program does not know may be added:
the files cannot be loaded both or give documents that look the same. -/
theorem C112_attrs (fl : Floats) (o so : Nat → MapOrder) {misc misc' : List Tok} (hm : misc.all isMisc = true) (hm' : misc'.all isMisc = true)
    (as as' : List Attr) {kids kids' : List Node} (h : DocRestyled SameGiven kids kids')
    (hs : Spec.textOf b!"style" kids = Spec.textOf b!"style" kids') (post post' : List Tok) :
    (load fl o so (misc ++ ((Node.elem b!"document" as kids).toks ++ post)) = none ∧
      load fl o so (misc' ++ ((Node.elem b!"document" as' kids').toks ++ post')) = none) ∨
    ∃ d d', load fl o so (misc ++ ((Node.elem b!"document" as kids).toks ++ post)) = some d ∧
      load fl o so (misc' ++ ((Node.elem b!"document" as' kids').toks ++ post')) = some d' ∧ LookAlike d d' := by
  rw [C61_exact so misc hm, C61_exact so misc' hm']
  cases hc : decodeClasses fl so (Spec.textOf b!"style" kids) with
  | none =>
    refine .inl ⟨?_, ?_⟩ <;> unfold loaded
    · simp [hc]
    · simp [← hs, hc]
  | some cs =>
    have := loaded_restyled (ord := o) hc (hs ▸ hc) (docRestyled_mono (fun _ _ h => sameLooks_of_given h) h)
    revert this
    cases loaded fl o so kids <;> cases loaded fl o so kids' <;> intro h
    · exact .inl ⟨rfl, rfl⟩
    · exact h.elim
    · exact h.elim
    · exact .inr ⟨_, _, rfl, rfl, h⟩

/-- C112: both together: such files give the same result with every engine, whatever the orders of the maps are in either run. -/
theorem C112_same {E : Type} (fl : Floats) (o so o' so' : Nat → MapOrder) {misc misc' : List Tok} (hm : misc.all isMisc = true)
    (hm' : misc'.all isMisc = true) (as as' : List Attr) {kids between kids' : List Node} (h : SameSections kids between)
    (h' : DocRestyled SameGiven between kids') (hs : Spec.textOf b!"style" between = Spec.textOf b!"style" kids') (post post' : List Tok)
    (eng : Engine E) (start : Meta → DocPage → E) (hyphenate : Str → List Str) (resolve : Str → Str)
    (images : Str → Option ImageDesc) (n : Nat) :
    loadAndProcess fl o so (misc ++ ((Node.elem b!"document" as kids).toks ++ post)) eng start hyphenate resolve images n =
      loadAndProcess fl o' so' (misc' ++ ((Node.elem b!"document" as' kids').toks ++ post')) eng start hyphenate resolve images n := by
  rw [C72_deterministic fl o' o so' so]
  unfold loadAndProcess
  rw [C112_sections fl o so hm hm as as h post post]
  rcases C112_attrs fl o so hm hm' as as' h' hs post post' with ⟨h, h'⟩ | ⟨d, d', h, h', hl⟩
  · rw [h, h']
  · rw [h, h']
    simp only [Option.bind_some]
    rw [C72_process eng hyphenate resolve images hl, hl.info, hl.page]

end

/-! ### Examples -/

private def fl0 : Floats := { parseFloat := fun s => (parseInt s).map (fun n => (n : ℚ)), convertFloat := fun s => (parseInt s).map (fun n => (n : ℚ)) }
private def ord0 : Nat → MapOrder := fun _ => ⟨id, fun _ => .refl _⟩
private def ord1 : Nat → MapOrder := fun _ => ⟨List.reverse, fun l => l.reverse_perm⟩

private def usual : List Node :=
  [.elem b!"meta" [] [.elem b!"author" [] [.chars b!"A"], .elem b!"subject" [] [.chars b!"S"]],
   .elem b!"style" [] [.chars b!"a{h-align:left}"],
   .elem b!"body" [] [.elem b!"table" [(b!"class", b!"a"), (b!"style", b!"v-align:top;color:#00ff00"), (b!"repeatheader", b!"1")]
     [.elem b!"tr" [] [.elem b!"td" [(b!"colspan", b!"2"), (b!"rowspan", b!"3")] [.chars b!"Hi"]]]]]

/-- The sections in another order, and another one between them. -/
private def shuffled : List Node :=
  [.elem b!"body" [] [.elem b!"table" [(b!"class", b!"a"), (b!"style", b!"v-align:top;color:#00ff00"), (b!"repeatheader", b!"1")]
     [.elem b!"tr" [] [.elem b!"td" [(b!"colspan", b!"2"), (b!"rowspan", b!"3")] [.chars b!"Hi"]]]],
   .elem b!"history" [] [.elem b!"body" [] []], .chars b!" ",
   .elem b!"style" [] [.chars b!"a{h-align:left}"],
   .elem b!"meta" [] [.other, .elem b!"subject" [] [.chars b!"S"], .elem b!"date" [] [], .elem b!"author" [] [.chars b!"A"]]]

/-- The attributes in another order, too, and others among them. -/
private def shuffled2 : List Node :=
  [.elem b!"body" [(b!"lang", b!"en")] [.elem b!"table" [(b!"repeatheader", b!"1"), (b!"id", b!"t"), (b!"style", b!"v-align:top;color:#00ff00"), (b!"class", b!"a")]
     [.elem b!"tr" [] [.elem b!"td" [(b!"rowspan", b!"3"), (b!"colspan", b!"2"), (b!"width", b!"10")] [.chars b!"Hi"]]]],
   .elem b!"history" [] [.elem b!"body" [] []], .chars b!" ",
   .elem b!"style" [] [.chars b!"a{h-align:left}"],
   .elem b!"meta" [] [.other, .elem b!"subject" [] [.chars b!"S"], .elem b!"date" [] [], .elem b!"author" [] [.chars b!"A"]]]

private theorem usual_shuffled : SameSections usual shuffled := by
  refine ⟨?_, ?_, ?_, ?_⟩ <;> intro name hn <;> simp only [List.mem_cons, List.not_mem_nil, or_false] at hn
  · rcases hn with rfl | rfl | rfl | rfl <;> rfl
  · rcases hn with rfl | rfl | rfl <;> rfl
  · rcases hn with rfl | rfl <;> rfl
  · rcases hn with rfl | rfl | rfl | rfl <;> rfl

private theorem shuffled_twice : DocRestyled SameGiven shuffled shuffled2 :=
  .part (.inr (.inr rfl)) (by decide) (.cons (.elem (by decide) (.cons (.elem (by decide) (.cons (.elem (by decide) (.cons (.chars _) .nil)) .nil)) .nil)) .nil)
    (.same _ (by rintro _ _ _ ⟨⟩; decide) (.same _ (by rintro _ _ _ ⟨⟩) (.sheet _ _ _ _ (.same _ (by rintro _ _ _ ⟨⟩; decide) .nil))))

example (eng : Engine Unit) (n : Nat) :
    loadAndProcess fl0 ord0 ord0 ([] ++ ((Node.elem b!"document" [] usual).toks ++ [])) eng (fun _ _ => ()) (fun w => [w]) id (fun _ => none) n =
    loadAndProcess fl0 ord1 ord1 ([] ++ ((Node.elem b!"document" [] shuffled2).toks ++ [])) eng (fun _ _ => ()) (fun w => [w]) id (fun _ => none) n :=
  C112_same fl0 ord0 ord0 ord1 ord1 rfl rfl [] [] usual_shuffled shuffled_twice rfl _ _ eng _ _ _ _ n

example : ((load fl0 ord0 ord0 ([] ++ ((Node.elem b!"document" [] usual).toks ++ []))).map fun d => (d.info.author, d.body.length)) = some (b!"A", 1) := by
  decide +kernel

/-- Sections with one name cannot change places, and the values of one attribute neither. -/
example : ¬ SameSections [.elem b!"body" [] [.chars b!"a"], .elem b!"body" [] [.chars b!"b"]] [.elem b!"body" [] [.chars b!"b"], .elem b!"body" [] [.chars b!"a"]] :=
  fun h => absurd (h.parts b!"body" (by decide)) (by simp [named, elems])

example : ¬ SameGiven [(b!"colspan", b!"2"), (b!"colspan", b!"3")] [(b!"colspan", b!"3"), (b!"colspan", b!"2")] := by decide

end Verif.Props
