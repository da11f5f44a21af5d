import Verif.Proofs.Rules
import Verif.Props.Restyled
/-
Property C114: how a style sheet is written makes no difference.  Only the rules of each class count, in their order, and of these only the
last ones.
-/
namespace Verif.Props
open Verif.Go Verif.Model Verif.Spec Verif.Proofs

/-- C114: a sheet is correct only if every block has a name and a correct body, that is, if it is a rule; which one is determined. -/
theorem C114_rules {fl : Floats} {bs : List Block} {S : SheetMeaning} (h : Sheet fl (fun _ => none) bs S) :
    (∃ rs, List.Forall₂ (IsRule fl) bs rs) ∧ ∀ b r r', IsRule fl b r → IsRule fl b r' → r = r' :=
  ⟨sheet_rules h, fun _ _ _ => isRule_unique⟩

/-- C114: the meaning of a sheet is that of its rules, class by class: for each class the last rule without selector counts, and behind it the
last one of each selector. -/
theorem C114_meaning {fl : Floats} {bs : List Block} {rs : List SheetRule} (hr : List.Forall₂ (IsRule fl) bs rs) (S : SheetMeaning) :
    Sheet fl (fun _ => none) bs S ↔ ∀ n, ClassMeans (rulesFor n rs) (S n) := by
  rw [sheet_iff hr]
  exact forall_congr' fun n => after_iff

/-- C114: the rules of different classes can be mixed in any way. -/
theorem C114_mixed {fl : Floats} {bs bs' : List Block} {rs rs' : List SheetRule} (hr : List.Forall₂ (IsRule fl) bs rs)
    (hr' : List.Forall₂ (IsRule fl) bs' rs') (h : ∀ n, rulesFor n rs = rulesFor n rs') (S : SheetMeaning) :
    Sheet fl (fun _ => none) bs S ↔ Sheet fl (fun _ => none) bs' S := by
  rw [C114_meaning hr, C114_meaning hr']
  simp only [h]

/-- C114: a rule can be dropped if a rule of the same class without selector follows, and so can all of the class in front of that one. -/
theorem C114_replaced {fl : Floats} {as bs bs' : List Block} {b : Block} {rs : List SheetRule} {r : SheetRule} {S : SheetMeaning}
    (h : Sheet fl (fun _ => none) (as ++ b :: bs) S) (hb : IsRule fl b r) (hs : r.sel = none) (hr : List.Forall₂ (IsRule fl) as rs)
    (hd : List.Forall₂ (IsRule fl) bs' (rs.filter fun x => x.cls ≠ r.cls)) : Sheet fl (fun _ => none) (bs' ++ b :: bs) S := by
  obtain ⟨rs', hrs'⟩ := sheet_rules h
  obtain ⟨ra, rb, h1, h2, rfl⟩ := forall₂_split hrs'
  obtain rfl : ra = rs := by
    clear h hrs' hd
    induction hr generalizing ra with
    | nil => cases h1; rfl
    | cons g _ ih =>
      cases h1 with
      | cons g' g'' => rw [isRule_unique g g', ih _ g'']
  cases h2 with
  | cons g1 g2 =>
    rename_i r' rb
    obtain rfl := isRule_unique hb g1
    have h3 := (sheet_iff hrs').mp h
    refine (sheet_iff (List.rel_append hd (.cons g1 g2))).mpr fun n => ?_
    have h4 := h3 n
    simp only [rulesFor, List.filter_append, List.filter_cons] at h4 ⊢
    by_cases hn : r.cls = n
    · subst hn
      simp only [decide_true, if_true] at h4 ⊢
      have : List.filter (fun x => decide (x.cls = r.cls)) (List.filter (fun x => decide (x.cls ≠ r.cls)) ra) = [] := by
        rw [List.filter_eq_nil_iff]
        intro x hx
        have := (List.mem_filter.mp hx).2
        simpa using this
      rw [this, List.nil_append]
      obtain ⟨C', _, h5⟩ := after_append.mp h4
      cases h5 with
      | plain _ h5 => exact .plain hs h5
      | selector h5 _ => rw [hs] at h5; simp at h5
    · have : List.filter (fun x => decide (x.cls = n)) (List.filter (fun x => decide (x.cls ≠ r.cls)) ra) = List.filter (fun x => decide (x.cls = n)) ra := by
        rw [List.filter_filter]
        refine List.filter_congr fun x _ => ?_
        by_cases hx : x.cls = n
        · have hne : n ≠ r.cls := fun h => hn h.symm
          simp [hx, hne]
        · simp [hx]
      rw [this]
      exact h4

/-- C114: of a rule only the class, the selector and what it sets count, not how it is written. -/
theorem C114_written {fl : Floats} {b b' : Block} {name : Str} (h : Strips b.head name) (h' : Strips b'.head name)
    (hb : ∀ σ, BodySets fl b.body σ ↔ BodySets fl b'.body σ) (r : SheetRule) : IsRule fl b r ↔ IsRule fl b' r := by
  constructor
  · rintro ⟨n, h1, h2, h3, h4⟩
    obtain rfl : name = n := (strips_unique h).symm.trans (strips_unique h1)
    exact ⟨name, h', h2, h3, (hb _).mp h4⟩
  · rintro ⟨n, h1, h2, h3, h4⟩
    obtain rfl : name = n := (strips_unique h').symm.trans (strips_unique h1)
    exact ⟨name, h, h2, h3, (hb _).mpr h4⟩

/-- C114: a sheet text means the same as one with the same rules for each class, and whatever stands behind the last block. -/
theorem C114_text {fl : Floats} {s s' : Str} {bs bs' : List Block} {tail tail' : Str} (hok : ∀ b ∈ bs, b.ok) (hok' : ∀ b ∈ bs', b.ok)
    (hs : flat s = blocksText bs ++ tail) (hs' : flat s' = blocksText bs' ++ tail') (ht : (123 : UInt8) ∉ tail) (ht' : (123 : UInt8) ∉ tail')
    {rs rs' : List SheetRule} (hr : List.Forall₂ (IsRule fl) bs rs) (hr' : List.Forall₂ (IsRule fl) bs' rs') (h : ∀ n, rulesFor n rs = rulesFor n rs')
    (S : SheetMeaning) : SheetText fl s S ↔ SheetText fl s' S := by
  constructor
  · rintro ⟨cs, t, h1, h2, h3, h4⟩
    obtain rfl := blocks_unique hok h1 ht h3 (hs.symm.trans h2)
    exact ⟨bs', tail', hok', hs', ht', (C114_mixed hr hr' h S).mp h4⟩
  · rintro ⟨cs, t, h1, h2, h3, h4⟩
    obtain rfl := blocks_unique hok' h1 ht' h3 (hs'.symm.trans h2)
    exact ⟨bs, tail, hok, hs, ht, (C114_mixed hr hr' h S).mpr h4⟩

/-- C114: a sheet without meaning cannot be read. -/
theorem C114_wrong (fl : Floats) (so : Nat → MapOrder) {s : Str} (h : ∀ S, ¬ SheetText fl s S) : decodeClasses fl so s = none := by
  obtain ⟨bs, hok, ⟨tail, hs, ht⟩ | ⟨head, rest, hs, h1, h2⟩⟩ := C18_forms s
  · cases hd : decodeClasses fl so s with
    | none => rfl
    | some cs =>
      obtain ⟨S, hS, _⟩ := (C18_closed fl so hok hs ht).1 cs hd
      exact absurd ⟨bs, tail, hok, hs, ht, hS⟩ (h S)
  · exact C18_unclosed fl so hok hs h1 h2

private theorem loaded_badSheet {fl : Floats} {o so : Nat → MapOrder} {ns : List Node} (h : decodeClasses fl so (Spec.textOf b!"style" ns) = none) :
    loaded fl o so ns = none := by
  unfold loaded
  simp [h]

private theorem restyled_refl {A : List Attr → List Attr → Prop} (hA : ∀ as, A as as) : (ns : List Node) → RestyledAll A ns ns
  | [] => .nil
  | .elem _ _ kids :: ns => .cons (.elem (hA _) (restyled_refl hA kids)) (restyled_refl hA ns)
  | .chars t :: ns => .cons (.chars t) (restyled_refl hA ns)
  | .other :: ns => .cons .other (restyled_refl hA ns)

private theorem docRestyled_of_same {A : List Attr → List Attr → Prop} (hA : ∀ as, A as as) {ns ns' : List Node} (h : SameButSheet ns ns') :
    DocRestyled A ns ns' := by
  induction h with
  | nil => exact .nil
  | sheet as as' kids kids' _ ih => exact .sheet as as' kids kids' ih
  | same n _ ih =>
    by_cases hn : ∀ name as kids, n = .elem name as kids → name ≠ b!"header" ∧ name ≠ b!"footer" ∧ name ≠ b!"body"
    · exact .same n hn ih
    · push Not at hn
      obtain ⟨name, as, kids, rfl, hn⟩ := hn
      refine .part ?_ (hA as) (restyled_refl hA kids) ih
      by_cases h1 : name = b!"header"
      · exact .inl h1
      · by_cases h2 : name = b!"footer"
        · exact .inr (.inl h2)
        · exact .inr (.inr (hn h1 h2))

/-- C114: two files that are the same but for the style sheets give the same result if the sheets mean the same or are wrong both. -/
theorem C114_same {E : Type} (fl : Floats) (o so o' so' : Nat → MapOrder) {misc misc' : List Tok} (hm : misc.all isMisc = true)
    (hm' : misc'.all isMisc = true) (as as' : List Attr) {kids kids' : List Node} (h : SameButSheet kids kids')
    (hS : ∀ S, SheetText fl (Spec.textOf b!"style" kids) S ↔ SheetText fl (Spec.textOf b!"style" kids') S) (post post' : List Tok)
    (eng : Engine E) (start : Meta → DocPage → E) (hyphenate : Str → List Str) (resolve : Str → Str)
    (images : Str → Option ImageDesc) (n : Nat) :
    loadAndProcess fl o so (misc ++ ((Node.elem b!"document" as kids).toks ++ post)) eng start hyphenate resolve images n =
      loadAndProcess fl o' so' (misc' ++ ((Node.elem b!"document" as' kids').toks ++ post')) eng start hyphenate resolve images n := by
  by_cases hw : ∃ S, SheetText fl (Spec.textOf b!"style" kids) S
  · obtain ⟨S, h1⟩ := hw
    refine C106_same fl o so o' so' hm hm' as as' h1 ((hS S).mp h1) (docRestyled_of_same (fun as => ?_) h) post post' eng start hyphenate resolve images n
    exact C106_attrs (fun _ _ => rfl) rfl (List.forall₂_same.mpr fun _ _ _ => Iff.rfl)
  · unfold loadAndProcess
    rw [C61_exact so misc hm, C61_exact so' misc' hm', loaded_badSheet (C114_wrong fl so fun S h1 => hw ⟨S, h1⟩),
      loaded_badSheet (C114_wrong fl so' fun S h1 => hw ⟨S, (hS S).mpr h1⟩)]

/-! ### An example -/

private def fl0 : Floats := { parseFloat := fun s => (parseInt s).map (fun n => (n : ℚ)), convertFloat := fun s => (parseInt s).map (fun n => (n : ℚ)) }
private def ord0 : Nat → MapOrder := fun _ => ⟨id, fun _ => .refl _⟩
private def ord1 : Nat → MapOrder := fun _ => ⟨List.reverse, fun l => l.reverse_perm⟩

private def body0 : Node :=
  .elem b!"body" [] [.elem b!"text" [(b!"class", b!"a")] [.chars b!"Hi"], .elem b!"p" [(b!"class", b!"b")] [.chars b!"there"]]

private def sheet1 : Str := b!"a{h-align:left}b{v-align:top}a:x{v-align:top}"
private def sheet2 : Str := b!"b {v-align:top}" ++ [10, 9] ++ b!"a{h-align:left} a:x{v-align:top}" ++ [10] ++ b!" end}"

private def blocks1 : List Block := [⟨b!"a", b!"h-align:left"⟩, ⟨b!"b", b!"v-align:top"⟩, ⟨b!"a:x", b!"v-align:top"⟩]
private def blocks2 : List Block := [⟨b!"b ", b!"v-align:top"⟩, ⟨b!"  a", b!"h-align:left"⟩, ⟨b!" a:x", b!"v-align:top"⟩]

private theorem strips_self {t : Str} (h1 : ∀ c, t.head? = some c → ¬ Blank c) (h2 : ∀ c, t.getLast? = some c → ¬ Blank c) : Strips t t :=
  ⟨[], [], by simp, by simp, by simp, h1, h2⟩

private theorem sets_one {v k w : Str} (h : Decls v [(k, w)]) (hk : k ≠ []) (hr : ∀ p : Prp, p.name = k → (p.read fl0 w).isSome) :
    BodySets fl0 v (sets fl0 [(k, w)]) := by
  refine ⟨_, h, fun p x hx => ?_, ?_, rfl⟩
  · simp only [lastValue] at hx
    split at hx
    · rename_i hk
      obtain rfl : w = x := by simpa using hx
      exact hr p hk.symm
    · simp at hx
  · simp [lastValue, hk]

private theorem left_sets : BodySets fl0 b!"h-align:left" (sets fl0 [(b!"h-align", b!"left")]) :=
  sets_one (.last (by decide) (.decl (k := b!"h-align") (v := b!"left") rfl (by decide) (by decide) (strips_self (by simp [Blank]) (by simp [Blank]))
    (strips_self (by simp [Blank]) (by simp [Blank])))) (by decide) (by intro p; cases p <;> decide +kernel)

private theorem top_sets : BodySets fl0 b!"v-align:top" (sets fl0 [(b!"v-align", b!"top")]) :=
  sets_one (.last (by decide) (.decl (k := b!"v-align") (v := b!"top") rfl (by decide) (by decide) (strips_self (by simp [Blank]) (by simp [Blank]))
    (strips_self (by simp [Blank]) (by simp [Blank])))) (by decide) (by intro p; cases p <;> decide +kernel)

private def ruleA : SheetRule := ⟨b!"a", none, sets fl0 [(b!"h-align", b!"left")]⟩
private def ruleB : SheetRule := ⟨b!"b", none, sets fl0 [(b!"v-align", b!"top")]⟩
private def ruleX : SheetRule := ⟨b!"a", some b!"x", sets fl0 [(b!"v-align", b!"top")]⟩

private theorem rules1 : List.Forall₂ (IsRule fl0) blocks1 [ruleA, ruleB, ruleX] :=
  .cons ⟨b!"a", strips_self (by simp [Blank]) (by simp [Blank]), by simp, .plain (by decide), left_sets⟩
    (.cons ⟨b!"b", strips_self (by simp [Blank]) (by simp [Blank]), by simp, .plain (by decide), top_sets⟩
      (.cons ⟨b!"a:x", strips_self (by simp [Blank]) (by simp [Blank]), by simp, .selector (base := b!"a") (sel := b!"x") (by simp) (by decide), top_sets⟩ .nil))

private theorem rules2 : List.Forall₂ (IsRule fl0) blocks2 [ruleB, ruleA, ruleX] :=
  .cons ⟨b!"b", ⟨[], [32], rfl, by simp, by simp [Blank], by simp [Blank], by simp [Blank]⟩, by simp, .plain (by decide), top_sets⟩
    (.cons ⟨b!"a", ⟨[32, 32], [], rfl, by simp [Blank], by simp, by simp [Blank], by simp [Blank]⟩, by simp, .plain (by decide), left_sets⟩
      (.cons ⟨b!"a:x", ⟨[32], [], rfl, by simp [Blank], by simp, by simp [Blank], by simp [Blank]⟩, by simp,
        .selector (base := b!"a") (sel := b!"x") (by simp) (by decide), top_sets⟩ .nil))

private theorem same_rules (n : Str) : rulesFor n [ruleA, ruleB, ruleX] = rulesFor n [ruleB, ruleA, ruleX] := by
  by_cases h : n = b!"a"
  · subst h; simp [rulesFor, ruleA, ruleB, ruleX]
  · have h1 : b!"a" ≠ n := fun e => h e.symm
    simp [rulesFor, List.filter_cons, ruleA, ruleB, ruleX, h1]

private theorem same_text (S : SheetMeaning) : SheetText fl0 sheet1 S ↔ SheetText fl0 sheet2 S :=
  C114_text (bs := blocks1) (bs' := blocks2) (tail := []) (tail' := b!"  end}") (by simp [blocks1, Block.ok]) (by simp [blocks2, Block.ok])
    (by decide +kernel) (by decide +kernel) (by simp) (by decide) rules1 rules2 same_rules S

example (eng : Engine Unit) (n : Nat) :
    loadAndProcess fl0 ord0 ord0 ([] ++ ((Node.elem b!"document" [] [.elem b!"style" [] [.chars sheet1], body0]).toks ++ [])) eng (fun _ _ => ())
        (fun w => [w]) id (fun _ => none) n =
    loadAndProcess fl0 ord1 ord1 ([] ++ ((Node.elem b!"document" [] [.elem b!"style" [] [.chars sheet2], body0]).toks ++ [])) eng (fun _ _ => ())
        (fun w => [w]) id (fun _ => none) n := by
  refine C114_same fl0 ord0 ord0 ord1 ord1 rfl rfl [] [] (.sheet _ _ _ _ (.same _ .nil)) ?_ _ _ eng _ _ _ _ n
  rw [show Spec.textOf b!"style" [.elem b!"style" [] [.chars sheet1], body0] = sheet1 by decide +kernel,
    show Spec.textOf b!"style" [.elem b!"style" [] [.chars sheet2], body0] = sheet2 by decide +kernel]
  exact same_text

/-- They can be loaded. -/
example : (load fl0 ord0 ord0 ([] ++ ((Node.elem b!"document" [] [.elem b!"style" [] [.chars sheet1], body0]).toks ++ []))).isSome = true := by
  decide +kernel

/-- The class a of the example. -/
private theorem means_a : ClassMeans (rulesFor b!"a" [ruleA, ruleB, ruleX])
    (some ⟨ruleA.sets, fun s => if s = b!"x" then some ruleX.sets else none⟩) := by
  refine .inr ⟨ruleA, [ruleX], [], ruleA, [ruleX], _, by simp [rulesFor, ruleA, ruleB, ruleX], rfl, by simp [rulesFor, ruleA, ruleB, ruleX], rfl,
    by simp [ruleX], rfl, rfl, fun s σ => ?_⟩
  constructor
  · intro h
    simp only at h
    split at h
    · rename_i hs
      exact ⟨[], ruleX, [], rfl, by rw [hs]; rfl, by simpa using h, by simp⟩
    · simp at h
  · rintro ⟨u, x, v, h1, h2, h3, _⟩
    obtain rfl : x = ruleX := by
      have : x ∈ [ruleX] := by rw [h1]; simp
      simpa using this
    simp only [ruleX, Option.some.injEq] at h2
    rw [← h3, ← h2]
    rfl

example : ∃ S, Sheet fl0 (fun _ => none) blocks1 S ∧ S b!"a" = some ⟨ruleA.sets, fun s => if s = b!"x" then some ruleX.sets else none⟩ ∧
    S b!"c" = none := by
  refine ⟨fun n => if n = b!"a" then some ⟨ruleA.sets, fun s => if s = b!"x" then some ruleX.sets else none⟩ else
    if n = b!"b" then some ⟨ruleB.sets, fun _ => none⟩ else none, (C114_meaning rules1 _).mpr fun n => ?_, rfl, rfl⟩
  by_cases h : n = b!"a"
  · subst h; exact means_a
  · by_cases h' : n = b!"b"
    · subst h'
      exact .inr ⟨ruleB, [], [], ruleB, [], _, by simp [rulesFor, ruleA, ruleB, ruleX], rfl, by simp [rulesFor, ruleA, ruleB, ruleX], rfl, by simp, rfl, rfl,
        by simp⟩
    · have h1 : b!"a" ≠ n := fun e => h e.symm
      have h2 : b!"b" ≠ n := fun e => h' e.symm
      simp only [h, h', if_false]
      exact .inl ⟨by simp [rulesFor, ruleA, ruleB, ruleX, h1, h2], rfl⟩

/-- A rule of a that is replaced later, with its selector; only the rule of b in front of the last one of a has to stay. -/
example : ∃ S, Sheet fl0 (fun _ => none) ([⟨b!"a", b!"v-align:top"⟩, ⟨b!"b", b!"v-align:top"⟩, ⟨b!"a:x", b!"v-align:top"⟩] ++
      ⟨b!"a", b!"h-align:left"⟩ :: [⟨b!"b:y", b!"h-align:left"⟩]) S ∧
    Sheet fl0 (fun _ => none) ([⟨b!"b", b!"v-align:top"⟩] ++ ⟨b!"a", b!"h-align:left"⟩ :: [⟨b!"b:y", b!"h-align:left"⟩]) S := by
  have h : Sheet fl0 (fun _ => none) ([⟨b!"a", b!"v-align:top"⟩, ⟨b!"b", b!"v-align:top"⟩, ⟨b!"a:x", b!"v-align:top"⟩] ++
      ⟨b!"a", b!"h-align:left"⟩ :: [⟨b!"b:y", b!"h-align:left"⟩]) _ :=
    .cons (strips_self (by simp [Blank]) (by simp [Blank])) (by simp) top_sets (.plain (by decide))
    (.cons (strips_self (by simp [Blank]) (by simp [Blank])) (by simp) top_sets (.plain (by decide))
    (.cons (strips_self (by simp [Blank]) (by simp [Blank])) (by simp) top_sets (.selector (base := b!"a") (sel := b!"x") (by simp) (by decide) rfl)
    (.cons (strips_self (by simp [Blank]) (by simp [Blank])) (by simp) left_sets (.plain (by decide))
    (.cons (strips_self (by simp [Blank]) (by simp [Blank])) (by simp) left_sets (.selector (base := b!"b") (sel := b!"y") (by simp) (by decide) rfl) .nil))))
  refine ⟨_, h, C114_replaced (r := ruleA) h ?_ rfl
    (rs := [⟨b!"a", none, ruleB.sets⟩, ruleB, ruleX]) (.cons ?_ (.cons ?_ (.cons ?_ .nil))) ?_⟩
  · exact ⟨b!"a", strips_self (by simp [Blank]) (by simp [Blank]), by simp, .plain (by decide), left_sets⟩
  · exact ⟨b!"a", strips_self (by simp [Blank]) (by simp [Blank]), by simp, .plain (by decide), top_sets⟩
  · exact ⟨b!"b", strips_self (by simp [Blank]) (by simp [Blank]), by simp, .plain (by decide), top_sets⟩
  · exact ⟨b!"a:x", strips_self (by simp [Blank]) (by simp [Blank]), by simp, .selector (base := b!"a") (sel := b!"x") (by simp) (by decide), top_sets⟩
  · have : List.filter (fun x : SheetRule => decide (x.cls ≠ ruleA.cls)) [⟨b!"a", none, ruleB.sets⟩, ruleB, ruleX] = [ruleB] := by
      simp [ruleA, ruleB, ruleX]
    rw [this]
    exact .cons ⟨b!"b", strips_self (by simp [Blank]) (by simp [Blank]), by simp, .plain (by decide), top_sets⟩ .nil

/-- A sheet with a selector of a class that does not exist is wrong. -/
example : decodeClasses fl0 ord0 b!"b:x{v-align:top}" = none := by
  refine C114_wrong fl0 ord0 fun S hS => ?_
  obtain ⟨bs, tail, h1, h2, h3, h4⟩ := hS
  have hb := blocks_unique (bs := [⟨b!"b:x", b!"v-align:top"⟩]) (tail := []) (by simp [Block.ok]) h1 (by simp) h3 (by rw [← h2]; decide +kernel)
  subst hb
  have hr : List.Forall₂ (IsRule fl0) [⟨b!"b:x", b!"v-align:top"⟩] [⟨b!"b", some b!"x", ruleB.sets⟩] :=
    .cons ⟨b!"b:x", strips_self (by simp [Blank]) (by simp [Blank]), by simp, .selector (base := b!"b") (sel := b!"x") (by simp) (by decide), top_sets⟩ .nil
  have := (C114_meaning hr S).mp h4 b!"b"
  simp [ClassMeans, rulesFor] at this

end Verif.Props
