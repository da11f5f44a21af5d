import Verif.Spec.Restyled
import Verif.Proofs.Alike
import Verif.Proofs.AlikeLoad
import Verif.Proofs.LoadExact
import Verif.Proofs.Spacing
/-
Files that are the same but for styles with the same effect give documents that look the same.
-/
namespace Verif.Proofs
open Verif.Go Verif.Model Verif.Spec

section
variable {fl : Floats} {ord : Nat → MapOrder} {cs cs' : Classes}

/-! ### Attributes -/

theorem given_cons (k n v : Str) (as : List Attr) : given k ((n, v) :: as) = if n = k then v :: given k as else given k as := by
  simp only [given, List.filter_cons, decide_eq_true_eq]
  split <;> rfl

/-- The last of the values, all of which must be correct. -/
def lastRead {α : Type} (read : Str → Option α) : List Str → α → Option α
  | [], x => some x
  | v :: vs, _ => match read v with
    | none => none
    | some y => lastRead read vs y

theorem floatAttr_given (name : Str) : ∀ (as : List Attr) (x : ℚ), floatAttr fl name as x = lastRead (floatValue fl) (given name as) x
  | [], _ => rfl
  | (n, v) :: as, x => by
    rw [given_cons, floatAttr]
    split
    · rw [lastRead]
      cases floatValue fl v with
      | none => rfl
      | some y => exact floatAttr_given name as y
    · exact floatAttr_given name as x

theorem tableAttrs_given : ∀ (as : List Attr) (x : Int), tableAttrs as x =
    lastRead (fun v => (parseInt v).bind fun n => if n < 0 ∨ n > 10 then none else some n) (given b!"repeatheader" as) x
  | [], _ => rfl
  | (n, v) :: as, x => by
    rw [given_cons, tableAttrs]
    split
    · rw [lastRead]
      cases parseInt v with
      | none => rfl
      | some m =>
        simp only [Option.bind_some]
        split
        · rfl
        · exact tableAttrs_given as _
    · exact tableAttrs_given as x

theorem cellAttrs_given : ∀ (as : List Attr) (x y : Int), cellAttrs as x y =
    (lastRead parseInt (given b!"colspan" as) x).bind fun c => (lastRead parseInt (given b!"rowspan" as) y).map fun r => (c, r)
  | [], _, _ => rfl
  | (n, v) :: as, x, y => by
    rw [given_cons, given_cons, cellAttrs]
    by_cases h1 : n = b!"colspan"
    · have h2 : n ≠ b!"rowspan" := by rw [h1]; decide
      rw [if_pos h1, if_pos h1, if_neg h2, lastRead]
      cases parseInt v with
      | none => rfl
      | some m => exact cellAttrs_given as _ _
    · rw [if_neg h1, if_neg h1]
      by_cases h2 : n = b!"rowspan"
      · rw [if_pos h2, if_pos h2, lastRead]
        cases parseInt v with
        | none => cases lastRead parseInt (given b!"colspan" as) x <;> rfl
        | some m => exact cellAttrs_given as _ _
      · rw [if_neg h2, if_neg h2]
        exact cellAttrs_given as x y

theorem area_given : ∀ (as : List Attr) (x : Str),
    as.foldl (fun acc a => if a.1 = b!"area" then a.2 else acc) x = (given b!"area" as).getLastD x
  | [], _ => rfl
  | (n, v) :: as, x => by
    rw [given_cons, List.foldl_cons, area_given as]
    by_cases h : n = b!"area"
    · simp only [h, if_true, List.getLastD_cons]
    · simp only [h, if_false]

/-- Styles with the same effect, on both sides or on none. -/
theorem _root_.Verif.Spec.SameLooks.styled {as as' : List Attr} (h : SameLooks fl ord cs cs' as as') :
    OptLike (SameEffect cs cs') (newStyled fl ord as) (newStyled fl ord as') := by
  rcases h.2 with ⟨h1, h2⟩ | ⟨st, st', h1, h2, h3⟩
  · rw [h1, h2]; trivial
  · rw [h1, h2]; exact h3

theorem _root_.Verif.Spec.SameLooks.float {as as' : List Attr} (h : SameLooks fl ord cs cs' as as') {name : Str} (hn : name ∈ plainNames) :
    floatAttr fl name as 0 = floatAttr fl name as' 0 := by
  rw [floatAttr_given, floatAttr_given, h.1 name hn]

theorem _root_.Verif.Spec.SameLooks.table {as as' : List Attr} (h : SameLooks fl ord cs cs' as as') :
    OptLike (fun x y => x.1 = y.1 ∧ SameEffect cs cs' x.2 y.2) (tableDecodeAttrs fl ord as) (tableDecodeAttrs fl ord as') := by
  unfold tableDecodeAttrs
  rw [tableAttrs_given, tableAttrs_given, h.1 b!"repeatheader" (by decide), ← tableAttrs_given]
  cases tableAttrs as' 0 with
  | none => trivial
  | some rh => exact optLike_mapped h.styled fun _ _ h => ⟨rfl, h⟩

theorem _root_.Verif.Spec.SameLooks.cell {as as' : List Attr} (h : SameLooks fl ord cs cs' as as') :
    OptLike (fun x y => x.1 = y.1 ∧ x.2.1 = y.2.1 ∧ SameEffect cs cs' x.2.2 y.2.2) (cellDecodeAttrs fl ord as) (cellDecodeAttrs fl ord as') := by
  unfold cellDecodeAttrs
  rw [cellAttrs_given, cellAttrs_given, h.1 b!"colspan" (by decide), h.1 b!"rowspan" (by decide), ← cellAttrs_given]
  cases cellAttrs as' 0 0 with
  | none => trivial
  | some rh => exact optLike_mapped h.styled fun _ _ h => ⟨rfl, rfl, h⟩

theorem _root_.Verif.Spec.SameLooks.part {as as' : List Attr} (h : SameLooks fl ord cs cs' as as') :
    OptLike (fun x y => x.1 = y.1 ∧ SameEffect cs cs' x.2 y.2) (partDecodeAttrs fl ord as) (partDecodeAttrs fl ord as') := by
  unfold partDecodeAttrs
  rw [area_given, area_given, h.1 b!"area" (by decide)]
  exact optLike_mapped h.styled fun _ _ h => ⟨rfl, h⟩

/-! ### Trees -/

/-- What becomes of two elements looks the same. -/
def OutLike (R : StyledKind → Styled → Styled → Prop) : Outcome → Outcome → Prop
  | .ok i, .ok i' => Alike R Eq i i'
  | .dropped, .dropped => True
  | .opened, .opened => True
  | .fatal, .fatal => True
  | _, _ => False

theorem outLike_of {R : StyledKind → Styled → Styled → Prop} {α : Type} {P : α → α → Prop} {x y : Option α} (h : OptLike P x y) {f g : α → Instr}
    (hfg : ∀ a b, P a b → Alike R Eq (f a) (g b)) : OutLike R (.of (x.map f)) (.of (y.map g)) := by
  cases x <;> cases y <;> first | exact h.elim | trivial | exact hfg _ _ h

/-- What is related about the contents of two elements. -/
structure ReadLike (fl : Floats) (ord : Nat → MapOrder) (cs cs' : Classes) (kids kids' : List Node) : Prop where
  strict : ∀ texts, OptLike (AlikeAll (fun _ => SameEffect cs cs') Eq) (strictly fl ord texts kids) (strictly fl ord texts kids')
  lenient : ∀ texts, OptLike (AlikeAll (fun _ => SameEffect cs cs') Eq) (leniently fl ord texts kids) (leniently fl ord texts kids')
  direct : directText kids = directText kids'
  last : lastTextAll kids = lastTextAll kids'
  rows : hasAny b!"gr" kids = hasAny b!"gr" kids'

theorem outcome_restyled {name : Str} {as as' : List Attr} {kids kids' : List Node} (ha : SameLooks fl ord cs cs' as as')
    (ih : ReadLike fl ord cs cs' kids kids') :
    OutLike (fun _ => SameEffect cs cs') (outcome fl ord (.elem name as kids)) (outcome fl ord (.elem name as' kids')) := by
  by_cases hn : name ∈ instructionNames
  · simp only [instructionNames, List.mem_cons, List.not_mem_nil, or_false] at hn
    rcases hn with rfl | rfl | rfl | rfl | rfl | rfl | rfl | rfl | rfl | rfl | rfl | rfl | rfl | rfl | rfl | rfl
    · rw [out_font, out_font]; exact outLike_of ha.styled fun _ _ h => .font h
    · rw [out_box, out_box]
      have h := ih.strict true
      have h' := ha.styled
      revert h h'
      cases strictly fl ord true kids <;> cases strictly fl ord true kids' <;> intro h <;> cases newStyled fl ord as <;> cases newStyled fl ord as' <;>
        intro h' <;> first | exact h.elim | exact h'.elim | trivial | exact .box h' h
    · rw [out_text, out_text]
      have h := ih.strict true
      have h' := ha.styled
      revert h h'
      cases strictly fl ord true kids <;> cases strictly fl ord true kids' <;> intro h <;> cases newStyled fl ord as <;> cases newStyled fl ord as' <;>
        intro h' <;> first | exact h.elim | exact h'.elim | trivial | exact .text h' h
    · rw [out_lf, out_lf, ha.float (by decide)]
      cases floatAttr fl b!"lines" as' 0 <;> first | trivial | exact .lineFeed _
    · rw [out_setx, out_setx, ha.float (by decide)]
      cases floatAttr fl b!"x" as' 0 <;> first | trivial | exact .setX _
    · rw [out_sety, out_sety, ha.float (by decide)]
      cases floatAttr fl b!"y" as' 0 <;> first | trivial | exact .setY _
    · rw [out_image, out_image, ih.direct]; exact outLike_of ha.styled fun _ _ h => .image _ h
    · rw [out_table, out_table]
      have h := ih.strict false
      revert h
      cases strictly fl ord false kids <;> cases strictly fl ord false kids' <;> intro h <;>
        first | exact h.elim | trivial | exact outLike_of ha.table fun a b hab => by rw [hab.1]; exact .table _ hab.2 (rowsOf_like h)
    · rw [out_tr, out_tr]
      have h := ih.strict false
      revert h
      cases strictly fl ord false kids <;> cases strictly fl ord false kids' <;> intro h <;>
        first | exact h.elim | trivial | exact outLike_of ha.styled fun a b hab => .tableRow (.mk hab (cellsOf_like h))
    · rw [out_td, out_td]
      have h := ih.lenient true
      revert h
      cases leniently fl ord true kids <;> cases leniently fl ord true kids' <;> intro h <;>
        first | exact h.elim | trivial | exact outLike_of ha.cell fun a b hab => by rw [hab.1, hab.2.1]; exact .tableCell (.mk _ _ hab.2.2 h)
    · rw [out_grid, out_grid]
      have h := ih.lenient false
      revert h
      cases leniently fl ord false kids <;> cases leniently fl ord false kids' <;> intro h
      · trivial
      · exact h.elim
      · exact h.elim
      · have hr := gridRowsOf_like h
        have hp := partsOf_like h
        simp only [gridRows_areas (R := fun _ => SameEffect cs cs') hr, parts_areas hp]
        split
        · exact outLike_of ha.styled fun _ _ hab => .grid hab hr hp
        · trivial
    · rw [out_gr, out_gr, ih.last, ih.rows]
      split
      · trivial
      · exact outLike_of ha.styled fun _ _ hab => .gridRow _ hab
    · rw [out_part, out_part]
      have h := ih.lenient false
      revert h
      cases leniently fl ord false kids <;> cases leniently fl ord false kids' <;> intro h <;>
        first | exact h.elim | trivial | exact outLike_of ha.part fun a b hab => by rw [hab.1]; exact .gridPart (.mk _ hab.2 h)
    · rw [out_p, out_p, ih.direct]; exact outLike_of ha.styled fun _ _ h => .paragraph h rfl
    · rw [out_br, out_br]; exact Alike.lineBreak
    · rw [out_newpage, out_newpage]; exact Alike.pageBreak
  · rw [out_unknown hn, out_unknown hn]; trivial

mutual
theorem restyled_last : ∀ {n n' : Node}, Restyled (SameLooks fl ord cs cs') n n' → n.lastText = n'.lastText
  | _, _, .elem _ hk => by rw [Node.lastText, Node.lastText, restyledAll_last hk]
  | _, _, .chars t => rfl
  | _, _, .other => rfl
theorem restyledAll_last : ∀ {ns ns' : List Node}, RestyledAll (SameLooks fl ord cs cs') ns ns' → lastTextAll ns = lastTextAll ns'
  | _, _, .nil => rfl
  | _, _, .cons h hr => by rw [lastTextAll, lastTextAll, restyled_last h, restyledAll_last hr]
end

mutual
theorem restyled_has (name : Str) : ∀ {n n' : Node}, Restyled (SameLooks fl ord cs cs') n n' → n.has name = n'.has name
  | _, _, .elem _ hk => by rw [Node.has, Node.has, restyledAll_has name hk]
  | _, _, .chars t => rfl
  | _, _, .other => rfl
theorem restyledAll_has (name : Str) : ∀ {ns ns' : List Node}, RestyledAll (SameLooks fl ord cs cs') ns ns' → hasAny name ns = hasAny name ns'
  | _, _, .nil => rfl
  | _, _, .cons h hr => by rw [hasAny, hasAny, restyled_has name h, restyledAll_has name hr]
end

theorem restyledAll_direct : ∀ {ns ns' : List Node}, RestyledAll (SameLooks fl ord cs cs') ns ns' → directText ns = directText ns'
  | _, _, .nil => rfl
  | _, _, .cons h hr => by
    cases h with
    | elem => simp only [directText]; exact restyledAll_direct hr
    | chars => rw [directText, directText, restyledAll_direct hr]
    | other => simp only [directText]; exact restyledAll_direct hr

/-- An element with its successors, for the lists of instructions. -/
theorem readLike_elem {name : Str} {as as' : List Attr} {kids kids' ns ns' : List Node}
    (ho : OutLike (fun _ => SameEffect cs cs') (outcome fl ord (.elem name as kids)) (outcome fl ord (.elem name as' kids')))
    (hk : ReadLike fl ord cs cs' kids kids') (ih : ReadLike fl ord cs cs' ns ns') :
    (∀ texts, OptLike (AlikeAll (fun _ => SameEffect cs cs') Eq) (strictly fl ord texts (.elem name as kids :: ns))
      (strictly fl ord texts (.elem name as' kids' :: ns'))) ∧
    ∀ texts, OptLike (AlikeAll (fun _ => SameEffect cs cs') Eq) (leniently fl ord texts (.elem name as kids :: ns))
      (leniently fl ord texts (.elem name as' kids' :: ns')) := by
  refine ⟨fun texts => ?_, fun texts => ?_⟩
  · rw [strictly, strictly]
    revert ho
    cases outcome fl ord (.elem name as kids) <;> cases outcome fl ord (.elem name as' kids') <;> intro ho <;>
      first | exact ho.elim | trivial | exact optLike_mapped (ih.strict texts) fun _ _ h => .cons ho h
  · rw [leniently, leniently]
    revert ho
    cases outcome fl ord (.elem name as kids) <;> cases outcome fl ord (.elem name as' kids') <;> intro ho
    case opened.opened =>
      have := hk.lenient texts
      revert this
      cases leniently fl ord texts kids <;> cases leniently fl ord texts kids' <;> intro h
      · trivial
      · exact h.elim
      · exact h.elim
      · exact optLike_mapped (ih.lenient texts) fun _ _ h' => alikeAll_append h h'
    all_goals first | exact ho.elim | trivial | exact ih.lenient texts | exact optLike_mapped (ih.lenient texts) fun _ _ h => .cons ho h

theorem restyledAll_read : ∀ {ns ns' : List Node}, RestyledAll (SameLooks fl ord cs cs') ns ns' → ReadLike fl ord cs cs' ns ns'
  | _, _, .nil => ⟨fun _ => by rw [strictly]; exact AlikeAll.nil, fun _ => by rw [leniently]; exact AlikeAll.nil, rfl, rfl, rfl⟩
  | _, _, .cons (.elem (name := name) ha hk) hr => by
    have ihk := restyledAll_read hk
    have ih := restyledAll_read hr
    have h := readLike_elem (name := name) (outcome_restyled ha ihk) ihk ih
    exact ⟨h.1, h.2, restyledAll_direct (.cons (.elem ha hk) hr), restyledAll_last (.cons (.elem ha hk) hr), restyledAll_has _ (.cons (.elem ha hk) hr)⟩
  | _, _, .cons (.chars t) hr => by
    have ih := restyledAll_read hr
    refine ⟨fun texts => ?_, fun texts => ?_, restyledAll_direct (.cons (.chars t) hr), restyledAll_last (.cons (.chars t) hr), restyledAll_has _ (.cons (.chars t) hr)⟩
    · rw [strictly, strictly]
      refine optLike_mapped (ih.strict texts) fun a b h => ?_
      split
      · exact .cons (.textBlock rfl) h
      · exact h
    · rw [leniently, leniently]
      refine optLike_mapped (ih.lenient texts) fun a b h => ?_
      split
      · exact .cons (.textBlock rfl) h
      · exact h
  | _, _, .cons .other hr => by
    have ih := restyledAll_read hr
    refine ⟨fun texts => ?_, fun texts => ?_, restyledAll_direct (.cons .other hr), restyledAll_last (.cons .other hr), restyledAll_has _ (.cons .other hr)⟩
    · rw [strictly, strictly]; exact ih.strict texts
    · rw [leniently, leniently]; exact ih.lenient texts

/-! ### Documents -/

theorem docRestyled_part (name : Str) {ns ns' : List Node} (h : DocRestyled (SameLooks fl ord cs cs') ns ns')
    (hn : name = b!"header" ∨ name = b!"footer" ∨ name = b!"body") :
    OptLike (AlikeAll (fun _ => SameEffect cs cs') Eq) (section_ fl ord name ns) (section_ fl ord name ns') := by
  unfold section_
  induction h with
  | nil => exact AlikeAll.nil
  | same n hs _ ih =>
    cases n with
    | elem nm as kids =>
      have hne : nm ≠ name := by
        rintro rfl
        obtain ⟨h1, h2, h3⟩ := hs _ _ _ rfl
        rcases hn with h | h | h <;> contradiction
      simpa only [elems, List.filter_cons, hne, decide_false, Bool.false_eq_true, if_false] using ih
    | _ => exact ih
  | sheet as as' kids kids' _ ih =>
    have hne : b!"style" ≠ name := by
      rintro rfl
      exact absurd hn (by decide)
    simpa only [elems, List.filter_cons, hne, decide_false, Bool.false_eq_true, if_false] using ih
  | @part nm as as' kids kids' ns ns' _ ha hk _ ih =>
    by_cases hne : nm = name
    · simp only [elems, List.filter_cons, hne, decide_true, if_true, List.mapM_cons]
      have hc : OptLike (AlikeAll (fun _ => SameEffect cs cs') Eq) (contents fl ord as kids) (contents fl ord as' kids') := by
        unfold contents
        have h1 := ha.styled
        revert h1
        cases newStyled fl ord as <;> cases newStyled fl ord as' <;> intro h1
        · trivial
        · exact h1.elim
        · exact h1.elim
        · exact (restyledAll_read hk).strict true
      revert hc ih
      cases contents fl ord as kids <;> cases contents fl ord as' kids' <;>
        cases ((elems ns).filter (·.1 = name)).mapM (fun e => contents fl ord e.2.1 e.2.2) <;>
        cases ((elems ns').filter (·.1 = name)).mapM (fun e => contents fl ord e.2.1 e.2.2) <;> intro ih h <;>
        first | exact h.elim | exact ih.elim | trivial | exact alikeAll_append h ih
    · simpa only [elems, List.filter_cons, hne, decide_false, Bool.false_eq_true, if_false] using ih

theorem docRestyled_other {A : List Attr → List Attr → Prop} {name : Str}
    (hn : name ≠ b!"header" ∧ name ≠ b!"footer" ∧ name ≠ b!"body" ∧ name ≠ b!"style")
    {ns ns' : List Node} (h : DocRestyled A ns ns') : inside name ns = inside name ns' := by
  unfold inside
  induction h with
  | nil => rfl
  | same n hs _ ih =>
    cases n with
    | elem nm as kids =>
      simp only [elems, List.filter_cons]
      split
      · simp only [List.flatMap_cons, ih]
      · exact ih
    | _ => exact ih
  | sheet as as' kids kids' _ ih =>
    have hne : b!"style" ≠ name := fun h => hn.2.2.2 h.symm
    simpa only [elems, List.filter_cons, hne, decide_false, Bool.false_eq_true, if_false] using ih
  | @part nm as as' kids kids' ns ns' hp _ _ _ ih =>
    have hne : nm ≠ name := by
      rintro rfl
      rcases hp with h | h | h <;> simp_all
    simpa only [elems, List.filter_cons, hne, decide_false, Bool.false_eq_true, if_false] using ih

theorem loaded_restyled {so : Nat → MapOrder} {ns ns' : List Node} (hc : decodeClasses fl so (Spec.textOf b!"style" ns) = some cs)
    (hc' : decodeClasses fl so (Spec.textOf b!"style" ns') = some cs') (h : DocRestyled (SameLooks fl ord cs cs') ns ns') :
    OptLike LookAlike (loaded fl ord so ns) (loaded fl ord so ns') := by
  have hm := docRestyled_other (name := b!"meta") (by decide) h
  have hp := docRestyled_other (name := b!"page") (by decide) h
  have h1 := docRestyled_part b!"header" h (by decide)
  have h2 := docRestyled_part b!"footer" h (by decide)
  have h3 := docRestyled_part b!"body" h (by decide)
  unfold loaded
  simp only [hm, hp, hc, hc']
  cases numberOf fl b!"left" (inside b!"margins" (inside b!"page" ns')) with
  | none => trivial
  | some l =>
  cases numberOf fl b!"top" (inside b!"margins" (inside b!"page" ns')) with
  | none => trivial
  | some t =>
  cases numberOf fl b!"right" (inside b!"margins" (inside b!"page" ns')) with
  | none => trivial
  | some r =>
  cases numberOf fl b!"bottom" (inside b!"margins" (inside b!"page" ns')) with
  | none => trivial
  | some bo =>
  revert h1 h2 h3
  cases section_ fl ord b!"header" ns <;> cases section_ fl ord b!"header" ns' <;> intro h1
  · intros; trivial
  · exact h1.elim
  · exact h1.elim
  cases section_ fl ord b!"footer" ns <;> cases section_ fl ord b!"footer" ns' <;> intro h2
  · intros; trivial
  · exact h2.elim
  · exact h2.elim
  cases section_ fl ord b!"body" ns <;> cases section_ fl ord b!"body" ns' <;> intro h3
  · trivial
  · exact h3.elim
  · exact h3.elim
  exact ⟨rfl, rfl, h1, h2, h3⟩

end

end Verif.Proofs
