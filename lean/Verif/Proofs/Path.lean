import Verif.Model.Paths
import Verif.Spec.Path
import Verif.Proofs.Load
/- Lemmas about paths. -/
namespace Verif.Proofs
open Verif.Go Verif.Model Verif.Spec

theorem split_append {sep : UInt8} (a b : Str) : split sep (a ++ sep :: b) = split sep a ++ split sep b := by
  have h : split sep (join (split sep a ++ split sep b) [sep]) = split sep a ++ split sep b :=
    split_join _ (by simp [split_ne_nil]) (by
      intro l hl
      rcases List.mem_append.mp hl with hl | hl
      · exact split_pieces_no_sep a l hl
      · exact split_pieces_no_sep b l hl)
  have hj : ∀ as bs : List Str, as ≠ [] → bs ≠ [] → join (as ++ bs) [sep] = join as [sep] ++ sep :: join bs [sep] := by
    intro as
    induction as with
    | nil => intro _ h; exact absurd rfl h
    | cons x as ih =>
      intro bs _ hb
      cases as with
      | nil =>
        cases bs with
        | nil => exact absurd rfl hb
        | cons y bs => simp [join]
      | cons y as =>
        have := ih bs (by simp) hb
        simp only [List.cons_append] at this
        simp only [List.cons_append, join, this, List.append_assoc]
  rw [hj _ _ (split_ne_nil _ _) (split_ne_nil _ _), join_split, join_split] at h
  exact h

theorem elements_iff {es : List Str} {p : Str} : Elements es p ↔ es = split 47 p := by
  constructor
  · intro h
    induction h with
    | one h => exact (split_line _ h).symm
    | cons h _ ih => rw [split_append_sep _ _ h, ih]
  · rintro rfl
    have key : ∀ es : List Str, es ≠ [] → (∀ l ∈ es, 47 ∉ l) → Elements es (join es [47]) := by
      intro es
      induction es with
      | nil => intro h; exact absurd rfl h
      | cons e es ih =>
        intro _ h
        cases es with
        | nil => exact .one (h e (by simp))
        | cons f es =>
          simp only [join, List.append_assoc, List.singleton_append]
          exact .cons (h e (by simp)) (ih (by simp) fun l hl => h l (by simp at hl ⊢; right; exact hl))
    have := key (split 47 p) (split_ne_nil _ _) (split_pieces_no_sep p)
    rwa [join_split] at this

/-- Cleaned elements, the last one first. -/
inductive Norm (rooted : Bool) : List Str → Prop
  | nil : Norm rooted []
  | named {e st} : Named e → Norm rooted st → Norm rooted (e :: st)
  | up {st} : rooted = false → (∀ x ∈ st, x = b!"..") → Norm rooted st → Norm rooted (b!".." :: st)

theorem cleanStep_norm {rooted : Bool} {st : List Str} {e : Str} (h : Norm rooted st) (he : 47 ∉ e) : Norm rooted (cleanStep rooted st e) := by
  unfold cleanStep
  split
  · exact h
  · rename_i h1
    simp only [not_or] at h1
    split
    · rename_i h2
      subst h2
      cases st with
      | nil =>
        simp only
        split
        · exact .nil
        · rename_i hr
          exact .up (by simpa using hr) (by simp) .nil
      | cons t st =>
        simp only
        split
        · rename_i ht
          subst ht
          cases h with
          | named hn _ => exact absurd rfl hn.2.2.1
          | up hr hall hst => exact .up hr (by simpa using hall) (.up hr hall hst)
        · cases h with
          | named _ hst => exact hst
          | up _ _ hst => exact hst
    · rename_i h2
      exact .named ⟨h1.1, h1.2, h2, he⟩ h

theorem fold_norm {rooted : Bool} : ∀ {es : List Str} {st : List Str}, Norm rooted st → (∀ e ∈ es, 47 ∉ e) →
    Norm rooted (es.foldl (cleanStep rooted) st)
  | [], _, h, _ => h
  | e :: es, _, h, he => fold_norm (es := es) (cleanStep_norm h (he e (by simp))) fun x hx => he x (by simp [hx])

/-- Cleaning again changes nothing. -/
theorem fold_again {rooted : Bool} : ∀ {st : List Str}, Norm rooted st → st.reverse.foldl (cleanStep rooted) [] = st := by
  intro st h
  induction h with
  | nil => rfl
  | @named e st hn _ ih =>
    rw [List.reverse_cons, List.foldl_append, ih]
    simp [cleanStep, hn.1, hn.2.1, hn.2.2.1]
  | @up st hr hall _ ih =>
    rw [List.reverse_cons, List.foldl_append, ih]
    cases st with
    | nil => simp [cleanStep, hr]
    | cons t st => simp [cleanStep, hall t (by simp)]

theorem norm_no_slash {rooted : Bool} {st : List Str} (h : Norm rooted st) : ∀ e ∈ st, 47 ∉ e ∧ e ≠ [] := by
  induction h with
  | nil => simp
  | named hn _ ih =>
    intro e he
    rcases List.mem_cons.mp he with rfl | he
    · exact ⟨hn.2.2.2, hn.1⟩
    · exact ih e he
  | up _ _ _ ih =>
    intro e he
    rcases List.mem_cons.mp he with rfl | he
    · decide
    · exact ih e he

theorem norm_rooted {st : List Str} (h : Norm true st) : ∀ e ∈ st, Named e := by
  induction h with
  | nil => simp
  | named hn _ ih =>
    intro e he
    rcases List.mem_cons.mp he with rfl | he
    · exact hn
    · exact ih e he
  | up hr _ _ _ => exact absurd hr (by simp)

theorem fold_walk : ∀ {es st : List Str}, Norm true st → (∀ e ∈ es, 47 ∉ e) → (es.foldl (cleanStep true) st).reverse = walk st.reverse es
  | [], _, _, _ => rfl
  | e :: es, st, h, he => by
    have hstep := cleanStep_norm h (he e (by simp))
    rw [List.foldl_cons, fold_walk hstep fun x hx => he x (by simp [hx]), walk]
    unfold cleanStep
    split
    · rfl
    · split
      · cases st with
        | nil => rfl
        | cons t st =>
          have ht : t ≠ b!".." := (norm_rooted h t (by simp)).2.2.1
          simp [ht]
      · simp

theorem norm_of_named {st : List Str} (h : ∀ e ∈ st, Named e) : Norm true st := by
  induction st with
  | nil => exact .nil
  | cons e st ih => exact .named (h e (by simp)) (ih fun x hx => h x (by simp [hx]))

theorem walk_named {dir es : List Str} (h : ∀ e ∈ dir, Named e) (he : ∀ e ∈ es, 47 ∉ e) : ∀ e ∈ walk dir es, Named e := by
  have h1 : Norm true dir.reverse := norm_of_named (by simpa using h)
  have := fold_walk h1 he
  rw [List.reverse_reverse] at this
  rw [← this]
  intro e h2
  exact norm_rooted (fold_norm h1 he) e (List.mem_reverse.mp h2)

theorem trail_append : ∀ (es dir fs : List Str), walk dir (es ++ fs) = walk (walk dir es) fs
  | [], _, _ => rfl
  | e :: es, dir, fs => by
    rw [List.cons_append, walk, walk]
    split
    · exact trail_append es dir fs
    · split
      · exact trail_append es _ fs
      · exact trail_append es _ fs

theorem walk_self : ∀ {es dir : List Str}, (∀ e ∈ es, Named e) → walk dir es = dir ++ es
  | [], _, _ => by simp [walk]
  | e :: es, dir, h => by
    have he := h e (by simp)
    rw [walk, if_neg (by simp [he.1, he.2.1]), if_neg he.2.2.1, walk_self fun x hx => h x (by simp [hx])]
    simp

theorem clean_rooted {p : Str} (h : isAbs p = true) : clean p = placeOf (walk [] (split 47 p)) := by
  unfold clean
  simp only [h, if_true]
  rw [fold_walk .nil (split_pieces_no_sep p)]; rfl

theorem isAbs_placeOf (dir : List Str) : isAbs (placeOf dir) = true := rfl

theorem walk_placeOf {dir : List Str} (h : ∀ e ∈ dir, Named e) (st : List Str) : walk st (split 47 (placeOf dir)) = st ++ dir := by
  unfold placeOf
  rw [show (47 :: join dir [47] : Str) = [] ++ 47 :: join dir [47] from rfl, split_append_sep _ _ (by simp), walk, if_pos (by simp)]
  cases dir with
  | nil => simp [join, split, walk]
  | cons e dir =>
    rw [split_join _ (by simp) fun l hl => (h l hl).2.2.2, walk_self h]

theorem clean_placeOf {dir : List Str} (h : ∀ e ∈ dir, Named e) : clean (placeOf dir) = placeOf dir := by
  rw [clean_rooted (isAbs_placeOf dir), walk_placeOf h, List.nil_append]

theorem clean_idem (p : Str) : clean (clean p) = clean p := by
  by_cases h : isAbs p = true
  · rw [clean_rooted h, clean_placeOf (walk_named (by simp) (split_pieces_no_sep p))]
  · have hn : Norm false ((split 47 p).foldl (cleanStep false) []) := fold_norm .nil (split_pieces_no_sep p)
    have hc : clean p = (if ((split 47 p).foldl (cleanStep false) []).reverse = [] then b!"." else
        join ((split 47 p).foldl (cleanStep false) []).reverse [47]) := by
      unfold clean
      simp only [h]
      rfl
    rw [hc]
    split
    · decide
    · rename_i hne
      generalize (split 47 p).foldl (cleanStep false) [] = st at hn hne
      have hs := norm_no_slash hn
      have habs : isAbs (join st.reverse [47]) = false := by
        cases hr : st.reverse with
        | nil => exact absurd hr hne
        | cons e es =>
          have he := hs e (List.mem_reverse.mp (by rw [hr]; simp))
          cases e with
          | nil => exact absurd rfl he.2
          | cons c e =>
            have : c ≠ 47 := by rintro rfl; exact he.1 (by simp)
            cases es <;> simp [join, isAbs, this]
      have hsp : split 47 (join st.reverse [47]) = st.reverse := split_join _ hne fun l hl => (hs l (List.mem_reverse.mp hl)).1
      unfold clean
      simp only [habs, hsp, fold_again hn]
      simp [show st ≠ [] from by intro h; exact hne (by rw [h]; rfl)]

theorem join_two (a b : Str) : join [a, b] [47] = a ++ 47 :: b := by simp [join]

theorem joinPath_rooted {wd name : Str} (h : isAbs wd = true) : joinPath [wd, name] = placeOf (walk [] (split 47 wd ++ split 47 name)) := by
  have hne : wd ≠ [] := by rintro rfl; simp [isAbs] at h
  rw [joinPath, if_neg hne, join_two, clean_rooted, split_append]
  cases wd with
  | nil => exact absurd rfl hne
  | cons c wd => exact h

theorem absPath_eq {wd p : Str} (h : isAbs wd = true) : absPath wd p = placeOf (walk [] (if isAbs p then split 47 p else split 47 wd ++ split 47 p)) := by
  unfold absPath
  split
  · exact clean_rooted ‹_›
  · exact joinPath_rooted h

theorem lastPart_append {a b : Str} (hb : 47 ∉ b) : lastPart (a ++ 47 :: b) = b := by
  unfold lastPart
  rw [split_append, split_line b hb]
  simp

theorem lastPart_line {b : Str} (hb : 47 ∉ b) : lastPart b = b := by
  unfold lastPart
  rw [split_line b hb]
  simp

theorem join_snoc {es : List Str} {e : Str} (h : es ≠ []) : join (es ++ [e]) [47] = join es [47] ++ 47 :: e := by
  induction es with
  | nil => exact absurd rfl h
  | cons x es ih =>
    cases es with
    | nil => simp [join]
    | cons y es =>
      have := ih (by simp)
      simp only [List.cons_append] at this
      simp only [List.cons_append, join, this, List.append_assoc]

theorem dirPath_placeOf {dir : List Str} (h : ∀ e ∈ dir, Named e) : dirPath (placeOf dir) = placeOf dir.dropLast := by
  rcases List.eq_nil_or_concat dir with rfl | ⟨es, e, rfl⟩
  · decide
  · simp only [List.concat_eq_append] at h ⊢
    have he : Named e := h e (by simp)
    have hes : ∀ x ∈ es, Named x := fun x hx => h x (by simp [hx])
    have key : ∀ q : Str, isAbs (q ++ [47]) = true → walk [] (split 47 (q ++ [47])) = es → placeOf (es ++ [e]) = q ++ 47 :: e →
        dirPath (placeOf (es ++ [e])) = placeOf es := by
      intro q h1 h2 h3
      unfold dirPath
      rw [h3, lastPart_append he.2.2.2]
      have : (q ++ 47 :: e).take ((q ++ 47 :: e).length - e.length) = q ++ [47] := by
        rw [show q ++ 47 :: e = (q ++ [47]) ++ e by simp]
        rw [List.length_append, Nat.add_sub_cancel, List.take_left']
        rfl
      rw [this, clean_rooted h1, h2]
    rw [List.dropLast_concat]
    cases es with
    | nil => exact key [] rfl (by decide) rfl
    | cons x es =>
      refine key (placeOf (x :: es)) rfl ?_ ?_
      · rw [show placeOf (x :: es) ++ [47] = placeOf (x :: es) ++ 47 :: [] from rfl, split_append, trail_append, walk_placeOf hes]
        simp [split, walk]
      · unfold placeOf
        rw [join_snoc (by simp)]; rfl

theorem fromDot_none {s : Str} (h : 46 ∉ s) : fromDot s = [] := by
  induction s with
  | nil => rfl
  | cons c s ih =>
    simp only [List.mem_cons, not_or] at h
    rw [fromDot, ih h.2, if_pos rfl, if_neg (Ne.symm h.1)]

theorem fromDot_ext {a x : Str} (h : 46 ∉ x) : fromDot (a ++ 46 :: x) = 46 :: x := by
  induction a with
  | nil => rw [List.nil_append, fromDot, fromDot_none h]; simp
  | cons c a ih => rw [List.cons_append, fromDot, ih]; simp

theorem trimRight_keeps {f : UInt8 → Bool} : ∀ (a : Str) (c : UInt8), f c = false → trimRight f (a ++ [c]) = a ++ [c]
  | [], c, h => by simp [trimRight, h]
  | b :: a, c, h => by
    rw [List.cons_append, trimRight, trimRight_keeps a c h]
    cases a <;> rfl

theorem trimSuffix_append (a b : Str) : trimSuffix (a ++ b) b = a := by
  unfold trimSuffix
  rw [if_pos (by rw [List.isSuffixOf_iff_suffix]; exact List.suffix_append a b), List.length_append, Nat.add_sub_cancel, List.take_left']
  rfl

/-- A path that ends with a name that is not empty: base and extension. -/
theorem base_ext {p b : Str} (hp : p = [] ∨ ∃ q, p = q ++ [47]) (hb : b ≠ []) (hs : 47 ∉ b) : basePath (p ++ b) = b ∧ extPath (p ++ b) = fromDot b := by
  have hl : lastPart (p ++ b) = b := by
    rcases hp with rfl | ⟨q, rfl⟩
    · exact lastPart_line hs
    · rw [show q ++ [47] ++ b = q ++ 47 :: b by simp]; exact lastPart_append hs
  refine ⟨?_, by unfold extPath; rw [hl]⟩
  unfold basePath
  rw [if_neg (by simp [hb])]
  rcases List.eq_nil_or_concat b with rfl | ⟨b', c, rfl⟩
  · exact absurd rfl hb
  · simp only [List.concat_eq_append] at hl hs ⊢
    have hc : ((fun x => x == 47) c : Bool) = false := by
      simp only [List.mem_append, List.mem_singleton, not_or] at hs
      simpa using Ne.symm hs.2
    rw [← List.append_assoc, trimRight_keeps (f := fun x => x == 47) _ c hc, List.append_assoc, hl]
    simp

end Verif.Proofs
