import Verif.Proofs.LoadDoc
/-
A document that can be loaded consists of the tokens of a tree.
-/
namespace Verif.Proofs
open Verif.Go Verif.Model Verif.Spec

/-- The open elements. -/
def names : List Frame → List Str
  | [] => []
  | .elem n :: s => n :: names s
  | .eof :: s => names s

/-- The open elements after some tokens; `none` if an end does not fit. -/
def walk : List Tok → List Str → Option (List Str)
  | [], E => some E
  | .start n _ :: c, E => walk c (n :: E)
  | .close n :: c, E => match E with
    | [] => none
    | m :: E => if m = n then walk c E else none
  | .chars _ :: c, E => walk c E
  | .other :: c, E => walk c E

theorem walk_append : ∀ (a b : List Tok) (E : List Str), walk (a ++ b) E = (walk a E).bind (walk b)
  | [], b, E => rfl
  | .start n as :: a, b, E => walk_append a b (n :: E)
  | .chars t :: a, b, E => walk_append a b E
  | .other :: a, b, E => walk_append a b E
  | .close n :: a, b, E => by
    cases E with
    | nil => rfl
    | cons m E =>
      simp only [List.cons_append, walk]
      split
      · exact walk_append a b E
      · rfl

theorem names_pushEOF : ∀ s, names (pushEOF s) = names s
  | [] => rfl
  | .elem n :: s => rfl
  | .eof :: s => names_pushEOF s

/-- From `d` to `d'` the decoder has read tokens that fit. -/
def Eats (d d' : Decoder) : Prop := ∃ c, d.rest = c ++ d'.rest ∧ walk c (names d.stk) = some (names d'.stk)

theorem Eats.refl (d : Decoder) : Eats d d := ⟨[], rfl, rfl⟩

theorem Eats.of {d d' : Decoder} (h1 : d.rest = d'.rest) (h2 : names d.stk = names d'.stk) : Eats d d' :=
  ⟨[], h1, by rw [h2]; rfl⟩

theorem Eats.trans {a b c : Decoder} (h1 : Eats a b) (h2 : Eats b c) : Eats a c := by
  obtain ⟨x, e1, e2⟩ := h1
  obtain ⟨y, e3, e4⟩ := h2
  exact ⟨x ++ y, by rw [e1, e3, List.append_assoc], by rw [walk_append, e2, Option.bind_some, e4]⟩

/-- A result after tokens that fit; after an error there may also be no tokens left. -/
def Good {α : Type} (d : Decoder) (r : Option α × Decoder) : Prop := Eats d r.2 ∨ (r.1 = none ∧ r.2.rest = [])

theorem Good.trans {α : Type} {a b : Decoder} {r : Option α × Decoder} (h1 : Eats a b) (h2 : Good b r) : Good a r := by
  rcases h2 with h | h
  · exact Or.inl (h1.trans h)
  · exact Or.inr h

theorem Good.some {α : Type} {a d : Decoder} {x : α} (h : Good a (some x, d)) : Eats a d := by
  rcases h with h | h
  · exact h
  · simp at h

theorem token_good (d : Decoder) : Good d d.token := by
  obtain ⟨stk, rest⟩ := d
  cases stk with
  | nil =>
    cases rest with
    | nil => exact Or.inl (Eats.refl _)
    | cons t r =>
      cases t with
      | start n as => exact Or.inl ⟨[.start n as], rfl, rfl⟩
      | close n => exact Or.inr ⟨rfl, rfl⟩
      | chars t => exact Or.inl ⟨[.chars t], rfl, rfl⟩
      | other => exact Or.inl ⟨[.other], rfl, rfl⟩
  | cons f s =>
    cases f with
    | eof => exact Or.inl (by simp only [Decoder.token]; exact Eats.refl _)
    | elem m =>
      cases rest with
      | nil => exact Or.inl (Eats.refl _)
      | cons t r =>
        cases t with
        | start n as => exact Or.inl ⟨[.start n as], rfl, rfl⟩
        | chars t => exact Or.inl ⟨[.chars t], rfl, rfl⟩
        | other => exact Or.inl ⟨[.other], rfl, rfl⟩
        | close n =>
          by_cases h : m = n
          · refine Or.inl ⟨[.close n], ?_, ?_⟩
            · simp [Decoder.token, h]
            · simp [Decoder.token, h, names, walk]
          · exact Or.inr (by simp [Decoder.token, h])

/-- Without tokens there is an error. -/
theorem token_empty {d : Decoder} (h : d.rest = []) : d.token = (none, d) := by
  obtain ⟨stk, rest⟩ := d
  simp only at h
  subst h
  match stk with
  | [] => rfl
  | .eof :: s => rfl
  | .elem n :: s => rfl

theorem leafLoop_good : ∀ (n depth : Nat) (data : Str) (d : Decoder), Good d (leafLoop n depth data d) := by
  intro n
  induction n with
  | zero => intro depth data d; exact Or.inl (Eats.refl d)
  | succ n ih =>
    intro depth data d
    have ht := token_good d
    rw [leafLoop]
    rcases hx : d.token with ⟨_ | t, d'⟩ <;> rw [hx] at ht <;> (try rw [hx])
    · exact ht.imp id (fun h => ⟨rfl, h.2⟩)
    · replace ht := ht.some
      cases t with
      | start m as => exact Good.trans ht (ih _ _ _)
      | chars t => exact Good.trans ht (ih _ _ _)
      | other => exact Good.trans ht (ih _ _ _)
      | close m =>
        cases depth with
        | zero => exact Or.inl ht
        | succ k => exact Good.trans ht (ih _ _ _)

theorem gridRowLoop_good : ∀ (n : Nat) (name : Str) (as : List Str) (d : Decoder), Good d (gridRowLoop n name as d) := by
  intro n
  induction n with
  | zero => intro name as d; exact Or.inl (Eats.refl d)
  | succ n ih =>
    intro name as d
    have ht := token_good d
    rw [gridRowLoop]
    rcases hx : d.token with ⟨_ | t, d'⟩ <;> rw [hx] at ht <;> (try rw [hx])
    · exact ht.imp id (fun h => ⟨rfl, h.2⟩)
    · replace ht := ht.some
      cases t with
      | start m as => exact Good.trans ht (ih _ _ _)
      | chars t => exact Good.trans ht (ih _ _ _)
      | other => exact Good.trans ht (ih _ _ _)
      | close m =>
        simp only
        split
        · exact Or.inl ht
        · exact Good.trans ht (ih _ _ _)

theorem andThen_good {α β : Type} {d : Decoder} {r : Option α × Decoder} {f : α → Option β} (h : Good d r) : Good d (andThen r f) := by
  rcases h with h | h
  · exact Or.inl h
  · exact Or.inr ⟨by simp [andThen, h.1], h.2⟩

theorem unmarshal_good {α : Type} {f : Decoder → Option α × Decoder} {d : Decoder} (hf : ∀ d, Good d (f d)) :
    Good d (unmarshalInterface f d) := by
  have h := hf ⟨pushEOF d.stk, d.rest⟩
  unfold unmarshalInterface
  simp only
  split
  · rename_i s hs
    rcases h with ⟨c, h1, h2⟩ | ⟨h1, h2⟩
    · refine Or.inl ⟨c, h1, ?_⟩
      rw [names_pushEOF, hs] at h2
      exact h2
    · exact Or.inr ⟨h1, h2⟩
  · rcases h with ⟨c, h1, h2⟩ | ⟨h1, h2⟩
    · refine Or.inl ⟨c, h1, ?_⟩
      rw [names_pushEOF] at h2
      exact h2
    · exact Or.inr ⟨rfl, h2⟩

section
variable {fl : Floats} {ord : Nat → MapOrder}

theorem instructions_good {loop : Loop} (hloop : ∀ pol name acc d, Good d (loop pol name acc d)) (name : Str) (attrs : List Attr)
    (d : Decoder) : Good d (unmarshalInstructions fl ord loop name attrs d) := by
  unfold unmarshalInstructions
  split
  · exact Or.inl (Eats.refl d)
  · exact hloop _ _ _ _

theorem decode_good {loop : Loop} (hloop : ∀ pol name acc d, Good d (loop pol name acc d)) (attrs : List Attr) (d : Decoder) :
    ∀ name, Good d (decodeInstruction fl ord loop name attrs d) := by
  have hl : Good d (leaf d) := leafLoop_good _ _ _ _
  have hr : Good d ((none, d) : Option Instr × Decoder) := Or.inl (Eats.refl d)
  refine name_cases ?_ ?_ ?_ ?_ ?_ ?_ ?_ ?_ ?_ ?_ ?_ ?_ ?_ ?_ ?_ ?_ ?_
  · rw [dec_font]; exact andThen_good hl
  · rw [dec_box]; exact andThen_good (unmarshal_good (instructions_good hloop _ _))
  · rw [dec_text]; exact andThen_good (unmarshal_good (instructions_good hloop _ _))
  · rw [dec_lf]; split
    · exact hr
    · exact andThen_good hl
  · rw [dec_setx]; split
    · exact hr
    · exact andThen_good hl
  · rw [dec_sety]; split
    · exact hr
    · exact andThen_good hl
  · rw [dec_image]; exact andThen_good hl
  · rw [dec_table]; exact andThen_good (unmarshal_good (hloop _ _ _))
  · rw [dec_tr]; exact andThen_good (unmarshal_good (hloop _ _ _))
  · rw [dec_td]; exact andThen_good (unmarshal_good (hloop _ _ _))
  · rw [dec_grid]; exact andThen_good (unmarshal_good fun d => andThen_good (hloop _ _ _ d))
  · rw [dec_gr]; exact andThen_good (unmarshal_good fun d => gridRowLoop_good _ _ _ d)
  · rw [dec_part]; exact andThen_good (unmarshal_good (hloop _ _ _))
  · rw [dec_p]; exact andThen_good hl
  · rw [dec_br]; exact andThen_good hl
  · rw [dec_newpage]; exact andThen_good hl
  · intro name hn; rw [dec_unknown hn]; exact hr

theorem childLoop_empty (n : Nat) (pol : Policy) (name : Str) (acc : List Instr) {d : Decoder} (h : d.rest = []) :
    childLoop fl ord n pol name acc d = (none, d) := by
  cases n with
  | zero => rfl
  | succ n => exact childLoop_none (token_empty h)

theorem childLoop_good : ∀ (n : Nat) (pol : Policy) (name : Str) (acc : List Instr) (d : Decoder),
    Good d (childLoop fl ord n pol name acc d) := by
  intro n
  induction n with
  | zero => intro pol name acc d; exact Or.inl (Eats.refl d)
  | succ n ih =>
    intro pol name acc d
    have ht := token_good d
    rcases hx : d.token with ⟨_ | t, d'⟩ <;> rw [hx] at ht
    · rw [childLoop_none hx]
      exact ht.imp id (fun h => ⟨rfl, h.2⟩)
    · replace ht := ht.some
      cases t with
      | chars t => rw [childLoop_chars hx]; exact Good.trans ht (ih _ _ _ _)
      | other => rw [childLoop_other hx]; exact Good.trans ht (ih _ _ _ _)
      | close m =>
        rw [childLoop_close hx]
        split
        · exact Or.inl ht
        · exact Good.trans ht (ih _ _ _ _)
      | start m as =>
        rw [childLoop_start hx]
        have hd := decode_good (fl := fl) (ord := ord) (loop := childLoop fl ord n) ih as d' m
        rcases hy : decodeInstruction fl ord (childLoop fl ord n) m as d' with ⟨_ | i, d2⟩ <;> rw [hy] at hd <;> (try rw [hy])
        · simp only
          rcases hd with hd | ⟨-, hd⟩
          · split
            · exact Good.trans (ht.trans hd) (ih _ _ _ _)
            · exact Or.inl (ht.trans hd)
          · simp only at hd
            split
            · rw [childLoop_empty _ _ _ _ hd]; exact Or.inr ⟨rfl, hd⟩
            · exact Or.inr ⟨rfl, hd⟩
        · exact Good.trans (ht.trans hd.some) (ih _ _ _ _)

/-! ### Leaving an element -/

/-- If the result is a value, the element on top of `T` has been left. -/
def Leaves {α : Type} (T : List Frame) (d : Decoder) (r : Option α × Decoder) : Prop := ∀ a d', r = (some a, d') → Eats d d' ∧ d'.stk = T

theorem Leaves.andThen {α β : Type} {T : List Frame} {d : Decoder} {r : Option α × Decoder} {f : α → Option β} (h : Leaves T d r) :
    Leaves T d (andThen r f) := by
  intro b d' hb
  obtain ⟨o, d2⟩ := r
  simp only [Model.andThen, Prod.mk.injEq] at hb
  cases o with
  | none => simp at hb
  | some a => rw [← hb.2]; exact h a d2 rfl

theorem leafLoop_stk : ∀ (n depth : Nat) (data : Str) (P T : List Frame) (R : List Tok), (∀ f ∈ P, f ≠ .eof) → P.length = depth + 1 →
    ∀ a d', leafLoop n depth data ⟨P ++ T, R⟩ = (some a, d') → d'.stk = T := by
  intro n
  induction n with
  | zero => intro depth data P T R _ _ a d' h; simp [leafLoop] at h
  | succ n ih =>
    intro depth data P T R hP hlen a d' h
    match P, hP, hlen, h with
    | [], _, hlen, _ => simp at hlen
    | .eof :: P, hP, _, _ => exact absurd rfl (hP .eof (by simp))
    | .elem x :: P, hP, hlen, h =>
      simp only [List.length_cons, Nat.add_right_cancel_iff] at hlen
      match R with
      | [] => simp [leafLoop, Decoder.token] at h
      | .start m as :: R =>
        exact ih (depth + 1) data (.elem m :: .elem x :: P) T R
          (by intro f hf; simp only [List.mem_cons] at hf; rcases hf with rfl | hf
              · simp
              · exact hP f (by simpa using hf)) (by simp [hlen]) a d' h
      | .chars t :: R => exact ih depth _ (.elem x :: P) T R hP (by simp [hlen]) a d' h
      | .other :: R => exact ih depth _ (.elem x :: P) T R hP (by simp [hlen]) a d' h
      | .close m :: R =>
        by_cases hm : x = m
        · subst hm
          rw [List.cons_append] at h
          cases depth with
          | zero =>
            rw [leafLoop_end] at h
            simp only [Prod.mk.injEq] at h
            rw [← h.2]
            have : P = [] := List.length_eq_zero_iff.mp hlen
            simp [this]
          | succ k =>
            rw [leafLoop_close] at h
            exact ih k data P T R (fun f hf => hP f (by simp [hf])) hlen a d' h
        · simp [leafLoop, Decoder.token, hm] at h

theorem leaf_leaves (x : Str) (T : List Frame) (R : List Tok) : Leaves T ⟨.elem x :: T, R⟩ (leaf ⟨.elem x :: T, R⟩) := by
  intro a d' h
  refine ⟨?_, leafLoop_stk _ 0 [] [.elem x] T R (by simp) rfl a d' h⟩
  have := leafLoop_good (R.length + 1) 0 [] ⟨.elem x :: T, R⟩
  rw [show leafLoop (R.length + 1) 0 [] _ = _ from h] at this
  exact this.some

/-- The field leaves its element. -/
def FieldLeaves {σ : Type} (field : Str → List Attr → σ → Decoder → Option σ × Decoder) : Prop :=
  ∀ m as s T R, Leaves T ⟨.elem m :: T, R⟩ (field m as s ⟨.elem m :: T, R⟩)

theorem structLoop_leaves {σ : Type} {field : Str → List Attr → σ → Decoder → Option σ × Decoder} (hf : FieldLeaves field) (x : Str)
    (T : List Frame) : ∀ (n : Nat) (s : σ) (R : List Tok), Leaves T ⟨.elem x :: T, R⟩ (structLoop field n s ⟨.elem x :: T, R⟩) := by
  intro n
  induction n with
  | zero => intro s R a d' h; simp [structLoop] at h
  | succ n ih =>
    intro s R a d' h
    match R with
    | [] => simp [structLoop, Decoder.token] at h
    | .chars t :: R =>
      obtain ⟨h1, h2⟩ := ih s R a d' h
      exact ⟨Eats.trans (b := ⟨.elem x :: T, R⟩) ⟨[.chars t], rfl, rfl⟩ h1, h2⟩
    | .other :: R =>
      obtain ⟨h1, h2⟩ := ih s R a d' h
      exact ⟨Eats.trans (b := ⟨.elem x :: T, R⟩) ⟨[.other], rfl, rfl⟩ h1, h2⟩
    | .close m :: R =>
      by_cases hm : x = m
      · subst hm
        simp only [structLoop, Decoder.token, if_true, Prod.mk.injEq] at h
        rw [← h.2]
        exact ⟨⟨[.close x], rfl, by simp [walk, names]⟩, rfl⟩
      · simp [structLoop, Decoder.token, hm] at h
    | .start m as :: R =>
      rw [structLoop, show (Decoder.mk (.elem x :: T) (.start m as :: R)).token =
        (some (.start m as), ⟨.elem m :: .elem x :: T, R⟩) from rfl] at h
      simp only at h
      have hl := hf m as s (.elem x :: T) R
      rcases hy : field m as s ⟨.elem m :: .elem x :: T, R⟩ with ⟨_ | s', d2⟩
      · rw [hy] at h; simp at h
      · rw [hy] at h
        obtain ⟨h1, h2⟩ := hl s' d2 hy
        obtain ⟨stk, R'⟩ := d2
        simp only at h2
        subst h2
        obtain ⟨h3, h4⟩ := ih s' R' a d' h
        exact ⟨Eats.trans ⟨[.start m as], rfl, rfl⟩ (h1.trans h3), h4⟩

theorem struct_leaves {σ : Type} {field : Str → List Attr → σ → Decoder → Option σ × Decoder} (hf : FieldLeaves field) (x : Str)
    (T : List Frame) (s : σ) (R : List Tok) : Leaves T ⟨.elem x :: T, R⟩ (struct field s ⟨.elem x :: T, R⟩) :=
  structLoop_leaves hf x T _ s R

theorem metaField_leaves : FieldLeaves metaField := fun m as s T R => (leaf_leaves m T R).andThen
theorem marginField_leaves : FieldLeaves (marginField fl) := fun m as s T R => (leaf_leaves m T R).andThen
theorem pageField_leaves : FieldLeaves (pageField fl) := by
  intro m as s T R
  unfold pageField
  split
  · exact (leaf_leaves m T R).andThen
  split
  · exact (leaf_leaves m T R).andThen
  split
  · exact (struct_leaves marginField_leaves m T s.margins R).andThen
  · exact (leaf_leaves m T R).andThen

theorem unmarshalField_leaves {name : Str} (hname : isTop name) (attrs : List Attr) (T : List Frame) (R : List Tok) :
    Leaves T ⟨.elem name :: T, R⟩ (unmarshalField fl ord name attrs ⟨.elem name :: T, R⟩) := by
  intro a d' h
  refine ⟨?_, (field_left hname h).1⟩
  have := unmarshal_good (f := unmarshalInstructions fl ord (childLoop fl ord (R.length + 1)) name attrs) (d := ⟨.elem name :: T, R⟩)
    (instructions_good (childLoop_good _) _ _)
  rw [show unmarshalInterface _ _ = _ from h] at this
  exact this.some

theorem docField_leaves : FieldLeaves (docField fl ord) := by
  intro m as s T R
  unfold docField
  split
  · exact (struct_leaves metaField_leaves m T s.info R).andThen
  split
  · exact (struct_leaves pageField_leaves m T s.page R).andThen
  split
  · exact (leaf_leaves m T R).andThen
  split
  · rename_i h; exact (unmarshalField_leaves (h ▸ Or.inl rfl) as T R).andThen
  split
  · rename_i h; exact (unmarshalField_leaves (h ▸ Or.inr (Or.inl rfl)) as T R).andThen
  split
  · rename_i h; exact (unmarshalField_leaves (h ▸ Or.inr (Or.inr rfl)) as T R).andThen
  · exact (leaf_leaves m T R).andThen

/-! ### From tokens to a tree -/

/-- The tokens close these elements. -/
def Closes : List Tok → List Str → Prop
  | _, [] => True
  | c, n :: E => ∃ kids post, c = toksAll kids ++ .close n :: post ∧ Closes post E

theorem walk_closes : ∀ (c : List Tok) (E : List Str), walk c E = some [] → Closes c E
  | [], E, h => by
    simp only [walk, Option.some.injEq] at h
    subst h; trivial
  | .chars t :: c, E, h => by
    cases E with
    | nil => trivial
    | cons n E =>
      obtain ⟨kids, post, h1, h2⟩ := walk_closes c (n :: E) h
      exact ⟨.chars t :: kids, post, by simp [toksAll, Node.toks, h1], h2⟩
  | .other :: c, E, h => by
    cases E with
    | nil => trivial
    | cons n E =>
      obtain ⟨kids, post, h1, h2⟩ := walk_closes c (n :: E) h
      exact ⟨.other :: kids, post, by simp [toksAll, Node.toks, h1], h2⟩
  | .start m as :: c, E, h => by
    cases E with
    | nil => trivial
    | cons n E =>
      obtain ⟨kids, post, h1, kids2, post2, h2, h3⟩ := walk_closes c (m :: n :: E) h
      exact ⟨.elem m as kids :: kids2, post2, by simp [toksAll, Node.toks, h1, h2], h3⟩
  | .close m :: c, E, h => by
    cases E with
    | nil => trivial
    | cons n E =>
      simp only [walk] at h
      split at h
      · rename_i hn
        exact ⟨[], c, by simp [toksAll, hn], walk_closes c E h⟩
      · simp at h

/-- What can be loaded is a document. -/
theorem root_some : ∀ (n : Nat) (toks : List Tok) (x : RawDoc) (d : Decoder), decodeRoot fl ord n ⟨[], toks⟩ = (some x, d) →
    ∃ misc as kids post, misc.all isMisc = true ∧ toks = misc ++ ((Node.elem b!"document" as kids).toks ++ post) := by
  intro n
  induction n with
  | zero => intro toks x d h; simp [decodeRoot] at h
  | succ n ih =>
    intro toks x d h
    match toks with
    | [] => simp [decodeRoot, Decoder.token] at h
    | .chars t :: toks =>
      obtain ⟨misc, as, kids, post, h1, h2⟩ := ih toks x d h
      exact ⟨.chars t :: misc, as, kids, post, by simp [isMisc, h1], by simp [h2]⟩
    | .other :: toks =>
      obtain ⟨misc, as, kids, post, h1, h2⟩ := ih toks x d h
      exact ⟨.other :: misc, as, kids, post, by simp [isMisc, h1], by simp [h2]⟩
    | .close m :: toks => simp [decodeRoot, Decoder.token] at h
    | .start m as :: toks =>
      rw [decodeRoot, show (Decoder.mk [] (.start m as :: toks)).token = (some (.start m as), ⟨[.elem m], toks⟩) from rfl] at h
      simp only at h
      split at h
      · rename_i hm
        obtain ⟨⟨c, h1, h2⟩, h3⟩ := struct_leaves docField_leaves m [] emptyDoc toks x d h
        rw [h3] at h2
        obtain ⟨kids, post, h4, -⟩ := walk_closes c [m] h2
        simp only at h1
        exact ⟨[], as, kids, post ++ d.rest, rfl, by simp [Node.toks, h1, h4, hm]⟩
      · simp at h

end

end Verif.Proofs
