import Verif.Proofs.LoadExact
/-
Loading the tokens of a document gives what the specification says.
-/
namespace Verif.Proofs
open Verif.Go Verif.Model Verif.Spec

/-- The result is this value and decoder, or an error. -/
def Gives {α : Type} (r : Option α × Decoder) (o : Option α) (d : Decoder) : Prop :=
  match o with
  | some a => r = (some a, d)
  | none => r.1 = none

theorem Gives.andThen {α β : Type} {r : Option α × Decoder} {o : Option α} {d : Decoder} {f : α → Option β} (h : Gives r o d) :
    Gives (andThen r f) (o.bind f) d := by
  cases o with
  | none =>
    have h : r.1 = none := h
    simp [Gives, Model.andThen, h]
  | some a =>
    have h : r = (some a, d) := h
    cases hf : f a <;> simp [Gives, Model.andThen, h, hf]

theorem leaf_gives (kids : List Node) (x : Str) (T : List Frame) (R : List Tok) :
    Gives (leaf ⟨.elem x :: T, toksAll kids ++ .close x :: R⟩) (some (directText kids)) ⟨T, R⟩ := leaf_tree kids x T R

/-- The inner elements one after the other. -/
def foldFields {σ : Type} (g : Str → List Attr → List Node → σ → Option σ) : List Node → σ → Option σ
  | [], s => some s
  | .elem m as kids :: ns, s => (g m as kids s).bind (foldFields g ns)
  | .chars _ :: ns, s => foldFields g ns s
  | .other :: ns, s => foldFields g ns s

theorem foldFields_append {σ : Type} (g : Str → List Attr → List Node → σ → Option σ) (a b : List Node) (s : σ) :
    foldFields g (a ++ b) s = (foldFields g a s).bind (foldFields g b) := by
  induction a generalizing s with
  | nil => simp [foldFields]
  | cons nd a ih =>
    cases nd with
    | elem m as kids =>
      simp only [List.cons_append, foldFields]
      cases g m as kids s <;> simp [ih]
    | chars t => simp [foldFields, ih]
    | other => simp [foldFields, ih]

/-- What `field` does to the tokens of an element. -/
def FieldIs {σ : Type} (field : Str → List Attr → σ → Decoder → Option σ × Decoder)
    (g : Str → List Attr → List Node → σ → Option σ) : Prop :=
  ∀ m as kids s T R, Gives (field m as s ⟨.elem m :: T, toksAll kids ++ .close m :: R⟩) (g m as kids s) ⟨T, R⟩

section
variable {σ : Type} {field : Str → List Attr → σ → Decoder → Option σ × Decoder}

theorem structLoop_gives {g : Str → List Attr → List Node → σ → Option σ} (hg : FieldIs field g) (x : Str) (T : List Frame)
    (R : List Tok) : ∀ (ns : List Node) (s : σ) (n : Nat), (toksAll ns).length + 1 ≤ n →
      Gives (structLoop field n s ⟨.elem x :: T, toksAll ns ++ .close x :: R⟩) (foldFields g ns s) ⟨T, R⟩ := by
  intro ns
  induction ns with
  | nil =>
    intro s n hn
    obtain ⟨n, rfl⟩ : ∃ k, n = k + 1 := ⟨n - 1, by omega⟩
    simp [foldFields, Gives, toksAll, structLoop, Decoder.token]
  | cons nd ns ih =>
    intro s n hn
    obtain ⟨n, rfl⟩ : ∃ k, n = k + 1 := ⟨n - 1, by omega⟩
    cases nd with
    | chars t =>
      simp only [toksAll, Node.toks, List.length_append, List.length_cons, List.length_nil] at hn
      exact ih s n (by omega)
    | other =>
      simp only [toksAll, Node.toks, List.length_append, List.length_cons, List.length_nil] at hn
      exact ih s n (by omega)
    | elem m as kids =>
      rw [elem_length] at hn
      have e : (Decoder.mk (.elem x :: T) (toksAll (.elem m as kids :: ns) ++ .close x :: R)).token =
          (some (.start m as), ⟨.elem m :: .elem x :: T, toksAll kids ++ .close m :: (toksAll ns ++ .close x :: R)⟩) := by
        simp [toksAll, Node.toks, Decoder.token]
      have hf := hg m as kids s (.elem x :: T) (toksAll ns ++ .close x :: R)
      rw [structLoop, e, foldFields]
      simp only
      cases hk : g m as kids s with
      | none =>
        rw [hk] at hf
        have hf : (field m as s _).1 = none := hf
        rcases hy : field m as s ⟨.elem m :: .elem x :: T, toksAll kids ++ .close m :: (toksAll ns ++ .close x :: R)⟩ with ⟨_ | i, d⟩
        · simp [Gives]
        · rw [hy] at hf; simp at hf
      | some s' =>
        rw [hk] at hf
        have hf : field m as s _ = _ := hf
        rw [hf]
        exact ih s' n (by omega)

theorem struct_gives {g : Str → List Attr → List Node → σ → Option σ} (hg : FieldIs field g) (ns : List Node) (s : σ) (x : Str)
    (T : List Frame) (R : List Tok) :
    Gives (struct field s ⟨.elem x :: T, toksAll ns ++ .close x :: R⟩) (foldFields g ns s) ⟨T, R⟩ :=
  structLoop_gives hg x T R ns s _ (by simp)

end

/-! ### A header, footer or body -/

theorem noTop_base (name : Str) : NoTop [.elem name, .eof] := by
  intro P n Q h _
  match P with
  | [] => simp at h; exact h.2
  | [p] => simp at h
  | p :: q :: P => simp at h

/-- If a header, footer or body is read, its element has been left, whatever the tokens are. -/
theorem field_left {fl : Floats} {ord : Nat → MapOrder} {n : Nat} {name : Str} (hname : isTop name) {attrs : List Attr}
    {T : List Frame} {R : List Tok} {iss : List Instr} {d : Decoder}
    (h : unmarshalInterface (unmarshalInstructions fl ord (childLoop fl ord n) name attrs) ⟨.elem name :: T, R⟩ = (some iss, d)) :
    d.stk = T ∧ childLoop fl ord n instructionsPolicy name [] ⟨.elem name :: .eof :: T, R⟩ = (some iss, ⟨.eof :: T, d.rest⟩) := by
  unfold unmarshalInterface at h
  simp only [pushEOF] at h
  split at h
  · rename_i s hs
    unfold unmarshalInstructions at h hs
    cases ha : newStyled fl ord attrs with
    | none => simp [ha] at h
    | some st =>
      simp only [ha] at h hs
      have hm := (childLoop_mono (fl := fl) (ord := ord) n 0 T instructionsPolicy name [] ⟨.elem name :: .eof :: T, R⟩
        ⟨[.elem name, .eof], rfl, by simp [marks], noTop_base name⟩).2
      generalize childLoop fl ord n instructionsPolicy name [] ⟨.elem name :: .eof :: T, R⟩ = r at h hs hm ⊢
      obtain ⟨o, stk, rest⟩ := r
      simp only [Prod.mk.injEq] at h hs hm ⊢
      obtain ⟨A, h1, h2, h3⟩ := hm (by rw [h.1]; rfl)
      match A, h1, h2, h3 with
      | [], h1, h2, h3 => simp [marks] at h2
      | .elem y :: A, h1, h2, h3 => subst h1; simp at hs
      | .eof :: A, h1, h2, h3 =>
        have hA : A = [] := h3 [] name A rfl hname
        subst hA
        simp only [List.cons_append, List.nil_append] at h1
        subst h1
        simp only [List.cons.injEq, true_and] at hs
        subst hs
        rw [← h.2]
        exact ⟨rfl, h.1, rfl⟩
  · simp at h

theorem field_gives {fl : Floats} {ord : Nat → MapOrder} {name : Str} (hname : isTop name) (attrs : List Attr) (kids : List Node)
    (T : List Frame) (R : List Tok) :
    Gives (unmarshalField fl ord name attrs ⟨.elem name :: T, toksAll kids ++ .close name :: R⟩)
      (if (newStyled fl ord attrs).isSome then strictly fl ord true kids else none) ⟨T, R⟩ := by
  unfold unmarshalField
  have hn : (toksAll kids).length + 1 ≤ (toksAll kids ++ Tok.close name :: R).length + 1 := by simp
  generalize hN : (toksAll kids ++ Tok.close name :: R).length + 1 = n at hn
  clear hN
  cases ha : newStyled fl ord attrs with
  | none =>
    simp [Gives, unmarshalInterface, unmarshalInstructions, ha, pushEOF]
  | some st =>
    simp only [Option.isSome_some, if_true]
    have hs := strict_exact (fl := fl) (ord := ord) kids true name
    cases hk : strictly fl ord true kids with
    | some iss =>
      rw [hk] at hs
      show _ = _
      simp only [unmarshalInterface, pushEOF, unmarshalInstructions, ha]
      rw [instructionsPolicy, unmarshal_reads hs hn]
    | none =>
      rw [hk] at hs
      show _ = none
      rcases hr : unmarshalInterface (unmarshalInstructions fl ord (childLoop fl ord n) name attrs)
        ⟨.elem name :: T, toksAll kids ++ .close name :: R⟩ with ⟨_ | iss, d⟩
      · rfl
      · obtain ⟨h1, h2⟩ := field_left hname hr
        have hb := hs n hn [] name [.eof] T (.close name :: R) (by simp [marks]) (noTop_base name)
        simp only [List.cons_append, List.nil_append] at hb
        rw [instructionsPolicy] at h2
        rw [h2] at hb
        rcases hb with ⟨A, e1, e2⟩ | ⟨-, e1, -⟩
        · have : A = [.eof] := List.append_cancel_right (e1.symm : A ++ T = [.eof] ++ T)
          subst this
          simp [marks] at e2
        · simp at e1

/-! ### The fields -/

section
variable {fl : Floats} {ord : Nat → MapOrder}

def metaG (m : Str) (_ : List Attr) (kids : List Node) (x : Meta) : Option Meta :=
  if m = b!"author" then some { x with author := directText kids }
  else if m = b!"creator" then some { x with creator := directText kids }
  else if m = b!"subject" then some { x with subject := directText kids }
  else some x

theorem metaField_is : FieldIs metaField metaG := by
  intro m as kids s T R
  exact (leaf_gives kids m T R).andThen

def marginG (fl : Floats) (m : Str) (_ : List Attr) (kids : List Node) (x : Margins) : Option Margins :=
  if m = b!"left" then (floatValue fl (directText kids)).map fun v => { x with left := v }
  else if m = b!"top" then (floatValue fl (directText kids)).map fun v => { x with top := v }
  else if m = b!"right" then (floatValue fl (directText kids)).map fun v => { x with right := v }
  else if m = b!"bottom" then (floatValue fl (directText kids)).map fun v => { x with bottom := v }
  else some x

theorem marginField_is : FieldIs (marginField fl) (marginG fl) := by
  intro m as kids s T R
  exact (leaf_gives kids m T R).andThen

def pageG (fl : Floats) (m : Str) (_ : List Attr) (kids : List Node) (x : DocPage) : Option DocPage :=
  if m = b!"orientation" then some { x with orientation := directText kids }
  else if m = b!"format" then some { x with format := directText kids }
  else if m = b!"margins" then (foldFields (marginG fl) kids x.margins).bind fun v => some { x with margins := v }
  else some x

theorem pageField_is : FieldIs (pageField fl) (pageG fl) := by
  intro m as kids s T R
  unfold pageField pageG
  split
  · exact (leaf_gives kids m T R).andThen
  split
  · exact (leaf_gives kids m T R).andThen
  split
  · exact (struct_gives marginField_is kids s.margins m T R).andThen
  · exact (leaf_gives kids m T R).andThen

def docG (fl : Floats) (ord : Nat → MapOrder) (m : Str) (as : List Attr) (kids : List Node) (x : RawDoc) : Option RawDoc :=
  if m = b!"meta" then (foldFields metaG kids x.info).bind fun v => some { x with info := v }
  else if m = b!"page" then (foldFields (pageG fl) kids x.page).bind fun v => some { x with page := v }
  else if m = b!"style" then some { x with style := directText kids }
  else if m = b!"header" then (contents fl ord as kids).bind fun v => some { x with header := x.header ++ v }
  else if m = b!"footer" then (contents fl ord as kids).bind fun v => some { x with footer := x.footer ++ v }
  else if m = b!"body" then (contents fl ord as kids).bind fun v => some { x with body := x.body ++ v }
  else some x

theorem docField_is : FieldIs (docField fl ord) (docG fl ord) := by
  intro m as kids s T R
  unfold docField docG
  split
  · exact (struct_gives metaField_is kids s.info m T R).andThen
  split
  · exact (struct_gives pageField_is kids s.page m T R).andThen
  split
  · exact (leaf_gives kids m T R).andThen
  split
  · rename_i h; exact (field_gives (h ▸ Or.inl rfl) as kids T R).andThen
  split
  · rename_i h; exact (field_gives (h ▸ Or.inr (Or.inl rfl)) as kids T R).andThen
  split
  · rename_i h; exact (field_gives (h ▸ Or.inr (Or.inr rfl)) as kids T R).andThen
  · exact (leaf_gives kids m T R).andThen

/-! ### The result in closed form -/

/-- `textOf` with a value for the case that there is none. -/
def textFrom (name : Str) (ns : List Node) (s : Str) : Str :=
  (((elems ns).filter (·.1 = name)).map fun e => directText e.2.2).getLastD s

/-- `numberOf` with a value for the case that there is none. -/
def numberFrom (fl : Floats) (name : Str) (ns : List Node) (x : ℚ) : Option ℚ :=
  (((elems ns).filter (·.1 = name)).mapM fun e => floatValue fl (directText e.2.2)).map (·.getLastD x)

section
variable {m name : Str} {as : List Attr} {kids ns : List Node}

theorem mapM_map_cons {α β γ : Type} (f : α → Option β) (g : List β → γ) (a : α) (l : List α) :
    ((a :: l).mapM f).map g = (f a).bind fun v => (l.mapM f).map fun r => g (v :: r) := by
  rw [List.mapM_cons]
  cases f a with
  | none => rfl
  | some v =>
    cases hl : l.mapM f with
    | none => simp [hl]
    | some r => simp [hl]

theorem textFrom_same {s} (h : m = name) : textFrom name (.elem m as kids :: ns) s = textFrom name ns (directText kids) := by
  simp only [textFrom, elems, h, decide_true, List.filter_cons_of_pos, List.map_cons, List.getLastD_cons]
theorem textFrom_diff {s} (h : m ≠ name) : textFrom name (.elem m as kids :: ns) s = textFrom name ns s := by
  simp only [textFrom, elems, h, decide_false, Bool.false_eq_true, not_false_eq_true, List.filter_cons_of_neg]
theorem numberFrom_same {x} (h : m = name) : numberFrom fl name (.elem m as kids :: ns) x =
    (floatValue fl (directText kids)).bind (numberFrom fl name ns) := by
  simp only [numberFrom, elems, h, decide_true, List.filter_cons_of_pos, mapM_map_cons, List.getLastD_cons]
  rfl
theorem numberFrom_diff {x} (h : m ≠ name) : numberFrom fl name (.elem m as kids :: ns) x = numberFrom fl name ns x := by
  simp [numberFrom, elems, h]
theorem section_same (h : m = name) : section_ fl ord name (.elem m as kids :: ns) =
    (contents fl ord as kids).bind fun v => (section_ fl ord name ns).map (v ++ ·) := by
  simp only [section_, elems, h, decide_true, List.filter_cons_of_pos, mapM_map_cons, List.flatten_cons, Option.map_map]
  rfl
theorem section_diff (h : m ≠ name) : section_ fl ord name (.elem m as kids :: ns) = section_ fl ord name ns := by
  simp [section_, elems, h]
theorem inside_same (h : m = name) : inside name (.elem m as kids :: ns) = kids ++ inside name ns := by
  simp [inside, elems, h]
theorem inside_diff (h : m ≠ name) : inside name (.elem m as kids :: ns) = inside name ns := by
  simp [inside, elems, h]
end

theorem meta_closed : ∀ (ns : List Node) (x : Meta), foldFields metaG ns x =
    some ⟨textFrom b!"author" ns x.author, textFrom b!"creator" ns x.creator, textFrom b!"subject" ns x.subject⟩
  | [], x => rfl
  | .chars _ :: ns, x => meta_closed ns x
  | .other :: ns, x => meta_closed ns x
  | .elem m as kids :: ns, x => by
    rw [foldFields, metaG]
    by_cases h1 : m = b!"author"
    · rw [if_pos h1, Option.bind_some, meta_closed ns, textFrom_same h1, textFrom_diff (by rw [h1]; decide), textFrom_diff (by rw [h1]; decide)]
    by_cases h2 : m = b!"creator"
    · rw [if_neg h1, if_pos h2, Option.bind_some, meta_closed ns, textFrom_diff h1, textFrom_same h2, textFrom_diff (by rw [h2]; decide)]
    by_cases h3 : m = b!"subject"
    · rw [if_neg h1, if_neg h2, if_pos h3, Option.bind_some, meta_closed ns, textFrom_diff h1, textFrom_diff h2, textFrom_same h3]
    · rw [if_neg h1, if_neg h2, if_neg h3, Option.bind_some, meta_closed ns, textFrom_diff h1, textFrom_diff h2, textFrom_diff h3]

theorem margin_closed : ∀ (ns : List Node) (x : Margins), foldFields (marginG fl) ns x =
    (numberFrom fl b!"left" ns x.left).bind fun l => (numberFrom fl b!"top" ns x.top).bind fun t =>
      (numberFrom fl b!"right" ns x.right).bind fun r => (numberFrom fl b!"bottom" ns x.bottom).bind fun b => some ⟨l, t, r, b⟩
  | [], x => rfl
  | .chars _ :: ns, x => margin_closed ns x
  | .other :: ns, x => margin_closed ns x
  | .elem m as kids :: ns, x => by
    rw [foldFields, marginG]
    by_cases h1 : m = b!"left"
    · rw [if_pos h1, numberFrom_same h1, numberFrom_diff (name := b!"top") (by rw [h1]; decide),
        numberFrom_diff (name := b!"right") (by rw [h1]; decide), numberFrom_diff (name := b!"bottom") (by rw [h1]; decide)]
      cases floatValue fl (directText kids) <;> simp [margin_closed ns]
    by_cases h2 : m = b!"top"
    · rw [if_neg h1, if_pos h2, numberFrom_diff h1, numberFrom_same h2,
        numberFrom_diff (name := b!"right") (by rw [h2]; decide), numberFrom_diff (name := b!"bottom") (by rw [h2]; decide)]
      cases floatValue fl (directText kids)
      · cases numberFrom fl b!"left" ns x.left <;> simp
      · simp [margin_closed ns]
    by_cases h3 : m = b!"right"
    · rw [if_neg h1, if_neg h2, if_pos h3, numberFrom_diff h1, numberFrom_diff h2, numberFrom_same h3,
        numberFrom_diff (name := b!"bottom") (by rw [h3]; decide)]
      cases floatValue fl (directText kids)
      · cases numberFrom fl b!"left" ns x.left <;> cases numberFrom fl b!"top" ns x.top <;> simp
      · simp [margin_closed ns]
    by_cases h4 : m = b!"bottom"
    · rw [if_neg h1, if_neg h2, if_neg h3, if_pos h4, numberFrom_diff h1, numberFrom_diff h2, numberFrom_diff h3, numberFrom_same h4]
      cases floatValue fl (directText kids)
      · cases numberFrom fl b!"left" ns x.left <;> cases numberFrom fl b!"top" ns x.top <;>
          cases numberFrom fl b!"right" ns x.right <;> simp
      · simp [margin_closed ns]
    · rw [if_neg h1, if_neg h2, if_neg h3, if_neg h4, numberFrom_diff h1, numberFrom_diff h2, numberFrom_diff h3, numberFrom_diff h4]
      simp [margin_closed ns]

theorem page_closed : ∀ (ns : List Node) (x : DocPage), foldFields (pageG fl) ns x =
    (foldFields (marginG fl) (inside b!"margins" ns) x.margins).bind fun v =>
      some ⟨textFrom b!"orientation" ns x.orientation, textFrom b!"format" ns x.format, v⟩
  | [], x => rfl
  | .chars _ :: ns, x => page_closed ns x
  | .other :: ns, x => page_closed ns x
  | .elem m as kids :: ns, x => by
    rw [foldFields, pageG]
    by_cases h1 : m = b!"orientation"
    · rw [if_pos h1, Option.bind_some, page_closed ns, textFrom_same h1, textFrom_diff (by rw [h1]; decide), inside_diff (by rw [h1]; decide)]
    by_cases h2 : m = b!"format"
    · rw [if_neg h1, if_pos h2, Option.bind_some, page_closed ns, textFrom_diff h1, textFrom_same h2, inside_diff (by rw [h2]; decide)]
    by_cases h3 : m = b!"margins"
    · rw [if_neg h1, if_neg h2, if_pos h3, textFrom_diff h1, textFrom_diff h2, inside_same h3, foldFields_append]
      cases foldFields (marginG fl) kids x.margins <;> simp [page_closed ns]
    · rw [if_neg h1, if_neg h2, if_neg h3, Option.bind_some, page_closed ns, textFrom_diff h1, textFrom_diff h2, inside_diff h3]

theorem doc_closed : ∀ (ns : List Node) (x : RawDoc), foldFields (docG fl ord) ns x =
    (foldFields metaG (inside b!"meta" ns) x.info).bind fun info =>
      (foldFields (pageG fl) (inside b!"page" ns) x.page).bind fun page =>
        (section_ fl ord b!"header" ns).bind fun h => (section_ fl ord b!"footer" ns).bind fun f =>
          (section_ fl ord b!"body" ns).bind fun b =>
            some ⟨info, page, textFrom b!"style" ns x.style, x.header ++ h, x.footer ++ f, x.body ++ b⟩
  | [], x => by simp [foldFields, inside, section_, elems, textFrom]
  | .chars _ :: ns, x => doc_closed ns x
  | .other :: ns, x => doc_closed ns x
  | .elem m as kids :: ns, x => by
    rw [foldFields, docG]
    by_cases h1 : m = b!"meta"
    · rw [if_pos h1, inside_same h1, inside_diff (name := b!"page") (by rw [h1]; decide), textFrom_diff (by rw [h1]; decide),
        section_diff (name := b!"header") (by rw [h1]; decide), section_diff (name := b!"footer") (by rw [h1]; decide),
        section_diff (name := b!"body") (by rw [h1]; decide), foldFields_append]
      cases foldFields metaG kids x.info <;> simp [doc_closed ns]
    rw [if_neg h1, inside_diff h1]
    by_cases h2 : m = b!"page"
    · rw [if_pos h2, inside_same h2, textFrom_diff (by rw [h2]; decide),
        section_diff (name := b!"header") (by rw [h2]; decide), section_diff (name := b!"footer") (by rw [h2]; decide),
        section_diff (name := b!"body") (by rw [h2]; decide), foldFields_append]
      rw [meta_closed]
      cases foldFields (pageG fl) kids x.page <;> simp [doc_closed ns, meta_closed]
    rw [if_neg h2, inside_diff h2]
    by_cases h3 : m = b!"style"
    · rw [if_pos h3, textFrom_same h3,
        section_diff (name := b!"header") (by rw [h3]; decide), section_diff (name := b!"footer") (by rw [h3]; decide),
        section_diff (name := b!"body") (by rw [h3]; decide)]
      simp [doc_closed ns]
    rw [if_neg h3, textFrom_diff h3]
    by_cases h4 : m = b!"header"
    · rw [if_pos h4, section_same h4, section_diff (name := b!"footer") (by rw [h4]; decide),
        section_diff (name := b!"body") (by rw [h4]; decide), meta_closed]
      cases contents fl ord as kids with
      | none => cases foldFields (pageG fl) (inside b!"page" ns) x.page <;> simp
      | some v =>
        simp only [Option.bind_some]
        rw [doc_closed ns, meta_closed]
        cases foldFields (pageG fl) (inside b!"page" ns) x.page <;> cases section_ fl ord b!"header" ns <;>
          cases section_ fl ord b!"footer" ns <;> cases section_ fl ord b!"body" ns <;> simp
    rw [if_neg h4, section_diff h4]
    by_cases h5 : m = b!"footer"
    · rw [if_pos h5, section_same h5, section_diff (name := b!"body") (by rw [h5]; decide), meta_closed]
      cases contents fl ord as kids with
      | none =>
        cases foldFields (pageG fl) (inside b!"page" ns) x.page <;> cases section_ fl ord b!"header" ns <;> simp
      | some v =>
        simp only [Option.bind_some]
        rw [doc_closed ns, meta_closed]
        cases foldFields (pageG fl) (inside b!"page" ns) x.page <;> cases section_ fl ord b!"header" ns <;>
          cases section_ fl ord b!"footer" ns <;> cases section_ fl ord b!"body" ns <;> simp
    rw [if_neg h5, section_diff h5]
    by_cases h6 : m = b!"body"
    · rw [if_pos h6, section_same h6, meta_closed]
      cases contents fl ord as kids with
      | none =>
        cases foldFields (pageG fl) (inside b!"page" ns) x.page <;> cases section_ fl ord b!"header" ns <;>
          cases section_ fl ord b!"footer" ns <;> simp
      | some v =>
        simp only [Option.bind_some]
        rw [doc_closed ns, meta_closed]
        cases foldFields (pageG fl) (inside b!"page" ns) x.page <;> cases section_ fl ord b!"header" ns <;>
          cases section_ fl ord b!"footer" ns <;> cases section_ fl ord b!"body" ns <;> simp
    rw [if_neg h6, section_diff h6]
    simp [doc_closed ns]

/-! ### The document -/

theorem root_misc (fl : Floats) (ord : Nat → MapOrder) : ∀ (misc : List Tok) (n : Nat) (R : List Tok), misc.all isMisc = true →
    decodeRoot fl ord (misc.length + n) ⟨[], misc ++ R⟩ = decodeRoot fl ord n ⟨[], R⟩
  | [], n, R, _ => by simp
  | t :: misc, n, R, h => by
    simp only [List.all_cons, Bool.and_eq_true] at h
    rw [show (t :: misc).length + n = (misc.length + n) + 1 by simp; omega]
    rw [← root_misc fl ord misc n R h.2]
    cases t with
    | chars t => rfl
    | other => rfl
    | start _ _ => simp [isMisc] at h
    | close _ => simp [isMisc] at h

theorem root_tree (kids : List Node) (as : List Attr) (n : Nat) (post : List Tok) :
    Gives (decodeRoot fl ord (n + 1) ⟨[], (Node.elem b!"document" as kids).toks ++ post⟩)
      (foldFields (docG fl ord) kids emptyDoc) ⟨[], post⟩ := by
  have := struct_gives (docField_is (fl := fl) (ord := ord)) kids emptyDoc b!"document" [] post
  simpa [decodeRoot, Node.toks, Decoder.token] using this

/-- Loading the tokens of a document. -/
theorem load_tree (sheetOrd : Nat → MapOrder) (misc : List Tok) (hm : misc.all isMisc = true) (as : List Attr) (kids : List Node)
    (post : List Tok) :
    load fl ord sheetOrd (misc ++ ((Node.elem b!"document" as kids).toks ++ post)) = loaded fl ord sheetOrd kids := by
  have h := root_tree (fl := fl) (ord := ord) kids as ((Node.elem b!"document" as kids).toks ++ post).length post
  have e : (decodeRoot fl ord ((misc ++ ((Node.elem b!"document" as kids).toks ++ post)).length + 1)
      ⟨[], misc ++ ((Node.elem b!"document" as kids).toks ++ post)⟩).1 = foldFields (docG fl ord) kids emptyDoc := by
    rw [List.length_append, Nat.add_assoc, root_misc fl ord misc _ _ hm]
    cases hf : foldFields (docG fl ord) kids emptyDoc with
    | none => rw [hf] at h; exact h
    | some x => rw [hf] at h; rw [show decodeRoot fl ord _ _ = _ from h]
  unfold load
  rw [e, doc_closed, meta_closed, page_closed, margin_closed]
  simp only [emptyDoc, List.nil_append]
  simp only [show ∀ name ns, textFrom name ns [] = textOf name ns from fun _ _ => rfl,
    show ∀ name ns, numberFrom fl name ns 0 = numberOf fl name ns from fun _ _ => rfl]
  unfold loaded
  simp only [Option.bind_eq_bind, Option.pure_def]
  cases numberOf fl b!"left" (inside b!"margins" (inside b!"page" kids)) with
  | none => rfl
  | some l =>
    cases numberOf fl b!"top" (inside b!"margins" (inside b!"page" kids)) with
    | none => rfl
    | some t =>
      cases numberOf fl b!"right" (inside b!"margins" (inside b!"page" kids)) with
      | none => rfl
      | some r =>
        cases numberOf fl b!"bottom" (inside b!"margins" (inside b!"page" kids)) with
        | none => rfl
        | some b =>
          cases section_ fl ord b!"header" kids with
          | none => rfl
          | some h =>
            cases section_ fl ord b!"footer" kids with
            | none => rfl
            | some f =>
              cases section_ fl ord b!"body" kids with
              | none => rfl
              | some bd => cases hc : decodeClasses fl sheetOrd (textOf b!"style" kids) <;> simp [hc]

end

end Verif.Proofs
