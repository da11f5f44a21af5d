import Verif.Proofs.LoadTree
/-
The token loops on the tokens of a tree do what the specification says.
-/
namespace Verif.Proofs
open Verif.Go Verif.Model Verif.Spec

variable {fl : Floats} {ord : Nat → MapOrder}

/-! ### What the specification says for each name -/

section
variable {attrs : List Attr} {kids : List Node}
theorem out_font : outcome fl ord (.elem b!"font" attrs kids) = .of ((newStyled fl ord attrs).map .font) := by rw [outcome]; rfl
theorem out_image : outcome fl ord (.elem b!"image" attrs kids) = .of ((newStyled fl ord attrs).map (.image · (directText kids))) := by
  rw [outcome]; rfl
theorem out_p : outcome fl ord (.elem b!"p" attrs kids) = .of ((newStyled fl ord attrs).map (.paragraph · (directText kids))) := by
  rw [outcome]; rfl
theorem out_br : outcome fl ord (.elem b!"br" attrs kids) = .ok .lineBreak := by rw [outcome]; rfl
theorem out_newpage : outcome fl ord (.elem b!"newpage" attrs kids) = .ok .pageBreak := by rw [outcome]; rfl
theorem out_lf : outcome fl ord (.elem b!"lf" attrs kids) = .ofAttr ((floatAttr fl b!"lines" attrs 0).map .lineFeed) := by
  rw [outcome]; rfl
theorem out_setx : outcome fl ord (.elem b!"setx" attrs kids) = .ofAttr ((floatAttr fl b!"x" attrs 0).map .setX) := by
  rw [outcome]; rfl
theorem out_sety : outcome fl ord (.elem b!"sety" attrs kids) = .ofAttr ((floatAttr fl b!"y" attrs 0).map .setY) := by
  rw [outcome]; rfl
theorem out_box : outcome fl ord (.elem b!"box" attrs kids) =
    match newStyled fl ord attrs, strictly fl ord true kids with
    | some st, some iss => .ok (.box st iss)
    | _, _ => .fatal := by rw [outcome]; rfl
theorem out_text : outcome fl ord (.elem b!"text" attrs kids) =
    match newStyled fl ord attrs, strictly fl ord true kids with
    | some st, some iss => .ok (.text st iss)
    | _, _ => .fatal := by rw [outcome]; rfl
theorem out_table : outcome fl ord (.elem b!"table" attrs kids) =
    match strictly fl ord false kids with
    | none => .fatal
    | some iss => .of ((tableDecodeAttrs fl ord attrs).map fun x => .table x.2 x.1 (rowsOf iss)) := by rw [outcome]; rfl
theorem out_tr : outcome fl ord (.elem b!"tr" attrs kids) =
    match strictly fl ord false kids with
    | none => .fatal
    | some iss => .of ((newStyled fl ord attrs).map fun st => .tableRow (.mk st (cellsOf iss))) := by rw [outcome]; rfl
theorem out_td : outcome fl ord (.elem b!"td" attrs kids) =
    match leniently fl ord true kids with
    | none => .fatal
    | some iss => .of ((cellDecodeAttrs fl ord attrs).map fun x => .tableCell (.mk x.2.2 x.1 x.2.1 iss)) := by rw [outcome]; rfl
theorem out_grid : outcome fl ord (.elem b!"grid" attrs kids) =
    match leniently fl ord false kids with
    | none => .fatal
    | some iss =>
      if gridValidate ((gridRowsOf iss).map (·.2)) ((partsOf iss).map (·.area)) then
        .of ((newStyled fl ord attrs).map (.grid · (gridRowsOf iss) (partsOf iss)))
      else .dropped := by rw [outcome]; rfl
theorem out_gr : outcome fl ord (.elem b!"gr" attrs kids) =
    if hasAny b!"gr" kids then .fatal
    else .of ((newStyled fl ord attrs).map (.gridRow · (areasAfter (lastTextAll kids) []))) := by rw [outcome]; rfl
theorem out_part : outcome fl ord (.elem b!"part" attrs kids) =
    match leniently fl ord false kids with
    | none => .fatal
    | some iss => .of ((partDecodeAttrs fl ord attrs).map fun x => .gridPart (.mk x.2 x.1 iss)) := by rw [outcome]; rfl
theorem out_unknown {name : Str} (h : name ∉ instructionNames) : outcome fl ord (.elem name attrs kids) = .opened := by
  simp only [instructionNames, List.mem_cons, List.not_mem_nil, or_false, not_or] at h
  obtain ⟨h1, h2, h3, h4, h5, h6, h7, h8, h9, h10, h11, h12, h13, h14, h15, h16⟩ := h
  rw [outcome]
  rw [if_neg h1, if_neg h7, if_neg h14, if_neg h15, if_neg h16, if_neg h4, if_neg h5, if_neg h6, if_neg h2, if_neg h3, if_neg h8,
    if_neg h9, if_neg h10, if_neg h11, if_neg h12, if_neg h13]
end

theorem of_ne_opened (o : Option Instr) : Outcome.of o ≠ .opened := by cases o <;> simp [Outcome.of]

/-- The elements whose token loops carry on after an error. -/
def Lenient (name : Str) : Prop := name = b!"td" ∨ name = b!"grid" ∨ name = b!"part"

theorem opened_ne {name m : Str} (hl : Lenient name) {attrs kids} (h : outcome fl ord (.elem m attrs kids) = .opened) : m ≠ name := by
  intro he
  subst he
  rcases hl with rfl | rfl | rfl
  · rw [out_td] at h
    split at h
    · cases h
    · exact of_ne_opened _ h
  · rw [out_grid] at h
    split at h
    · cases h
    · split at h
      · exact of_ne_opened _ h
      · cases h
  · rw [out_part] at h
    split at h
    · cases h
    · exact of_ne_opened _ h

/-! ### Statements -/

/-- DecodeInstruction does to an element what the outcome says. -/
def Follows (fl : Floats) (ord : Nat → MapOrder) (name : Str) (attrs : List Attr) (kids : List Node) (o : Outcome) : Prop :=
  ∀ n, (toksAll kids).length + 1 ≤ n → ∀ (T : List Frame) (R : List Tok),
    match o with
    | .ok i => decodeInstruction fl ord (childLoop fl ord n) name attrs ⟨.elem name :: T, toksAll kids ++ .close name :: R⟩ =
        (some i, ⟨T, R⟩)
    | .dropped => decodeInstruction fl ord (childLoop fl ord n) name attrs ⟨.elem name :: T, toksAll kids ++ .close name :: R⟩ =
        (none, ⟨T, R⟩)
    | .opened => decodeInstruction fl ord (childLoop fl ord n) name attrs ⟨.elem name :: T, toksAll kids ++ .close name :: R⟩ =
        (none, ⟨.elem name :: T, toksAll kids ++ .close name :: R⟩)
    | .fatal => ∀ A B, T = A ++ B → 1 ≤ marks A → NoTop A →
        Leaks (marks A) B
          (decodeInstruction fl ord (childLoop fl ord n) name attrs ⟨.elem name :: T, toksAll kids ++ .close name :: R⟩).2

/-- The token loop reads these trees. -/
def Reads (fl : Floats) (ord : Nat → MapOrder) (pol : Policy) (name : Str) (ns : List Node) (iss : List Instr) : Prop :=
  ∀ m n, (toksAll ns).length + m ≤ n → ∀ (acc : List Instr) (x : Str) (T : List Frame) (R : List Tok), ∃ n', m ≤ n' ∧
    childLoop fl ord n pol name acc ⟨.elem x :: T, toksAll ns ++ R⟩ = childLoop fl ord n' pol name (acc ++ iss) ⟨.elem x :: T, R⟩

/-- The token loop ends inside of an element. -/
def Stuck (k : Nat) (B : List Frame) (r : Option (List Instr) × Decoder) : Prop :=
  r.1 = none ∧ ∃ y P, r.2.stk = .elem y :: P ++ B ∧ k ≤ marks P

/-- The token loop cannot read these trees. -/
def Fails (fl : Floats) (ord : Nat → MapOrder) (pol : Policy) (name : Str) (ns : List Node) : Prop :=
  ∀ n, (toksAll ns).length + 1 ≤ n → ∀ (acc : List Instr) (x : Str) (A B : List Frame) (R : List Tok),
    1 ≤ marks A → NoTop (.elem x :: A) →
    Leaks (marks A) B (childLoop fl ord n pol name acc ⟨.elem x :: A ++ B, toksAll ns ++ R⟩).2 ∨
    (pol.lenient = false ∧ Stuck (marks A) B (childLoop fl ord n pol name acc ⟨.elem x :: A ++ B, toksAll ns ++ R⟩))

/-- The token loop on these trees. -/
def Runs (fl : Floats) (ord : Nat → MapOrder) (pol : Policy) (name : Str) (ns : List Node) : Option (List Instr) → Prop
  | some iss => Reads fl ord pol name ns iss
  | none => Fails fl ord pol name ns

/-! ### unmarshalInterface -/

theorem Leaks.marked {k l B d} (h : Leaks k B d) (hm : MarkedIn l B d) : MarkedIn (k + 1) B d := by
  obtain ⟨A, h1, h2⟩ := h
  obtain ⟨A', e1, e2, e3⟩ := hm
  have : A = A' := List.append_cancel_right (h1.symm.trans e1)
  exact ⟨A', e1, this ▸ h2, e3⟩

theorem MarkedIn.leaks {k B d} (h : MarkedIn (k + 1) B d) : Leaks k B d := by
  obtain ⟨A, h1, h2, -⟩ := h
  exact ⟨A, h1, h2⟩

theorem unmarshal_leaks {α : Type} {k B} {f : Decoder → Option α × Decoder} {d : Decoder}
    (h : Leaks (k + 1) B (f ⟨pushEOF d.stk, d.rest⟩).2) : Leaks k B (unmarshalInterface f d).2 := by
  obtain ⟨A', e1, e2⟩ := h
  unfold unmarshalInterface
  simp only
  split
  · rename_i s hs
    match A', e1, e2 with
    | [], e1, e2 => simp [marks] at e2
    | .eof :: A', e1, e2 =>
      rw [e1] at hs
      simp at hs
      exact ⟨A', hs.symm, by simp [marks] at e2; omega⟩
    | .elem _ :: A', e1, e2 => rw [e1] at hs; simp at hs
  · exact ⟨A', e1, by omega⟩

theorem unmarshal_stuck {α : Type} {k B} {f : Decoder → Option α × Decoder} {d : Decoder} {y P}
    (h : (f ⟨pushEOF d.stk, d.rest⟩).2.stk = .elem y :: P ++ B) (hk : k + 1 ≤ marks P) :
    Leaks k B (unmarshalInterface f d).2 := by
  unfold unmarshalInterface
  simp only
  split
  · rename_i s hs
    rw [h] at hs
    simp at hs
  · exact ⟨.elem y :: P, h, by simpa [marks] using hk⟩

theorem unmarshal_reads {pol name kids iss} (h : Reads fl ord pol name kids iss) {n : Nat} (hn : (toksAll kids).length + 1 ≤ n)
    (T : List Frame) (R : List Tok) :
    childLoop fl ord n pol name [] ⟨.elem name :: .eof :: T, toksAll kids ++ .close name :: R⟩ = (some iss, ⟨.eof :: T, R⟩) := by
  obtain ⟨n', h1, h2⟩ := h 1 n hn [] name (.eof :: T) (.close name :: R)
  rw [h2]
  obtain ⟨n'', rfl⟩ : ∃ n'', n' = n'' + 1 := ⟨n' - 1, by omega⟩
  rw [childLoop_close (m := name) (d' := ⟨.eof :: T, R⟩) (by simp [Decoder.token])]
  simp

theorem unmarshal_fails {pol name kids} (h : Fails fl ord pol name kids) {n : Nat} (hn : (toksAll kids).length + 1 ≤ n)
    (hname : ¬ isTop name) (A B : List Frame) (R : List Tok) (hA : NoTop A) :
    Leaks (marks A + 1) B (childLoop fl ord n pol name [] ⟨.elem name :: .eof :: (A ++ B), toksAll kids ++ .close name :: R⟩).2 ∨
    Stuck (marks A + 1) B (childLoop fl ord n pol name [] ⟨.elem name :: .eof :: (A ++ B), toksAll kids ++ .close name :: R⟩) := by
  have := h n hn [] name (.eof :: A) B (.close name :: R) (by simp [marks]) (hA.mark hname)
  rcases this with h | h
  · left; simpa [marks] using h
  · right; simpa [marks] using h.2

theorem container_ok {pol name kids iss} (h : Reads fl ord pol name kids iss) {n : Nat} (hn : (toksAll kids).length + 1 ≤ n)
    (T : List Frame) (R : List Tok) :
    unmarshalInterface (childLoop fl ord n pol name []) ⟨.elem name :: T, toksAll kids ++ .close name :: R⟩ = (some iss, ⟨T, R⟩) := by
  simp only [unmarshalInterface, pushEOF]
  rw [unmarshal_reads h hn]

theorem container_bad {pol name kids} (h : Fails fl ord pol name kids) {n : Nat} (hn : (toksAll kids).length + 1 ≤ n)
    (hname : ¬ isTop name) (A B : List Frame) (R : List Tok) (hA : NoTop A) :
    Leaks (marks A) B
      (unmarshalInterface (childLoop fl ord n pol name []) ⟨.elem name :: (A ++ B), toksAll kids ++ .close name :: R⟩).2 := by
  rcases unmarshal_fails h hn hname A B R hA with h | ⟨-, y, P, h1, h2⟩
  · exact unmarshal_leaks (by simpa [pushEOF] using h)
  · exact unmarshal_stuck (y := y) (P := P) (by simpa [pushEOF] using h1) h2

/-! ### One element, from its contents -/

theorem follows_leaf {name attrs kids} {f : Str → Option Instr}
    (hd : ∀ loop d, decodeInstruction fl ord loop name attrs d = andThen (leaf d) f) :
    Follows fl ord name attrs kids (.of (f (directText kids))) := by
  intro n hn T R
  cases hf : f (directText kids) <;> simp [Outcome.of, hd, leaf_tree, andThen, hf]

theorem follows_float {name attrs kids} {o : Option ℚ} {f : ℚ → Instr}
    (hd : ∀ loop d, decodeInstruction fl ord loop name attrs d =
      match o with
      | none => (none, d)
      | some x => andThen (leaf d) fun _ => some (f x)) :
    Follows fl ord name attrs kids (.ofAttr (o.map f)) := by
  intro n hn T R
  cases o <;> simp [Outcome.ofAttr, hd, leaf_tree, andThen]

theorem follows_instructions {name attrs kids} {f : Styled → List Instr → Instr} (hname : ¬ isTop name)
    (hs : Runs fl ord ⟨false, true⟩ name kids (strictly fl ord true kids))
    (hd : ∀ loop d, decodeInstruction fl ord loop name attrs d =
      andThen (unmarshalInterface (unmarshalInstructions fl ord loop name attrs) d) fun iss => (newStyled fl ord attrs).map (f · iss)) :
    Follows fl ord name attrs kids
      (match newStyled fl ord attrs, strictly fl ord true kids with
      | some st, some iss => .ok (f st iss)
      | _, _ => .fatal) := by
  intro n hn T R
  cases ha : newStyled fl ord attrs with
  | none =>
    intro A B hT hA1 hA
    subst hT
    rw [hd]
    refine unmarshal_stuck (k := marks A) (y := name) (P := .eof :: A) ?_ (by simp [marks])
    simp [unmarshalInstructions, ha, pushEOF]
  | some st =>
    cases hk : strictly fl ord true kids with
    | some iss =>
      rw [hk] at hs
      simp only [hd]
      have : unmarshalInterface (unmarshalInstructions fl ord (childLoop fl ord n) name attrs)
          ⟨.elem name :: T, toksAll kids ++ .close name :: R⟩ = (some iss, ⟨T, R⟩) := by
        simp only [unmarshalInterface, pushEOF, unmarshalInstructions, ha]
        rw [instructionsPolicy, unmarshal_reads hs hn]
      rw [this]
      simp [andThen, ha]
    | none =>
      rw [hk] at hs
      intro A B hT hA1 hA
      subst hT
      rw [hd]
      have e : ∀ d, unmarshalInstructions fl ord (childLoop fl ord n) name attrs d =
          childLoop fl ord n ⟨false, true⟩ name [] d := by
        intro d; simp only [unmarshalInstructions, ha]; rfl
      rcases unmarshal_fails hs hn hname A B R hA with h | ⟨-, y, P, h1, h2⟩
      · exact unmarshal_leaks (f := unmarshalInstructions fl ord (childLoop fl ord n) name attrs) (by simpa [pushEOF, e] using h)
      · exact unmarshal_stuck (f := unmarshalInstructions fl ord (childLoop fl ord n) name attrs) (y := y) (P := P)
          (by simpa [pushEOF, e] using h1) h2

theorem follows_container {name attrs kids pol} {o : Option (List Instr)} {f : List Instr → Option Instr} (hname : ¬ isTop name)
    (hs : Runs fl ord pol name kids o)
    (hd : ∀ loop d, decodeInstruction fl ord loop name attrs d = andThen (unmarshalInterface (loop pol name []) d) f) :
    Follows fl ord name attrs kids (match (generalizing := false) o with | none => .fatal | some iss => .of (f iss)) := by
  intro n hn T R
  cases o with
  | none =>
    intro A B hT hA1 hA
    subst hT
    rw [hd]
    exact container_bad hs hn hname A B R hA
  | some iss =>
    cases hf : f iss <;> simp [Outcome.of, hd, container_ok hs hn, andThen, hf]

theorem follows_grid {attrs kids} {o : Option (List Instr)} (hs : Runs fl ord ⟨true, false⟩ b!"grid" kids o) :
    Follows fl ord b!"grid" attrs kids
      (match (generalizing := false) o with
      | none => .fatal
      | some iss =>
        if gridValidate ((gridRowsOf iss).map (·.2)) ((partsOf iss).map (·.area)) then
          .of ((newStyled fl ord attrs).map (.grid · (gridRowsOf iss) (partsOf iss)))
        else .dropped) := by
  intro n hn T R
  cases o with
  | none =>
    intro A B hT hA1 hA
    subst hT
    rw [dec_grid]
    rcases unmarshal_fails hs hn (not_isTop_reg b!"grid" (by decide)) A B R hA with h | ⟨-, y, P, h1, h2⟩
    · exact unmarshal_leaks (f := unmarshalGrid (childLoop fl ord n) b!"grid")
        (by simpa [pushEOF, unmarshalGrid, andThen, gridPolicy] using h)
    · exact unmarshal_stuck (f := unmarshalGrid (childLoop fl ord n) b!"grid") (y := y) (P := P)
          (by simpa [pushEOF, unmarshalGrid, andThen, gridPolicy] using h1) h2
  | some iss =>
    have : unmarshalInterface (unmarshalGrid (childLoop fl ord n) b!"grid") ⟨.elem b!"grid" :: T, toksAll kids ++ .close b!"grid" :: R⟩ =
        (if gridValidate ((gridRowsOf iss).map (·.2)) ((partsOf iss).map (·.area)) then some iss else none, ⟨T, R⟩) := by
      simp only [unmarshalInterface, pushEOF, unmarshalGrid, gridPolicy]
      rw [unmarshal_reads hs hn]
      simp [andThen]
    rw [dec_grid, this]
    cases hv : gridValidate ((gridRowsOf iss).map (·.2)) ((partsOf iss).map (·.area)) with
    | true => simp only [hv, if_true]; cases hf : newStyled fl ord attrs <;> simp [Outcome.of, andThen]
    | false => simp [hv, andThen]

theorem follows_gr {attrs kids} :
    Follows fl ord b!"gr" attrs kids
      (if hasAny b!"gr" kids then .fatal
      else .of ((newStyled fl ord attrs).map (.gridRow · (areasAfter (lastTextAll kids) [])))) := by
  intro n hn T R
  cases hk : hasAny b!"gr" kids with
  | true =>
    simp only [if_true]
    intro A B hT hA1 hA
    subst hT
    rw [dec_gr]
    exact gr_tree_bad b!"gr" A B R hk
  | false =>
    simp only [dec_gr, gr_tree b!"gr" T R hk]
    cases hf : newStyled fl ord attrs <;> simp [Outcome.of, andThen]

theorem follows_of {kids : List Node} (hs : ∀ texts name, Runs fl ord ⟨false, texts⟩ name kids (strictly fl ord texts kids))
    (hl : ∀ texts name, Lenient name → Runs fl ord ⟨true, texts⟩ name kids (leniently fl ord texts kids)) (attrs : List Attr) :
    ∀ name, Follows fl ord name attrs kids (outcome fl ord (.elem name attrs kids)) := by
  refine name_cases ?_ ?_ ?_ ?_ ?_ ?_ ?_ ?_ ?_ ?_ ?_ ?_ ?_ ?_ ?_ ?_ ?_
  · rw [out_font]; exact follows_leaf (f := fun _ => (newStyled fl ord attrs).map .font) fun _ _ => dec_font
  · rw [out_box]; exact follows_instructions (not_isTop_reg _ (by decide)) (hs _ _) fun _ _ => dec_box
  · rw [out_text]; exact follows_instructions (not_isTop_reg _ (by decide)) (hs _ _) fun _ _ => dec_text
  · rw [out_lf]; exact follows_float fun _ _ => dec_lf
  · rw [out_setx]; exact follows_float fun _ _ => dec_setx
  · rw [out_sety]; exact follows_float fun _ _ => dec_sety
  · rw [out_image]; exact follows_leaf (f := fun data => (newStyled fl ord attrs).map (.image · data)) fun _ _ => dec_image
  · rw [out_table]; exact follows_container (not_isTop_reg _ (by decide)) (hs _ _) fun _ _ => dec_table
  · rw [out_tr]; exact follows_container (not_isTop_reg _ (by decide)) (hs _ _) fun _ _ => dec_tr
  · rw [out_td]; exact follows_container (not_isTop_reg _ (by decide)) (hl _ _ (by simp [Lenient])) fun _ _ => dec_td
  · rw [out_grid]; exact follows_grid (hl _ _ (by simp [Lenient]))
  · rw [out_gr]; exact follows_gr
  · rw [out_part]; exact follows_container (not_isTop_reg _ (by decide)) (hl _ _ (by simp [Lenient])) fun _ _ => dec_part
  · rw [out_p]; exact follows_leaf (f := fun data => (newStyled fl ord attrs).map (.paragraph · data)) fun _ _ => dec_p
  · rw [out_br]; exact follows_leaf (f := fun _ => some .lineBreak) fun _ _ => dec_br
  · rw [out_newpage]; exact follows_leaf (f := fun _ => some .pageBreak) fun _ _ => dec_newpage
  · intro name hn
    rw [out_unknown hn]
    intro n _ T R
    exact dec_unknown hn

/-! ### Lists of trees -/

theorem runs_nil {pol name} : Runs fl ord pol name [] (some []) := by
  intro m n hn acc x T R
  exact ⟨n, by simpa [toksAll] using hn, by simp [toksAll]⟩

theorem runs_chars {pol name ns t o} (h : Runs fl ord pol name ns o) :
    Runs fl ord pol name (.chars t :: ns) (o.map fun r => if pol.texts ∧ t ≠ [] then .textBlock t :: r else r) := by
  have hstep : ∀ n acc x T R, childLoop fl ord (n + 1) pol name acc ⟨.elem x :: T, toksAll (.chars t :: ns) ++ R⟩ =
      childLoop fl ord n pol name (if pol.texts && t != [] then acc ++ [.textBlock t] else acc) ⟨.elem x :: T, toksAll ns ++ R⟩ := by
    intro n acc x T R
    exact childLoop_chars rfl
  cases o with
  | some iss =>
    intro m n hn acc x T R
    simp only [toksAll, Node.toks, List.length_append, List.length_cons, List.length_nil] at hn
    obtain ⟨n, rfl⟩ : ∃ k, n = k + 1 := ⟨n - 1, by omega⟩
    rw [hstep]
    obtain ⟨n', h1, h2⟩ := h m n (by omega) (if pol.texts && t != [] then acc ++ [.textBlock t] else acc) x T R
    refine ⟨n', h1, h2.trans ?_⟩
    congr 1
    by_cases hc : pol.texts = true ∧ t ≠ []
    · simp [hc.1, hc.2]
    · simp only [if_neg hc]
      rw [if_neg (by simpa using hc)]
  | none =>
    intro n hn acc x A B R hA1 hA
    simp only [toksAll, Node.toks, List.length_append, List.length_cons, List.length_nil] at hn
    obtain ⟨n, rfl⟩ : ∃ k, n = k + 1 := ⟨n - 1, by omega⟩
    have := h n (by omega) (if pol.texts && t != [] then acc ++ [.textBlock t] else acc) x A B R hA1 hA
    rwa [List.cons_append, hstep, ← List.cons_append]

theorem runs_other {pol name ns o} (h : Runs fl ord pol name ns o) : Runs fl ord pol name (.other :: ns) o := by
  have hstep : ∀ n acc x T R, childLoop fl ord (n + 1) pol name acc ⟨.elem x :: T, toksAll (.other :: ns) ++ R⟩ =
      childLoop fl ord n pol name acc ⟨.elem x :: T, toksAll ns ++ R⟩ := by
    intro n acc x T R
    exact childLoop_other rfl
  cases o with
  | some iss =>
    intro m n hn acc x T R
    simp only [toksAll, Node.toks, List.length_append, List.length_cons, List.length_nil] at hn
    obtain ⟨n, rfl⟩ : ∃ k, n = k + 1 := ⟨n - 1, by omega⟩
    rw [hstep]
    exact h m n (by omega) acc x T R
  | none =>
    intro n hn acc x A B R hA1 hA
    simp only [toksAll, Node.toks, List.length_append, List.length_cons, List.length_nil] at hn
    obtain ⟨n, rfl⟩ : ∃ k, n = k + 1 := ⟨n - 1, by omega⟩
    have := h n (by omega) acc x A B R hA1 hA
    rwa [List.cons_append, hstep, ← List.cons_append]

section
variable {pol : Policy} {name m : Str} {as : List Attr} {kids ns : List Node}

/-- The loop at the start of an element. -/
theorem loop_elem (n : Nat) (acc : List Instr) (x : Str) (T : List Frame) (R : List Tok) :
    childLoop fl ord (n + 1) pol name acc ⟨.elem x :: T, toksAll (.elem m as kids :: ns) ++ R⟩ =
      match decodeInstruction fl ord (childLoop fl ord n) m as
        ⟨.elem m :: .elem x :: T, toksAll kids ++ .close m :: (toksAll ns ++ R)⟩ with
      | (some i, d) => childLoop fl ord n pol name (acc ++ [i]) d
      | (none, d) => if pol.lenient then childLoop fl ord n pol name acc d else (none, d) := by
  refine childLoop_start (d' := ⟨.elem m :: .elem x :: T, toksAll kids ++ .close m :: (toksAll ns ++ R)⟩) ?_
  simp [toksAll, Node.toks, Decoder.token]

theorem elem_length : (toksAll (.elem m as kids :: ns)).length = (toksAll kids).length + 2 + (toksAll ns).length := by
  simp [toksAll, Node.toks]; omega

theorem runs_ok {o i} (hf : Follows fl ord m as kids (.ok i)) (h : Runs fl ord pol name ns o) :
    Runs fl ord pol name (.elem m as kids :: ns) (o.map (i :: ·)) := by
  cases o with
  | some iss =>
    intro k n hn acc x T R
    rw [elem_length] at hn
    obtain ⟨n, rfl⟩ : ∃ k, n = k + 1 := ⟨n - 1, by omega⟩
    rw [loop_elem, hf n (by omega) (.elem x :: T) (toksAll ns ++ R)]
    obtain ⟨n', h1, h2⟩ := h k n (by omega) (acc ++ [i]) x T R
    exact ⟨n', h1, by simp only; rw [h2]; simp⟩
  | none =>
    intro n hn acc x A B R hA1 hA
    rw [elem_length] at hn
    obtain ⟨n, rfl⟩ : ∃ k, n = k + 1 := ⟨n - 1, by omega⟩
    rw [List.cons_append, loop_elem, hf n (by omega) (.elem x :: (A ++ B)) (toksAll ns ++ R)]
    exact h n (by omega) (acc ++ [i]) x A B R hA1 hA

theorem runs_fatal (hf : Follows fl ord m as kids .fatal) : Runs fl ord pol name (.elem m as kids :: ns) none := by
  intro n hn acc x A B R hA1 hA
  rw [elem_length] at hn
  obtain ⟨n, rfl⟩ : ∃ k, n = k + 1 := ⟨n - 1, by omega⟩
  rw [List.cons_append, loop_elem]
  have hl := hf n (by omega) (.elem x :: A ++ B) (toksAll ns ++ R) (.elem x :: A) B rfl hA1 hA
  obtain ⟨k, hk⟩ : ∃ k, marks A = k + 1 := ⟨marks A - 1, by omega⟩
  have hm : MarkedIn (k + 1) B (decodeInstruction fl ord (childLoop fl ord n) m as
      ⟨.elem m :: .elem x :: (A ++ B), toksAll kids ++ .close m :: (toksAll ns ++ R)⟩).2 := by
    refine decode_marked (fun k pol name acc d h => childLoop_marked h) m ?_
    exact ⟨.elem x :: A, by simp, by simp [marks]; omega, hA, hA.push⟩
  have hm2 := hl.marked hm
  left
  rcases hy : decodeInstruction fl ord (childLoop fl ord n) m as
      ⟨.elem m :: .elem x :: (A ++ B), toksAll kids ++ .close m :: (toksAll ns ++ R)⟩ with ⟨_ | i, d⟩
  · simp only [List.cons_append, hy] at hm2
    simp only
    split
    · exact (childLoop_marked hm2).leaks
    · exact hm2.leaks
  · simp only [List.cons_append, hy] at hm2
    exact (childLoop_marked hm2).leaks

theorem runs_strict {o} (hp : pol.lenient = false) (ho : o = .dropped ∨ o = .opened) (hf : Follows fl ord m as kids o) :
    Runs fl ord pol name (.elem m as kids :: ns) none := by
  intro n hn acc x A B R hA1 hA
  rw [elem_length] at hn
  obtain ⟨n, rfl⟩ : ∃ k, n = k + 1 := ⟨n - 1, by omega⟩
  rw [List.cons_append, loop_elem]
  right
  refine ⟨hp, ?_⟩
  have h := hf n (by omega) (.elem x :: (A ++ B)) (toksAll ns ++ R)
  rcases ho with rfl | rfl
  · simp only at h
    rw [h]
    simp only [hp]
    exact ⟨rfl, x, A, by simp, Nat.le_refl _⟩
  · simp only at h
    rw [h]
    simp only [hp]
    exact ⟨rfl, m, .elem x :: A, by simp, by simp [marks]⟩

theorem runs_dropped {o} (hp : pol.lenient = true) (hf : Follows fl ord m as kids .dropped) (h : Runs fl ord pol name ns o) :
    Runs fl ord pol name (.elem m as kids :: ns) o := by
  cases o with
  | some iss =>
    intro k n hn acc x T R
    rw [elem_length] at hn
    obtain ⟨n, rfl⟩ : ∃ k, n = k + 1 := ⟨n - 1, by omega⟩
    rw [loop_elem, hf n (by omega) (.elem x :: T) (toksAll ns ++ R)]
    simp only [hp, if_true]
    exact h k n (by omega) acc x T R
  | none =>
    intro n hn acc x A B R hA1 hA
    rw [elem_length] at hn
    obtain ⟨n, rfl⟩ : ∃ k, n = k + 1 := ⟨n - 1, by omega⟩
    rw [List.cons_append, loop_elem, hf n (by omega) (.elem x :: (A ++ B)) (toksAll ns ++ R)]
    simp only [hp, if_true]
    have := h n (by omega) acc x A B R hA1 hA
    simpa [hp] using this

theorem runs_opened {o1 o2} (hp : pol.lenient = true) (hne : m ≠ name) (hf : Follows fl ord m as kids .opened)
    (h1 : Runs fl ord pol name kids o1) (h2 : Runs fl ord pol name ns o2) :
    Runs fl ord pol name (.elem m as kids :: ns) (match (generalizing := false) o1 with | none => none | some iss => o2.map (iss ++ ·)) := by
  cases o1 with
  | none =>
    intro n hn acc x A B R hA1 hA
    rw [elem_length] at hn
    obtain ⟨n, rfl⟩ : ∃ k, n = k + 1 := ⟨n - 1, by omega⟩
    rw [List.cons_append, loop_elem, hf n (by omega) (.elem x :: (A ++ B)) (toksAll ns ++ R)]
    simp only [hp, if_true]
    have := h1 n (by omega) acc m (.elem x :: A) B (.close m :: (toksAll ns ++ R)) hA1 hA.push
    simpa [hp, marks] using this
  | some iss =>
    cases o2 with
    | some jss =>
      intro k n hn acc x T R
      rw [elem_length] at hn
      obtain ⟨n, rfl⟩ : ∃ k, n = k + 1 := ⟨n - 1, by omega⟩
      rw [loop_elem, hf n (by omega) (.elem x :: T) (toksAll ns ++ R)]
      simp only [hp, if_true]
      obtain ⟨n1, e1, e2⟩ := h1 ((toksAll ns).length + k + 1) n (by omega) acc m (.elem x :: T) (.close m :: (toksAll ns ++ R))
      rw [e2]
      obtain ⟨n1, rfl⟩ : ∃ k, n1 = k + 1 := ⟨n1 - 1, by omega⟩
      rw [childLoop_close (m := m) (d' := ⟨.elem x :: T, toksAll ns ++ R⟩) (by simp [Decoder.token]), if_neg hne]
      obtain ⟨n2, e3, e4⟩ := h2 k n1 (by omega) (acc ++ iss) x T R
      exact ⟨n2, e3, by rw [e4]; simp⟩
    | none =>
      intro n hn acc x A B R hA1 hA
      rw [elem_length] at hn
      obtain ⟨n, rfl⟩ : ∃ k, n = k + 1 := ⟨n - 1, by omega⟩
      rw [List.cons_append, loop_elem, hf n (by omega) (.elem x :: (A ++ B)) (toksAll ns ++ R)]
      simp only [hp, if_true]
      obtain ⟨n1, e1, e2⟩ := h1 ((toksAll ns).length + 1 + 1) n (by omega) acc m (.elem x :: (A ++ B)) (.close m :: (toksAll ns ++ R))
      rw [e2]
      obtain ⟨n1, rfl⟩ : ∃ k, n1 = k + 1 := ⟨n1 - 1, by omega⟩
      rw [childLoop_close (m := m) (d' := ⟨.elem x :: (A ++ B), toksAll ns ++ R⟩) (by simp [Decoder.token]), if_neg hne]
      have := h2 n1 (by omega) (acc ++ iss) x A B R hA1 hA
      simpa [hp] using this
end

mutual
/-- DecodeInstruction follows the specification. -/
theorem node_exact : ∀ (nd : Node), match nd with
    | .elem name attrs kids => Follows fl ord name attrs kids (outcome fl ord (.elem name attrs kids))
    | _ => True
  | .elem name attrs kids => follows_of (strict_exact kids) (lenient_exact kids) attrs name
  | .chars _ => trivial
  | .other => trivial
theorem strict_exact : ∀ (ns : List Node) (texts : Bool) (name : Str),
    Runs fl ord ⟨false, texts⟩ name ns (strictly fl ord texts ns)
  | [], texts, name => by rw [strictly]; exact runs_nil
  | .chars t :: ns, texts, name => by rw [strictly]; exact runs_chars (strict_exact ns texts name)
  | .other :: ns, texts, name => by rw [strictly]; exact runs_other (strict_exact ns texts name)
  | .elem m as kids :: ns, texts, name => by
    have hf := node_exact (.elem m as kids)
    have hr := strict_exact ns texts name
    rw [strictly]
    simp only at hf
    cases ho : outcome fl ord (.elem m as kids) with
    | ok i => rw [ho] at hf; exact runs_ok hf hr
    | dropped => rw [ho] at hf; exact runs_strict rfl (Or.inl rfl) hf
    | opened => rw [ho] at hf; exact runs_strict rfl (Or.inr rfl) hf
    | fatal => rw [ho] at hf; exact runs_fatal hf
theorem lenient_exact : ∀ (ns : List Node) (texts : Bool) (name : Str), Lenient name →
    Runs fl ord ⟨true, texts⟩ name ns (leniently fl ord texts ns)
  | [], texts, name, hl => by rw [leniently]; exact runs_nil
  | .chars t :: ns, texts, name, hl => by rw [leniently]; exact runs_chars (lenient_exact ns texts name hl)
  | .other :: ns, texts, name, hl => by rw [leniently]; exact runs_other (lenient_exact ns texts name hl)
  | .elem m as kids :: ns, texts, name, hl => by
    have hf := node_exact (.elem m as kids)
    have hk := lenient_exact kids texts name hl
    have hr := lenient_exact ns texts name hl
    rw [leniently]
    simp only at hf
    cases ho : outcome fl ord (.elem m as kids) with
    | ok i => rw [ho] at hf; exact runs_ok hf hr
    | dropped => rw [ho] at hf; exact runs_dropped rfl hf hr
    | opened => rw [ho] at hf; exact runs_opened rfl (opened_ne hl ho) hf hk hr
    | fatal => rw [ho] at hf; exact runs_fatal hf
end

end Verif.Proofs
