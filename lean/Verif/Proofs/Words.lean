import Verif.Spec.Words
import Verif.Proofs.Content
import Verif.Proofs.Load
/-
From the words of the XML file to the words on the pages (C91).
-/
namespace Verif.Proofs
open Verif.Go Verif.Model Verif.Spec

/-! ### Words of a text -/

theorem replaceAux_none (old new : Str) : ∀ s : Str, ¬ old <:+: s → replaceAux old new 0 s = s
  | [], _ => rfl
  | c :: cs, h => by
    have h1 : old.isPrefixOf (c :: cs) = false := by
      rw [Bool.eq_false_iff]
      intro hp
      exact h (List.isPrefixOf_iff_prefix.mp hp).isInfix
    rw [replaceAux, h1]
    simp only [Bool.false_eq_true, if_false]
    rw [replaceAux_none old new cs fun hi => h (hi.trans (List.suffix_cons c cs).isInfix)]

theorem replaceAll_none {old new s : Str} (h0 : old ≠ []) (h : ¬ old <:+: s) : replaceAll old new s = s := by
  unfold replaceAll
  rw [if_neg h0, replaceAux_none _ _ _ h]

private def cut (s : Str) : List Str := (split 32 s).filter (· ≠ [])

private theorem cut_sep {w r : Str} (h : 32 ∉ w) : cut (w ++ 32 :: r) = [w].filter (· ≠ []) ++ cut r := by
  unfold cut
  rw [split_append_sep w r h, List.filter_cons, List.filter_cons]
  split <;> simp

private theorem cut_one {w : Str} (h : 32 ∉ w) : cut w = [w].filter (· ≠ []) := by
  unfold cut
  rw [split_line w h]

private theorem rectified_cut : ∀ (t w : Str) (p : UInt8), 92 ∉ t → p ≠ 92 → w ≠ [] → 32 ∉ w →
    cut (w ++ rectified (some p) false t) = cutFrom w t ∧ cut (w ++ rectified (some p) true t) = w :: cutFrom [] t
  | [], w, p, _, _, h0, h1 => by simp [rectified, cutFrom, cut_one h1, h0]
  | c :: cs, w, p, ht, hp, h0, h1 => by
    have hc : c ≠ 92 := fun h => ht (by simp [h])
    have ht' : 92 ∉ cs := fun h => ht (by simp [h])
    unfold rectified cutFrom
    by_cases hb : blank c = true
    · simp only [hb, if_true]
      have := rectified_cut cs w p ht' hp h0 h1
      constructor
      · rw [this.2]; simp [h0]
      · rw [this.2]; simp
    · simp only [hb, if_false, Bool.false_and, Bool.false_eq_true]
      have h32 : c ≠ 32 := fun h => hb (by subst h; rfl)
      constructor
      · have := (rectified_cut cs (w ++ [c]) c ht' hc (by simp) (by simp [h1, Ne.symm h32])).1
        rw [List.append_assoc] at this
        exact this
      · have hcond : (true && p != 92 && c != 92) = true := by simp [hp, hc]
        rw [if_pos hcond, cut_sep h1]
        have := (rectified_cut cs [c] c ht' hc (by simp) (by simp [Ne.symm h32])).1
        rw [List.singleton_append] at this
        rw [this]
        simp [h0]

private theorem rectified_none : ∀ (t : Str) (g : Bool), 92 ∉ t → cut (rectified none g t) = cutFrom [] t
  | [], g, _ => by simp [rectified, cutFrom, cut, split]
  | c :: cs, g, ht => by
    have hc : c ≠ 92 := fun h => ht (by simp [h])
    have ht' : 92 ∉ cs := fun h => ht (by simp [h])
    unfold rectified cutFrom
    by_cases hb : blank c = true
    · simp only [hb, if_true]
      rw [rectified_none cs true ht']
      simp
    · simp only [hb, if_false, Bool.false_eq_true]
      have h32 : c ≠ 32 := fun h => hb (by subst h; rfl)
      exact (rectified_cut cs [c] c ht' hc (by simp) (by simp [Ne.symm h32])).1

/-- Without backslashes and page numbers the words of a text are its pieces between blanks. -/
theorem wordsOf_plain {t : Str} (h : PlainText t) (page : Int) : wordsOf page t = cutWords t := by
  unfold wordsOf piecesOf
  rw [replaceAll_none (by decide) h.2]
  exact rectified_none t false h.1

theorem cutFrom_ne : ∀ (t w : Str), w ≠ [] → cutFrom w t ≠ []
  | [], w, h => by simp [cutFrom, h]
  | c :: cs, w, h => by
    unfold cutFrom
    split
    · simp [h]
    · exact cutFrom_ne cs _ (by simp)

theorem blank_of_cutWords : ∀ t : Str, cutWords t = [] → ∀ c ∈ t, blank c = true
  | [], _ => by simp
  | c :: cs, h => by
    unfold cutWords cutFrom at h
    by_cases hb : blank c = true
    · simp only [hb, if_true] at h
      have h' : cutWords cs = [] := by simpa [cutWords] using h
      intro x hx
      rcases List.mem_cons.mp hx with rfl | hx
      · exact hb
      · exact blank_of_cutWords cs h' x hx
    · simp only [hb, if_false, Bool.false_eq_true] at h
      exact absurd h (cutFrom_ne _ _ (by simp))

theorem plain_of_blank {t : Str} (h : ∀ c ∈ t, blank c = true) : PlainText t := by
  refine ⟨fun hm => absurd (h 92 hm) (by decide), fun hi => absurd (h 123 (hi.subset (by decide))) (by decide)⟩

theorem cutWords_of_blank : ∀ t : Str, (∀ c ∈ t, blank c = true) → cutWords t = []
  | [], _ => by simp [cutWords, cutFrom]
  | c :: cs, h => by
    unfold cutWords cutFrom
    rw [if_pos (h c (by simp))]
    have := cutWords_of_blank cs fun x hx => h x (by simp [hx])
    unfold cutWords at this
    simp [this]

theorem wordsOf_blank {t : Str} (h : ∀ c ∈ t, blank c = true) (page : Int) : wordsOf page t = [] := by
  rw [wordsOf_plain (plain_of_blank h), cutWords_of_blank t h]

/-! ### Words of a tree -/

theorem wordsAll_append : ∀ a b : List Node, wordsAll (a ++ b) = wordsAll a ++ wordsAll b
  | [], b => by simp [wordsAll]
  | nd :: a, b => by simp [wordsAll, wordsAll_append a b]

theorem directText_blank : ∀ ns : List Node, wordsAll ns = [] → ∀ c ∈ directText ns, blank c = true
  | [], _ => by simp [directText]
  | .chars t :: ns, h => by
    simp only [wordsAll, Node.words, List.append_eq_nil_iff] at h
    intro c hc
    rcases List.mem_append.mp hc with hc | hc
    · exact blank_of_cutWords t h.1 c hc
    · exact directText_blank ns h.2 c hc
  | .elem n as kids :: ns, h => by
    simp only [wordsAll, List.append_eq_nil_iff] at h
    exact directText_blank ns h.2
  | .other :: ns, h => by
    simp only [wordsAll, List.append_eq_nil_iff] at h
    exact directText_blank ns h.2

variable {fl : Floats} {ord : Nat → MapOrder} {page : Int}

theorem sourceWords_append (a b : List Instr) : sourceWords page (a ++ b) = sourceWords page a ++ sourceWords page b := by
  induction a with
  | nil => rfl
  | cons i a ih => cases i <;> simp [sourceWords, ih]

theorem of_ok {o : Option Instr} {i : Instr} (h : Outcome.of o = .ok i) : o = some i := by
  cases o with
  | none => exact Outcome.noConfusion h
  | some j => simp only [Outcome.of, Outcome.ok.injEq] at h; rw [h]

theorem ofAttr_ok {o : Option Instr} {i : Instr} (h : Outcome.ofAttr o = .ok i) : o = some i := by
  cases o with
  | none => exact Outcome.noConfusion h
  | some j => simp only [Outcome.ofAttr, Outcome.ok.injEq] at h; rw [h]

theorem outcome_box {as : List Attr} {kids : List Node} : outcome fl ord (.elem b!"box" as kids) =
    match newStyled fl ord as, strictly fl ord true kids with
    | some st, some iss => .ok (.box st iss)
    | _, _ => .fatal := by
  unfold outcome
  repeat rw [if_neg (by decide)]
  rw [if_pos rfl]
  rfl

theorem outcome_text {as : List Attr} {kids : List Node} : outcome fl ord (.elem b!"text" as kids) =
    match newStyled fl ord as, strictly fl ord true kids with
    | some st, some iss => .ok (.text st iss)
    | _, _ => .fatal := by
  unfold outcome
  repeat rw [if_neg (by decide)]
  rw [if_pos rfl]
  rfl

theorem outcome_table {as : List Attr} {kids : List Node} : outcome fl ord (.elem b!"table" as kids) =
    match strictly fl ord false kids with
    | none => .fatal
    | some iss => .of ((tableDecodeAttrs fl ord as).map fun x => .table x.2 x.1 (Model.rowsOf iss)) := by
  unfold outcome
  repeat rw [if_neg (by decide)]
  rw [if_pos rfl]
  rfl

theorem outcome_tr {as : List Attr} {kids : List Node} : outcome fl ord (.elem b!"tr" as kids) =
    match strictly fl ord false kids with
    | none => .fatal
    | some iss => .of ((newStyled fl ord as).map fun st => .tableRow (.mk st (Model.cellsOf iss))) := by
  unfold outcome
  repeat rw [if_neg (by decide)]
  rw [if_pos rfl]
  rfl

theorem outcome_td {as : List Attr} {kids : List Node} : outcome fl ord (.elem b!"td" as kids) =
    match leniently fl ord true kids with
    | none => .fatal
    | some iss => .of ((cellDecodeAttrs fl ord as).map fun x => .tableCell (.mk x.2.2 x.1 x.2.1 iss)) := by
  unfold outcome
  repeat rw [if_neg (by decide)]
  rw [if_pos rfl]
  rfl

/-- Which elements give texts. -/
theorem outcome_words {name : Str} {as : List Attr} {kids : List Node} {i : Instr} (h : outcome fl ord (.elem name as kids) = .ok i) :
    sourceWords page [i] = if name = b!"p" then wordsOf page (directText kids) else [] := by
  unfold outcome at h
  by_cases h1 : name = b!"font"
  · subst h1
    rw [if_pos rfl] at h
    obtain ⟨x, -, rfl⟩ := Option.map_eq_some_iff.mp (of_ok h)
    rfl
  rw [if_neg h1] at h
  by_cases h2 : name = b!"image"
  · subst h2
    rw [if_pos rfl] at h
    obtain ⟨x, -, rfl⟩ := Option.map_eq_some_iff.mp (of_ok h)
    rfl
  rw [if_neg h2] at h
  by_cases h3 : name = b!"p"
  · subst h3
    rw [if_pos rfl] at h
    obtain ⟨x, -, rfl⟩ := Option.map_eq_some_iff.mp (of_ok h)
    simp [sourceWords]
  rw [if_neg h3] at h
  rw [if_neg h3]
  by_cases h4 : name = b!"br"
  · rw [if_pos h4] at h
    simp only [Outcome.ok.injEq] at h; subst h; rfl
  rw [if_neg h4] at h
  by_cases h5 : name = b!"newpage"
  · rw [if_pos h5] at h
    simp only [Outcome.ok.injEq] at h; subst h; rfl
  rw [if_neg h5] at h
  by_cases h6 : name = b!"lf"
  · rw [if_pos h6] at h
    obtain ⟨x, -, rfl⟩ := Option.map_eq_some_iff.mp (ofAttr_ok h)
    rfl
  rw [if_neg h6] at h
  by_cases h7 : name = b!"setx"
  · rw [if_pos h7] at h
    obtain ⟨x, -, rfl⟩ := Option.map_eq_some_iff.mp (ofAttr_ok h)
    rfl
  rw [if_neg h7] at h
  by_cases h8 : name = b!"sety"
  · rw [if_pos h8] at h
    obtain ⟨x, -, rfl⟩ := Option.map_eq_some_iff.mp (ofAttr_ok h)
    rfl
  rw [if_neg h8] at h
  by_cases h9 : name = b!"box"
  · rw [if_pos h9] at h
    cases hs : newStyled fl ord as with
    | none => simp only [hs] at h; exact Outcome.noConfusion h
    | some st =>
      cases hj : strictly fl ord true kids with
      | none => simp only [hs, hj] at h; exact Outcome.noConfusion h
      | some js =>
        simp only [hs, hj, Outcome.ok.injEq] at h; subst h; rfl
  rw [if_neg h9] at h
  by_cases h10 : name = b!"text"
  · rw [if_pos h10] at h
    cases hs : newStyled fl ord as with
    | none => simp only [hs] at h; exact Outcome.noConfusion h
    | some st =>
      cases hj : strictly fl ord true kids with
      | none => simp only [hs, hj] at h; exact Outcome.noConfusion h
      | some js =>
        simp only [hs, hj, Outcome.ok.injEq] at h; subst h; rfl
  rw [if_neg h10] at h
  by_cases h11 : name = b!"table"
  · rw [if_pos h11] at h
    cases hj : strictly fl ord false kids with
    | none => simp only [hj] at h; exact Outcome.noConfusion h
    | some js =>
      simp only [hj] at h
      obtain ⟨x, -, rfl⟩ := Option.map_eq_some_iff.mp (of_ok h)
      rfl
  rw [if_neg h11] at h
  by_cases h12 : name = b!"tr"
  · rw [if_pos h12] at h
    cases hj : strictly fl ord false kids with
    | none => simp only [hj] at h; exact Outcome.noConfusion h
    | some js =>
      simp only [hj] at h
      obtain ⟨x, -, rfl⟩ := Option.map_eq_some_iff.mp (of_ok h)
      rfl
  rw [if_neg h12] at h
  by_cases h13 : name = b!"td"
  · rw [if_pos h13] at h
    cases hj : leniently fl ord true kids with
    | none => simp only [hj] at h; exact Outcome.noConfusion h
    | some js =>
      simp only [hj] at h
      obtain ⟨x, -, rfl⟩ := Option.map_eq_some_iff.mp (of_ok h)
      rfl
  rw [if_neg h13] at h
  by_cases h14 : name = b!"grid"
  · rw [if_pos h14] at h
    cases hj : leniently fl ord false kids with
    | none => simp only [hj] at h; exact Outcome.noConfusion h
    | some js =>
      simp only [hj] at h
      by_cases hv : gridValidate ((gridRowsOf js).map (·.2)) ((partsOf js).map (·.area)) = true
      · rw [if_pos hv] at h
        obtain ⟨x, -, rfl⟩ := Option.map_eq_some_iff.mp (of_ok h)
        rfl
      · rw [if_neg hv] at h
        exact Outcome.noConfusion h
  rw [if_neg h14] at h
  by_cases h15 : name = b!"gr"
  · rw [if_pos h15] at h
    by_cases hv : hasAny b!"gr" kids = true
    · rw [if_pos hv] at h
      exact Outcome.noConfusion h
    · rw [if_neg hv] at h
      obtain ⟨x, -, rfl⟩ := Option.map_eq_some_iff.mp (of_ok h)
      rfl
  rw [if_neg h15] at h
  by_cases h16 : name = b!"part"
  · rw [if_pos h16] at h
    cases hj : leniently fl ord false kids with
    | none => simp only [hj] at h; exact Outcome.noConfusion h
    | some js =>
      simp only [hj] at h
      obtain ⟨x, -, rfl⟩ := Option.map_eq_some_iff.mp (of_ok h)
      rfl
  rw [if_neg h16] at h
  exact Outcome.noConfusion h

theorem wordless_ok {name : Str} {as : List Attr} {kids : List Node} {i : Instr} (hw : (Node.elem name as kids).words = [])
    (h : outcome fl ord (.elem name as kids) = .ok i) : sourceWords page [i] = [] := by
  rw [outcome_words h]
  split
  · rename_i hn
    subst hn
    refine wordsOf_blank (directText_blank kids ?_) page
    rwa [Node.words, if_neg (by decide)] at hw
  · rfl

theorem sourceWords_cons (i : Instr) (iss : List Instr) : sourceWords page (i :: iss) = sourceWords page [i] ++ sourceWords page iss :=
  sourceWords_append [i] iss

private theorem chars_words {t : Str} (h : PlainText t) {r : List Instr} :
    sourceWords page (if true = true ∧ t ≠ [] then .textBlock t :: r else r) = cutWords t ++ sourceWords page r := by
  by_cases ht : t = []
  · subst ht; simp [cutWords, cutFrom]
  · simp [ht, sourceWords, wordsOf_plain h]

/-- The words of a text or box. -/
theorem strictly_lines : ∀ (kids : List Node) (iss : List Instr), (∀ nd ∈ kids, Line nd) → strictly fl ord true kids = some iss →
    sourceWords page iss = wordsAll kids
  | [], iss, _, h => by
    simp only [strictly, Option.some.injEq] at h
    subst h
    rfl
  | .chars t :: ns, iss, hl, h => by
    rw [strictly] at h
    obtain ⟨r, hr, rfl⟩ := Option.map_eq_some_iff.mp h
    have ht : PlainText t := by
      cases hl _ (List.mem_cons_self ..) with
      | chars h => exact h
      | wordless h => exact plain_of_blank (blank_of_cutWords t h)
    rw [chars_words ht, strictly_lines ns r (fun nd hm => hl nd (by simp [hm])) hr]
    rfl
  | .other :: ns, iss, hl, h => by
    simp only [strictly] at h
    rw [strictly_lines ns iss (fun nd hm => hl nd (by simp [hm])) h]
    rfl
  | .elem name as kids :: ns, iss, hl, h => by
    rw [strictly] at h
    cases ho : outcome fl ord (.elem name as kids) with
    | ok i =>
      simp only [ho] at h
      obtain ⟨r, hr, rfl⟩ := Option.map_eq_some_iff.mp h
      rw [sourceWords_cons, strictly_lines ns r (fun nd hm => hl nd (by simp [hm])) hr, wordsAll]
      congr 1
      cases hl _ (List.mem_cons_self ..) with
      | paragraph ht =>
        rw [outcome_words ho, if_pos rfl]
        simp [directText, Node.words, wordsAll, wordsOf_plain ht]
      | wordless hw => rw [wordless_ok hw ho, hw]
    | dropped => simp [ho] at h
    | opened => simp [ho] at h
    | fatal => simp [ho] at h

private theorem opened_not_image {name : Str} {as : List Attr} {kids : List Node} (h : outcome fl ord (.elem name as kids) = .opened) :
    name ≠ b!"image" ∧ name ≠ b!"p" := by
  constructor
  all_goals
    rintro rfl
    unfold outcome at h
    simp [-List.cons.injEq] at h
    revert h
    cases newStyled fl ord as <;> simp [Outcome.of]

theorem unknown_opened {name : Str} {as : List Attr} {kids : List Node} (h : name ∉ instructionNames) :
    outcome fl ord (.elem name as kids) = .opened := by
  simp only [instructionNames, List.mem_cons, not_or] at h
  obtain ⟨h1, h2, h3, h4, h5, h6, h7, h8, h9, h10, h11, h12, h13, h14, h15, h16, -⟩ := h
  unfold outcome
  simp only [h1, h2, h3, h4, h5, h6, h7, h8, h9, h10, h11, h12, h13, h14, h15, h16, if_false]

/-- The words of a cell. -/
theorem leniently_lines : ∀ (kids : List Node) (iss : List Instr), (∀ nd ∈ kids, CellLine fl ord nd) → leniently fl ord true kids = some iss →
    sourceWords page iss = wordsAll kids
  | [], iss, _, h => by
    simp only [leniently, Option.some.injEq] at h
    subst h
    rfl
  | .chars t :: ns, iss, hl, h => by
    rw [leniently] at h
    obtain ⟨r, hr, rfl⟩ := Option.map_eq_some_iff.mp h
    have ht : PlainText t := by
      cases hl _ (List.mem_cons_self ..) with
      | chars h => exact h
      | wordless h => exact plain_of_blank (blank_of_cutWords t h)
    rw [chars_words ht, leniently_lines ns r (fun nd hm => hl nd (by simp [hm])) hr]
    rfl
  | .other :: ns, iss, hl, h => by
    simp only [leniently] at h
    rw [leniently_lines ns iss (fun nd hm => hl nd (by simp [hm])) h]
    rfl
  | .elem name as kids :: ns, iss, hl, h => by
    rw [leniently] at h
    have hn : ∀ nd ∈ ns, CellLine fl ord nd := fun nd hm => hl nd (by simp [hm])
    have h0 : CellLine fl ord (.elem name as kids) := hl _ (List.mem_cons_self ..)
    cases ho : outcome fl ord (.elem name as kids) with
    | ok i =>
      simp only [ho] at h
      obtain ⟨r, hr, rfl⟩ := Option.map_eq_some_iff.mp h
      rw [sourceWords_cons, leniently_lines ns r hn hr, wordsAll]
      congr 1
      cases h0 with
      | paragraph ht _ =>
        rw [outcome_words ho, if_pos rfl]
        simp [directText, Node.words, wordsAll, wordsOf_plain ht]
      | unknown hu _ => rw [unknown_opened hu] at ho; exact Outcome.noConfusion ho
      | wordless hw => rw [wordless_ok hw ho, hw]
    | dropped =>
      simp only [ho] at h
      rw [leniently_lines ns iss hn h, wordsAll]
      cases h0 with
      | @paragraph as t ht hs =>
        unfold outcome at ho
        obtain ⟨st, hst⟩ := Option.isSome_iff_exists.mp hs
        simp [hst, Outcome.of] at ho
      | unknown hu _ => rw [unknown_opened hu] at ho; exact Outcome.noConfusion ho
      | wordless hw => rw [hw]; rfl
    | opened =>
      simp only [ho] at h
      obtain ⟨hi, hp⟩ := opened_not_image ho
      cases hk : leniently fl ord true kids with
      | none => simp [hk] at h
      | some js =>
        simp only [hk] at h
        obtain ⟨r, hr, rfl⟩ := Option.map_eq_some_iff.mp h
        have hkids : ∀ nd ∈ kids, CellLine fl ord nd := by
          cases h0 with
          | paragraph _ _ => exact absurd rfl hp
          | unknown _ hk => exact hk
          | wordless hw =>
            rw [Node.words, if_neg hi] at hw
            intro nd hm
            obtain ⟨a, b, rfl⟩ := List.append_of_mem hm
            rw [wordsAll_append, wordsAll] at hw
            simp only [List.append_eq_nil_iff] at hw
            exact .wordless hw.2.1
        rw [sourceWords_append, leniently_lines kids js hkids hk, leniently_lines ns r hn hr, wordsAll, Node.words, if_neg hi]
    | fatal => simp [ho] at h

theorem wordless_all {ns : List Node} (hw : wordsAll ns = []) : ∀ nd ∈ ns, nd.words = [] := by
  intro nd hm
  obtain ⟨a, b, rfl⟩ := List.append_of_mem hm
  rw [wordsAll_append, wordsAll] at hw
  simp only [List.append_eq_nil_iff] at hw
  exact hw.2.1

theorem leniently_append : ∀ (a b : List Node) (iss : List Instr), leniently fl ord true (a ++ b) = some iss →
    ∃ x y, leniently fl ord true a = some x ∧ leniently fl ord true b = some y ∧ iss = x ++ y
  | [], b, iss, h => ⟨[], iss, by simp [leniently], h, rfl⟩
  | .chars t :: a, b, iss, h => by
    rw [List.cons_append] at h
    rw [leniently] at h
    obtain ⟨r, hr, rfl⟩ := Option.map_eq_some_iff.mp h
    obtain ⟨x, y, hx, hy, rfl⟩ := leniently_append a b r hr
    refine ⟨if true = true ∧ t ≠ [] then .textBlock t :: x else x, y, by rw [leniently, hx]; rfl, hy, ?_⟩
    split <;> rfl
  | .other :: a, b, iss, h => by
    rw [List.cons_append] at h
    simp only [leniently] at h ⊢
    exact leniently_append a b iss h
  | .elem name as kids :: a, b, iss, h => by
    rw [List.cons_append] at h
    rw [leniently] at h ⊢
    cases ho : outcome fl ord (.elem name as kids) with
    | ok i =>
      simp only [ho] at h ⊢
      obtain ⟨r, hr, rfl⟩ := Option.map_eq_some_iff.mp h
      obtain ⟨x, y, hx, hy, rfl⟩ := leniently_append a b r hr
      exact ⟨i :: x, y, by rw [hx]; rfl, hy, rfl⟩
    | dropped =>
      simp only [ho] at h ⊢
      exact leniently_append a b iss h
    | opened =>
      simp only [ho] at h ⊢
      cases hk : leniently fl ord true kids with
      | none => simp [hk] at h
      | some js =>
        simp only [hk] at h ⊢
        obtain ⟨r, hr, rfl⟩ := Option.map_eq_some_iff.mp h
        obtain ⟨x, y, hx, hy, rfl⟩ := leniently_append a b r hr
        exact ⟨js ++ x, y, by rw [hx]; rfl, hy, by rw [List.append_assoc]⟩
    | fatal => simp [ho] at h

/-! ### What is put -/

variable {m : Means}

/-- Among what is put are the words, in order. -/
def Bears (m : Means) (words : List Str) (ps : List Put) : Prop :=
  ∃ ts, Written m.hyph words ts ∧ (ts.map Put.text).Sublist ps

theorem Bears.nil (ps : List Put) : Bears m [] ps := ⟨[], .nil, by simp⟩

theorem Bears.append {a b : List Str} {ps qs : List Put} (h : Bears m a ps) (h' : Bears m b qs) : Bears m (a ++ b) (ps ++ qs) := by
  obtain ⟨ts, h1, h2⟩ := h
  obtain ⟨us, h3, h4⟩ := h'
  exact ⟨ts ++ us, h1.append h3, by rw [List.map_append]; exact h2.append h4⟩

theorem Bears.mono {a : List Str} {ps qs : List Put} (h : Bears m a ps) (hs : ps.Sublist qs) : Bears m a qs := by
  obtain ⟨ts, h1, h2⟩ := h
  exact ⟨ts, h1, h2.trans hs⟩

theorem textPuts_bears {iss : List Instr} {ps : List Put} {ws : List Str} (hw : ∀ page, sourceWords page iss = ws) (h : TextPuts m iss ps) :
    Bears m ws ps := by
  obtain ⟨page, ts, h1, rfl⟩ := h
  rw [hw page] at h1
  exact ⟨ts, h1, .refl _⟩

theorem boxPuts_bears {iss : List Instr} {ps : List Put} {ws : List Str} (hw : ∀ page, sourceWords page iss = ws) (h : BoxPuts m iss ps) :
    Bears m ws ps := by
  rcases h with h | ⟨qs, h, rfl⟩
  · exact textPuts_bears hw h
  · exact (textPuts_bears hw h).mono (List.sublist_cons_self ..)

theorem inTurn_append {α : Type} {R : α → List Put → Prop} : ∀ {a b : List α} {ps : List Put}, InTurn R (a ++ b) ps →
    ∃ qs rs, InTurn R a qs ∧ InTurn R b rs ∧ ps = qs ++ rs
  | [], b, ps, h => ⟨[], ps, .nil, h, rfl⟩
  | x :: a, b, ps, h => by
    cases h with
    | @cons _ _ ps qs h1 h2 =>
      obtain ⟨q, r, hq, hr, rfl⟩ := inTurn_append h2
      exact ⟨ps ++ q, r, .cons h1 hq, hr, by rw [List.append_assoc]⟩

/-- The boxes of a cell. -/
theorem boxes_bear : ∀ (kids : List Node) (iss : List Instr) (ps : List Put), (∀ nd ∈ kids, CellBox nd) → leniently fl ord true kids = some iss →
    InTurn (ItemPuts m) iss ps → Bears m (wordsAll kids) ps ∧ ∀ page, sourceWords page iss = []
  | [], iss, ps, _, h, hp => by
    simp only [leniently, Option.some.injEq] at h
    subst h
    exact ⟨.nil _, fun _ => rfl⟩
  | .chars t :: ns, iss, ps, hl, h, hp => by
    rw [leniently] at h
    obtain ⟨r, hr, rfl⟩ := Option.map_eq_some_iff.mp h
    have ht : cutWords t = [] := by
      cases hl _ (List.mem_cons_self ..) with
      | wordless h => exact h
    have hs : ∀ page, sourceWords page (if true = true ∧ t ≠ [] then .textBlock t :: r else r) = sourceWords page r := fun page => by
      rw [chars_words (plain_of_blank (blank_of_cutWords t ht)), ht]; rfl
    have hq : ∃ qs, InTurn (ItemPuts m) r qs ∧ qs.Sublist ps := by
      by_cases h0 : t = []
      · subst h0; exact ⟨ps, by simpa using hp, .refl _⟩
      · rw [if_pos ⟨rfl, h0⟩] at hp
        cases hp with
        | cons h1 h2 => exact ⟨_, h2, List.sublist_append_right ..⟩
    obtain ⟨qs, hq, hsub⟩ := hq
    obtain ⟨h1, h2⟩ := boxes_bear ns r qs (fun nd hm => hl nd (by simp [hm])) hr hq
    refine ⟨?_, fun page => by rw [hs, h2]⟩
    rw [wordsAll, Node.words, ht]
    exact h1.mono hsub
  | .other :: ns, iss, ps, hl, h, hp => by
    simp only [leniently] at h
    exact boxes_bear ns iss ps (fun nd hm => hl nd (by simp [hm])) h hp
  | .elem name as kids :: ns, iss, ps, hl, h, hp => by
    have hn : ∀ nd ∈ ns, CellBox nd := fun nd hm => hl nd (by simp [hm])
    have h0 : CellBox (.elem name as kids) := hl _ (List.mem_cons_self ..)
    cases h0 with
    | box hk =>
      rw [leniently] at h
      cases ho : outcome fl ord (.elem b!"box" as kids) with
      | ok i =>
        simp only [ho] at h
        obtain ⟨r, hr, rfl⟩ := Option.map_eq_some_iff.mp h
        rw [outcome_box] at ho
        cases hs : newStyled fl ord as with
        | none => simp [hs] at ho
        | some st =>
          cases hj : strictly fl ord true kids with
          | none => simp [hs, hj] at ho
          | some js =>
            simp only [hs, hj, Outcome.ok.injEq] at ho
            subst ho
            cases hp with
            | cons h1 h2 =>
              obtain ⟨h3, h4⟩ := boxes_bear ns r _ hn hr h2
              refine ⟨?_, fun page => by rw [sourceWords_cons, h4]; rfl⟩
              rw [wordsAll, Node.words, if_neg (by decide)]
              exact (boxPuts_bears (fun page => strictly_lines kids js hk hj) h1).append h3
      | dropped =>
        rw [outcome_box] at ho
        cases hs : newStyled fl ord as <;> cases hj : strictly fl ord true kids <;> simp [hs, hj] at ho
      | opened =>
        rw [outcome_box] at ho
        cases hs : newStyled fl ord as <;> cases hj : strictly fl ord true kids <;> simp [hs, hj] at ho
      | fatal => simp [ho] at h
    | wordless hw =>
      obtain ⟨x, y, hx, hy, rfl⟩ := leniently_append [.elem name as kids] ns iss h
      obtain ⟨qs, rs, _, hr, rfl⟩ := inTurn_append hp
      obtain ⟨h3, h4⟩ := boxes_bear ns y rs hn hy hr
      refine ⟨?_, fun page => ?_⟩
      · rw [wordsAll, hw]
        exact h3.mono (List.sublist_append_right ..)
      · rw [sourceWords_append, h4, leniently_lines _ x (by simpa using CellLine.wordless hw) hx, wordsAll, hw]
        rfl

theorem cell_bears {texts boxes : List Node} {iss : List Instr} {ps : List Put} (ht : ∀ nd ∈ texts, CellLine fl ord nd) (hb : ∀ nd ∈ boxes, CellBox nd)
    (h : leniently fl ord true (texts ++ boxes) = some iss) (hp : CellPuts m iss ps) : Bears m (wordsAll (texts ++ boxes)) ps := by
  obtain ⟨ts, qs, h1, h2, rfl⟩ := hp
  obtain ⟨x, y, hx, hy, rfl⟩ := leniently_append _ _ _ h
  obtain ⟨q, r, _, hr, rfl⟩ := inTurn_append h2
  obtain ⟨h3, h4⟩ := boxes_bear boxes y r hb hy hr
  rw [wordsAll_append]
  refine Bears.append (textPuts_bears (fun page => ?_) h1) (h3.mono (List.sublist_append_right ..))
  rw [sourceWords_append, h4, leniently_lines texts x ht hx, List.append_nil]

/-- The cells of a row. -/
theorem cells_bear : ∀ (kids : List Node) (iss : List Instr) (ps : List Put), (∀ nd ∈ kids, Cell fl ord nd) → strictly fl ord false kids = some iss →
    RowPuts m ((Model.cellsOf iss).map (·.iss)) ps → Bears m (wordsAll kids) ps
  | [], iss, ps, _, h, hp => .nil _
  | .chars t :: ns, iss, ps, hl, h, hp => by
    simp only [strictly, Bool.false_eq_true, false_and, if_false, Option.map_id'] at h
    have ht : cutWords t = [] := by
      cases hl _ (List.mem_cons_self ..) with
      | wordless h => exact h
    rw [wordsAll, Node.words, ht]
    exact cells_bear ns iss ps (fun nd hm => hl nd (by simp [hm])) h hp
  | .other :: ns, iss, ps, hl, h, hp => by
    simp only [strictly] at h
    exact cells_bear ns iss ps (fun nd hm => hl nd (by simp [hm])) h hp
  | .elem name as kids :: ns, iss, ps, hl, h, hp => by
    have hn : ∀ nd ∈ ns, Cell fl ord nd := fun nd hm => hl nd (by simp [hm])
    rw [strictly] at h
    cases ho : outcome fl ord (.elem name as kids) with
    | ok i =>
      simp only [ho] at h
      obtain ⟨r, hr, rfl⟩ := Option.map_eq_some_iff.mp h
      have hsplit : ((Model.cellsOf (i :: r)).map (·.iss)) = ((Model.cellsOf [i]).map (·.iss)) ++ ((Model.cellsOf r).map (·.iss)) := by
        rw [← List.map_append]
        exact congrArg _ (List.filterMap_append (l := [i]) (l' := r))
      rw [hsplit] at hp
      obtain ⟨qs, rs, h1, h2, rfl⟩ := inTurn_append hp
      rw [wordsAll]
      refine Bears.append ?_ (cells_bear ns r rs hn hr h2)
      cases hl _ (List.mem_cons_self ..) with
      | @cell _ texts boxes ht hb =>
        rw [outcome_td] at ho
        cases hj : leniently fl ord true (texts ++ boxes) with
        | none => simp [hj] at ho
        | some js =>
          simp only [hj] at ho
          obtain ⟨x, -, rfl⟩ := Option.map_eq_some_iff.mp (of_ok ho)
          rw [Node.words, if_neg (by decide)]
          cases h1 with
          | cons h3 h4 =>
            exact (cell_bears ht hb hj h3).mono (List.sublist_append_left ..)
      | wordless hw => rw [hw]; exact .nil _
    | dropped => simp [ho] at h
    | opened => simp [ho] at h
    | fatal => simp [ho] at h

theorem rowsPut_append {head : List (List (List Instr))} : ∀ {i : Nat} {a b : List (List (List Instr))} {ps : List Put}, RowsPut m head i (a ++ b) ps →
    ∃ qs rs, (∃ us, InTurn (RowPuts m) a us ∧ us.Sublist qs) ∧ RowsPut m head (i + a.length) b rs ∧ ps = qs ++ rs
  | i, [], b, ps, h => ⟨[], ps, ⟨[], .nil, .refl _⟩, h, rfl⟩
  | i, x :: a, b, ps, h => by
    have hlen : i + (x :: a).length = i + 1 + a.length := by simp only [List.length_cons]; omega
    rw [hlen]
    cases h with
    | @same _ _ _ p q h1 h2 =>
      obtain ⟨qs, rs, ⟨us, h3, h4⟩, h5, rfl⟩ := rowsPut_append h2
      exact ⟨p ++ qs, rs, ⟨p ++ us, .cons h1 h3, h4.append_left _⟩, h5, by rw [List.append_assoc]⟩
    | @page _ _ _ hs p q h0 h1 h2 =>
      obtain ⟨qs, rs, ⟨us, h3, h4⟩, h5, rfl⟩ := rowsPut_append h2
      refine ⟨.page :: (hs ++ p ++ qs), rs, ⟨p ++ us, .cons h1 h3, ?_⟩, h5, by simp⟩
      refine (List.Sublist.trans ?_ (List.sublist_cons_self ..))
      rw [List.append_assoc]
      exact (h4.append_left _).trans (List.sublist_append_right ..)

/-- The rows of a table. -/
theorem rows_bear : ∀ (kids : List Node) (iss : List Instr) (ps : List Put), (∀ nd ∈ kids, Row fl ord nd) → strictly fl ord false kids = some iss →
    InTurn (RowPuts m) ((Model.rowsOf iss).map fun r => r.cells.map (·.iss)) ps → Bears m (wordsAll kids) ps
  | [], iss, ps, _, h, hp => .nil _
  | .chars t :: ns, iss, ps, hl, h, hp => by
    simp only [strictly, Bool.false_eq_true, false_and, if_false, Option.map_id'] at h
    have ht : cutWords t = [] := by
      cases hl _ (List.mem_cons_self ..) with
      | wordless h => exact h
    rw [wordsAll, Node.words, ht]
    exact rows_bear ns iss ps (fun nd hm => hl nd (by simp [hm])) h hp
  | .other :: ns, iss, ps, hl, h, hp => by
    simp only [strictly] at h
    exact rows_bear ns iss ps (fun nd hm => hl nd (by simp [hm])) h hp
  | .elem name as kids :: ns, iss, ps, hl, h, hp => by
    have hn : ∀ nd ∈ ns, Row fl ord nd := fun nd hm => hl nd (by simp [hm])
    rw [strictly] at h
    cases ho : outcome fl ord (.elem name as kids) with
    | ok i =>
      simp only [ho] at h
      obtain ⟨r, hr, rfl⟩ := Option.map_eq_some_iff.mp h
      have hsplit : ((Model.rowsOf (i :: r)).map fun r => r.cells.map (·.iss)) =
          ((Model.rowsOf [i]).map fun r => r.cells.map (·.iss)) ++ ((Model.rowsOf r).map fun r => r.cells.map (·.iss)) := by
        rw [← List.map_append]
        exact congrArg _ (List.filterMap_append (l := [i]) (l' := r))
      rw [hsplit] at hp
      obtain ⟨qs, rs, h1, h2, rfl⟩ := inTurn_append hp
      rw [wordsAll]
      refine Bears.append ?_ (rows_bear ns r rs hn hr h2)
      cases hl _ (List.mem_cons_self ..) with
      | row hk =>
        rw [outcome_tr] at ho
        cases hj : strictly fl ord false kids with
        | none => simp [hj] at ho
        | some js =>
          simp only [hj] at ho
          obtain ⟨x, -, rfl⟩ := Option.map_eq_some_iff.mp (of_ok ho)
          rw [Node.words, if_neg (by decide)]
          cases h1 with
          | cons h3 h4 =>
            exact (cells_bear kids js _ hk hj h3).mono (List.sublist_append_left ..)
      | wordless hw => rw [hw]; exact .nil _
    | dropped => simp [ho] at h
    | opened => simp [ho] at h
    | fatal => simp [ho] at h

/-- The contents of a body. -/
theorem body_bears : ∀ (kids : List Node) (iss : List Instr) (ps : List Put), (∀ nd ∈ kids, Visible fl ord nd) → strictly fl ord true kids = some iss →
    PartPuts m iss ps → Bears m (wordsAll kids) ps
  | [], iss, ps, _, h, hp => .nil _
  | .chars t :: ns, iss, ps, hl, h, hp => by
    rw [strictly] at h
    obtain ⟨r, hr, rfl⟩ := Option.map_eq_some_iff.mp h
    have ht : cutWords t = [] := by
      cases hl _ (List.mem_cons_self ..) with
      | wordless h => exact h
    have hq : ∃ qs, PartPuts m r qs ∧ qs.Sublist ps := by
      by_cases h0 : t = []
      · subst h0; exact ⟨ps, by simpa using hp, .refl _⟩
      · rw [if_pos ⟨rfl, h0⟩] at hp
        cases hp with
        | cons h1 h2 => exact ⟨_, h2, List.sublist_append_right ..⟩
    obtain ⟨qs, hq, hsub⟩ := hq
    rw [wordsAll, Node.words, ht]
    exact (body_bears ns r qs (fun nd hm => hl nd (by simp [hm])) hr hq).mono hsub
  | .other :: ns, iss, ps, hl, h, hp => by
    simp only [strictly] at h
    exact body_bears ns iss ps (fun nd hm => hl nd (by simp [hm])) h hp
  | .elem name as kids :: ns, iss, ps, hl, h, hp => by
    have hn : ∀ nd ∈ ns, Visible fl ord nd := fun nd hm => hl nd (by simp [hm])
    rw [strictly] at h
    cases ho : outcome fl ord (.elem name as kids) with
    | ok i =>
      simp only [ho] at h
      obtain ⟨r, hr, rfl⟩ := Option.map_eq_some_iff.mp h
      cases hp with
      | cons h1 h2 =>
        rw [wordsAll]
        refine Bears.append ?_ (body_bears ns r _ hn hr h2)
        cases hl _ (List.mem_cons_self ..) with
        | text hk =>
          rw [outcome_text] at ho
          cases hs : newStyled fl ord as with
          | none => simp [hs] at ho
          | some st =>
            cases hj : strictly fl ord true kids with
            | none => simp [hs, hj] at ho
            | some js =>
              simp only [hs, hj, Outcome.ok.injEq] at ho
              subst ho
              rw [Node.words, if_neg (by decide)]
              exact textPuts_bears (fun page => strictly_lines kids js hk hj) h1
        | box hk =>
          rw [outcome_box] at ho
          cases hs : newStyled fl ord as with
          | none => simp [hs] at ho
          | some st =>
            cases hj : strictly fl ord true kids with
            | none => simp [hs, hj] at ho
            | some js =>
              simp only [hs, hj, Outcome.ok.injEq] at ho
              subst ho
              rw [Node.words, if_neg (by decide)]
              exact boxPuts_bears (fun page => strictly_lines kids js hk hj) h1
        | table hk =>
          rw [outcome_table] at ho
          cases hj : strictly fl ord false kids with
          | none => simp [hj] at ho
          | some js =>
            simp only [hj] at ho
            obtain ⟨x, -, rfl⟩ := Option.map_eq_some_iff.mp (of_ok ho)
            rw [Node.words, if_neg (by decide)]
            obtain ⟨extra, qs, hq, hps⟩ := h1
            obtain ⟨q, r', ⟨us, h3, h4⟩, -, rfl⟩ := rowsPut_append hq
            have := (rows_bear kids js us hk hj h3).mono (h4.trans (List.sublist_append_left q r'))
            rcases hps with rfl | rfl
            · exact this
            · exact this.mono (List.sublist_cons_self ..)
        | wordless hw => rw [hw]; exact .nil _
    | dropped => simp [ho] at h
    | opened => simp [ho] at h
    | fatal => simp [ho] at h

/-- Header and footer do not take anything away. -/
theorem filled_bears {header footer : List Instr} {ps ds : List Put} (h : Filled m header footer ps ds) :
    ∀ ts : List Str, (ts.map Put.text).Sublist ps → (ts.map Put.text).Sublist ds := by
  induction h with
  | nil => exact fun _ h => h
  | @text t ps ds _ ih =>
    intro ts hs
    cases ts with
    | nil => exact List.nil_sublist _
    | cons u us =>
      rw [List.map_cons] at hs ⊢
      cases hs with
      | cons _ h => exact (ih (u :: us) h).cons _
      | cons_cons _ h => exact (ih us h).cons_cons _
  | @image src ps ds _ ih =>
    intro ts hs
    cases ts with
    | nil => exact List.nil_sublist _
    | cons u us =>
      rw [List.map_cons] at hs ⊢
      cases hs with
      | cons _ h => exact (ih (u :: us) h).cons _
  | @page fq fs hq hs ps ds _ _ _ _ _ _ _ ih =>
    intro ts h
    have h' : (ts.map Put.text).Sublist ds := by
      cases ts with
      | nil => exact List.nil_sublist _
      | cons u us =>
        rw [List.map_cons] at h ⊢
        cases h with
        | cons _ h => exact ih (u :: us) h
    exact (h'.trans (List.sublist_append_right hs ds)).trans ((List.sublist_cons_self ..).trans (List.sublist_append_right ..))
  | @turned fq fs hq hs t ps ds _ _ _ _ _ _ _ ih =>
    intro ts h
    have h' : (ts.map Put.text).Sublist (.text t :: ds) := by
      cases ts with
      | nil => exact List.nil_sublist _
      | cons u us =>
        rw [List.map_cons] at h ⊢
        cases h with
        | cons _ h => exact (ih (u :: us) h).cons _
        | cons_cons _ h => exact (ih us h).cons_cons _
    exact (h'.trans (List.sublist_append_right hs _)).trans ((List.sublist_cons_self ..).trans (List.sublist_append_right ..))

theorem brings_bears {header footer iss : List Instr} {ds : List Put} {ws : List Str} (h : ∀ ps, PartPuts m iss ps → Bears m ws ps)
    (hb : Brings m header footer iss ds) : Bears m ws ds := by
  obtain ⟨ps, h1, h2⟩ := hb
  obtain ⟨ts, h3, h4⟩ := h ps h1
  exact ⟨ts, h3, filled_bears h2 ts h4⟩

/-- All bodies. -/
theorem bodies_bear : ∀ (kids : List Node) (iss : List Instr) (ps : List Put), (∀ nd ∈ inside b!"body" kids, Visible fl ord nd) →
    section_ fl ord b!"body" kids = some iss → PartPuts m iss ps → Bears m (wordsAll (inside b!"body" kids)) ps := by
  intro kids
  unfold inside section_
  generalize (elems kids).filter (·.1 = b!"body") = es
  induction es with
  | nil => exact fun _ _ _ _ _ => .nil _
  | cons e es ih =>
    intro iss ps hv h hp
    obtain ⟨iss', h1, rfl⟩ := Option.map_eq_some_iff.mp h
    rw [List.mapM_cons] at h1
    obtain ⟨x, hx, h1⟩ := Option.bind_eq_some_iff.mp h1
    obtain ⟨r, hr, h1⟩ := Option.bind_eq_some_iff.mp h1
    simp only [Option.pure_def, Option.some.injEq] at h1
    subst h1
    rw [List.flatten_cons] at hp
    obtain ⟨qs, rs, h2, h3, rfl⟩ := inTurn_append hp
    rw [List.flatMap_cons] at hv ⊢
    rw [wordsAll_append]
    unfold contents at hx
    split at hx
    · exact (body_bears e.2.2 x qs (fun nd hm => hv nd (by simp [hm])) hx h2).append
        (ih r.flatten rs (fun nd hm => hv nd (List.mem_append_right _ hm)) (by rw [hr]; rfl) h3)
    · exact absurd hx (by simp)

end Verif.Proofs
