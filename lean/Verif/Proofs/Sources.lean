import Verif.Spec.Sources
import Verif.Proofs.Pictures
/-
From the texts on the pages back to those of the XML file (C119).
-/
namespace Verif.Proofs
open Verif.Go Verif.Model Verif.Spec

variable {fl : Floats} {ord : Nat → MapOrder} {m : Means}

/-! ### From instructions to the file -/

/-- The texts directly among instructions. -/
def plainTexts (iss : List Instr) : List Str := iss.flatMap fun | .textBlock t => [t] | .paragraph _ t => [t] | _ => []

/-- The texts of a cell. -/
def cellTexts (iss : List Instr) : List Str := plainTexts iss ++ iss.flatMap fun | .box _ js => plainTexts js | _ => []

/-- The texts of an instruction of a body, header or footer. -/
def instrTexts : Instr → List Str
  | .text _ iss => plainTexts iss
  | .box _ iss => plainTexts iss
  | .table _ _ rows => rows.flatMap fun r => r.cells.flatMap fun c => cellTexts c.iss
  | _ => []

/-- What an element is, if it is read as an instruction. -/
def ReadsAs (fl : Floats) (ord : Nat → MapOrder) (name : Str) (kids : List Node) : Instr → Prop
  | .textBlock _ => False
  | .paragraph _ t => name = b!"p" ∧ t = directText kids
  | .box _ js => name = b!"box" ∧ strictly fl ord true kids = some js
  | .text _ js => name = b!"text" ∧ strictly fl ord true kids = some js
  | .table _ _ rows => name = b!"table" ∧ ∃ js, strictly fl ord false kids = some js ∧ rows = Model.rowsOf js
  | .tableRow (.mk _ cells) => name = b!"tr" ∧ ∃ js, strictly fl ord false kids = some js ∧ cells = Model.cellsOf js
  | .tableCell (.mk _ _ _ iss) => name = b!"td" ∧ leniently fl ord true kids = some iss
  | _ => True

theorem outcome_reads {name : Str} {as : List Attr} {kids : List Node} {i : Instr} (h : outcome fl ord (.elem name as kids) = .ok i) : ReadsAs fl ord name kids i := by
  unfold outcome at h
  by_cases h1 : name = b!"font"
  · rw [if_pos h1] at h
    obtain ⟨st, -, rfl⟩ := Option.map_eq_some_iff.mp (of_ok h)
    trivial
  rw [if_neg h1] at h
  by_cases h2 : name = b!"image"
  · rw [if_pos h2] at h
    obtain ⟨st, -, rfl⟩ := Option.map_eq_some_iff.mp (of_ok h)
    trivial
  rw [if_neg h2] at h
  by_cases k0 : name = b!"p"
  · rw [if_pos k0] at h
    obtain ⟨st, -, rfl⟩ := Option.map_eq_some_iff.mp (of_ok h)
    exact ⟨k0, rfl⟩
  rw [if_neg k0] at h
  by_cases k1 : name = b!"br"
  · rw [if_pos k1] at h
    cases h; trivial
  rw [if_neg k1] at h
  by_cases k2 : name = b!"newpage"
  · rw [if_pos k2] at h
    cases h; trivial
  rw [if_neg k2] at h
  by_cases k3 : name = b!"lf"
  · rw [if_pos k3] at h
    obtain ⟨st, -, rfl⟩ := Option.map_eq_some_iff.mp (ofAttr_ok h)
    trivial
  rw [if_neg k3] at h
  by_cases k4 : name = b!"setx"
  · rw [if_pos k4] at h
    obtain ⟨st, -, rfl⟩ := Option.map_eq_some_iff.mp (ofAttr_ok h)
    trivial
  rw [if_neg k4] at h
  by_cases k5 : name = b!"sety"
  · rw [if_pos k5] at h
    obtain ⟨st, -, rfl⟩ := Option.map_eq_some_iff.mp (ofAttr_ok h)
    trivial
  rw [if_neg k5] at h
  by_cases k6 : name = b!"box"
  · rw [if_pos k6] at h
    split at h
    · rename_i st iss hs hi
      cases h
      exact ⟨k6, hi⟩
    · exact Outcome.noConfusion h
  rw [if_neg k6] at h
  by_cases k7 : name = b!"text"
  · rw [if_pos k7] at h
    split at h
    · rename_i st iss hs hi
      cases h
      exact ⟨k7, hi⟩
    · exact Outcome.noConfusion h
  rw [if_neg k7] at h
  by_cases k8 : name = b!"table"
  · rw [if_pos k8] at h
    cases hj : strictly fl ord false kids with
    | none => simp [hj] at h
    | some js =>
      simp only [hj] at h
      obtain ⟨x, -, rfl⟩ := Option.map_eq_some_iff.mp (of_ok h)
      exact ⟨k8, js, hj, rfl⟩
  rw [if_neg k8] at h
  by_cases k9 : name = b!"tr"
  · rw [if_pos k9] at h
    cases hj : strictly fl ord false kids with
    | none => simp [hj] at h
    | some js =>
      simp only [hj] at h
      obtain ⟨x, -, rfl⟩ := Option.map_eq_some_iff.mp (of_ok h)
      exact ⟨k9, js, hj, rfl⟩
  rw [if_neg k9] at h
  by_cases k10 : name = b!"td"
  · rw [if_pos k10] at h
    cases hj : leniently fl ord true kids with
    | none => simp [hj] at h
    | some js =>
      simp only [hj] at h
      obtain ⟨x, -, rfl⟩ := Option.map_eq_some_iff.mp (of_ok h)
      exact ⟨k10, hj⟩
  rw [if_neg k10] at h
  by_cases k11 : name = b!"grid"
  · rw [if_pos k11] at h
    cases hj : leniently fl ord false kids with
    | none => simp [hj] at h
    | some js =>
      simp only [hj] at h
      split at h
      · obtain ⟨x, -, rfl⟩ := Option.map_eq_some_iff.mp (of_ok h)
        trivial
      · exact Outcome.noConfusion h
  rw [if_neg k11] at h
  by_cases k12 : name = b!"gr"
  · rw [if_pos k12] at h
    split at h
    · exact Outcome.noConfusion h
    · obtain ⟨x, -, rfl⟩ := Option.map_eq_some_iff.mp (of_ok h)
      trivial
  rw [if_neg k12] at h
  by_cases k13 : name = b!"part"
  · rw [if_pos k13] at h
    cases hj : leniently fl ord false kids with
    | none => simp [hj] at h
    | some js =>
      simp only [hj] at h
      obtain ⟨x, -, rfl⟩ := Option.map_eq_some_iff.mp (of_ok h)
      trivial
  · rw [if_neg k13] at h
    exact Outcome.noConfusion h

private theorem of_opened {o : Option Instr} : Outcome.of o ≠ .opened := by cases o <;> exact Outcome.noConfusion

/-- Only unknown elements and moves are passed over. -/
theorem outcome_passable {name : Str} {as : List Attr} {kids : List Node} (h : outcome fl ord (.elem name as kids) = .opened) : passable name := by
  by_contra hp
  unfold passable at hp
  rw [not_or, not_not] at hp
  obtain ⟨h1, h2⟩ := hp
  simp only [instructionNames, List.mem_cons, List.not_mem_nil, or_false, not_or] at h1 h2
  unfold outcome at h
  rcases h1 with rfl | rfl | rfl | rfl | rfl | rfl | rfl | rfl | rfl | rfl | rfl | rfl | rfl | rfl | rfl | rfl
  all_goals first | exact absurd rfl h2.1 | exact absurd rfl h2.2.1 | exact absurd rfl h2.2.2 | skip
  · rw [if_pos rfl] at h; exact of_opened h
  · repeat rw [if_neg (by decide)] at h
    rw [if_pos rfl] at h
    split at h <;> exact Outcome.noConfusion h
  · repeat rw [if_neg (by decide)] at h
    rw [if_pos rfl] at h
    split at h <;> exact Outcome.noConfusion h
  · repeat rw [if_neg (by decide)] at h
    rw [if_pos rfl] at h; exact of_opened h
  · repeat rw [if_neg (by decide)] at h
    rw [if_pos rfl] at h
    split at h
    · exact Outcome.noConfusion h
    · exact of_opened h
  · repeat rw [if_neg (by decide)] at h
    rw [if_pos rfl] at h
    split at h
    · exact Outcome.noConfusion h
    · exact of_opened h
  · repeat rw [if_neg (by decide)] at h
    rw [if_pos rfl] at h
    split at h
    · exact Outcome.noConfusion h
    · exact of_opened h
  · repeat rw [if_neg (by decide)] at h
    rw [if_pos rfl] at h
    split at h
    · exact Outcome.noConfusion h
    · split at h
      · exact of_opened h
      · exact Outcome.noConfusion h
  · repeat rw [if_neg (by decide)] at h
    rw [if_pos rfl] at h
    split at h
    · exact Outcome.noConfusion h
    · exact of_opened h
  · repeat rw [if_neg (by decide)] at h
    rw [if_pos rfl] at h
    split at h
    · exact Outcome.noConfusion h
    · exact of_opened h
  · repeat rw [if_neg (by decide)] at h
    rw [if_pos rfl] at h; exact of_opened h
  · repeat rw [if_neg (by decide)] at h
    rw [if_pos rfl] at h; exact Outcome.noConfusion h
  · repeat rw [if_neg (by decide)] at h
    rw [if_pos rfl] at h; exact Outcome.noConfusion h

/-- Every instruction of strictly read contents comes from a text or an element. -/
theorem strictly_mem {texts : Bool} : ∀ (kids : List Node) (iss : List Instr), strictly fl ord texts kids = some iss → ∀ i ∈ iss,
    (∃ t, i = .textBlock t ∧ .chars t ∈ kids) ∨ ∃ name as ks, .elem name as ks ∈ kids ∧ outcome fl ord (.elem name as ks) = .ok i
  | [], iss, h, i, hi => by
    simp only [strictly, Option.some.injEq] at h
    subst h
    simp at hi
  | .chars t :: ns, iss, h, i, hi => by
    rw [strictly] at h
    obtain ⟨r, hr, rfl⟩ := Option.map_eq_some_iff.mp h
    have ih := strictly_mem ns r hr i
    have key : i = .textBlock t ∨ i ∈ r := by
      split at hi
      · exact List.mem_cons.mp hi
      · exact .inr hi
    rcases key with key | key
    · exact .inl ⟨t, key, by simp⟩
    · rcases ih key with ⟨u, h1, h2⟩ | ⟨n, a, k, h1, h2⟩
      · exact .inl ⟨u, h1, by simp [h2]⟩
      · exact .inr ⟨n, a, k, by simp [h1], h2⟩
  | .other :: ns, iss, h, i, hi => by
    rw [strictly] at h
    rcases strictly_mem ns iss h i hi with ⟨u, h1, h2⟩ | ⟨n, a, k, h1, h2⟩
    · exact .inl ⟨u, h1, by simp [h2]⟩
    · exact .inr ⟨n, a, k, by simp [h1], h2⟩
  | .elem name as kids :: ns, iss, h, i, hi => by
    rw [strictly] at h
    cases ho : outcome fl ord (.elem name as kids) with
    | ok j =>
      simp only [ho] at h
      obtain ⟨r, hr, rfl⟩ := Option.map_eq_some_iff.mp h
      rcases List.mem_cons.mp hi with rfl | hi
      · exact .inr ⟨name, as, kids, by simp, ho⟩
      rcases strictly_mem ns r hr i hi with ⟨u, h1, h2⟩ | ⟨n, a, k, h1, h2⟩
      · exact .inl ⟨u, h1, by simp [h2]⟩
      · exact .inr ⟨n, a, k, by simp [h1], h2⟩
    | dropped => simp [ho] at h
    | opened => simp [ho] at h
    | fatal => simp [ho] at h

private theorem cellIn_mono {x : Str} {a b : List Node} (h : CellIn x a) (hs : a ⊆ b) : CellIn x b := by
  cases h with
  | text h =>
    cases h with
    | chars h => exact .text (.chars (hs h))
    | paragraph h e => exact .text (.paragraph (hs h) e)
  | box h h' => exact .box (hs h) h'
  | inner h hp h' => exact .inner (hs h) hp h'

theorem plainTexts_mem {iss : List Instr} {x : Str} (h : x ∈ plainTexts iss) : .textBlock x ∈ iss ∨ ∃ st, .paragraph st x ∈ iss := by
  obtain ⟨i, h1, h2⟩ := List.mem_flatMap.mp h
  cases i with
  | textBlock t => rw [List.mem_singleton.mp h2]; exact .inl h1
  | paragraph st t => rw [List.mem_singleton.mp h2]; exact .inr ⟨st, h1⟩
  | _ => simp at h2

theorem strictly_texts {texts : Bool} {kids : List Node} {iss : List Instr} (h : strictly fl ord texts kids = some iss) {x : Str} (hx : x ∈ plainTexts iss) : LineIn x kids := by
  rcases plainTexts_mem hx with hx | ⟨st, hx⟩
  · rcases strictly_mem kids iss h _ hx with ⟨t, h1, h2⟩ | ⟨n, a, k, h1, h2⟩
    · cases h1; exact .chars h2
    · exact (outcome_reads h2).elim
  · rcases strictly_mem kids iss h _ hx with ⟨t, h1, h2⟩ | ⟨n, a, k, h1, h2⟩
    · cases h1
    · obtain ⟨rfl, h3⟩ := outcome_reads h2
      exact .paragraph h1 h3

/-- The texts of an instruction in a cell, like `cellTexts`. -/
private def itemTexts : Instr → List Str
  | .textBlock t => [t]
  | .paragraph _ t => [t]
  | .box _ js => plainTexts js
  | _ => []

theorem leniently_texts {texts : Bool} : ∀ (kids : List Node) (iss : List Instr), leniently fl ord texts kids = some iss → ∀ i ∈ iss, ∀ x ∈ itemTexts i, CellIn x kids
  | [], iss, h, i, hi, x, hx => by
    simp only [leniently, Option.some.injEq] at h
    subst h
    simp at hi
  | .chars t :: ns, iss, h, i, hi, x, hx => by
    rw [leniently] at h
    obtain ⟨r, hr, rfl⟩ := Option.map_eq_some_iff.mp h
    have key : i = .textBlock t ∨ i ∈ r := by
      split at hi
      · exact List.mem_cons.mp hi
      · exact .inr hi
    rcases key with rfl | key
    · rw [List.mem_singleton.mp hx]
      exact .text (.chars (by simp))
    · exact cellIn_mono (leniently_texts ns r hr i key x hx) (List.subset_cons_self ..)
  | .other :: ns, iss, h, i, hi, x, hx => by
    rw [leniently] at h
    exact cellIn_mono (leniently_texts ns iss h i hi x hx) (List.subset_cons_self ..)
  | .elem name as kids :: ns, iss, h, i, hi, x, hx => by
    rw [leniently] at h
    cases ho : outcome fl ord (.elem name as kids) with
    | ok j =>
      simp only [ho] at h
      obtain ⟨r, hr, rfl⟩ := Option.map_eq_some_iff.mp h
      rcases List.mem_cons.mp hi with rfl | hi
      · have := outcome_reads ho
        cases i with
        | textBlock t => exact this.elim
        | paragraph st t =>
          obtain ⟨rfl, h3⟩ := this
          rw [List.mem_singleton.mp hx]
          exact .text (.paragraph (as := as) (ks := kids) (by simp) h3)
        | box st js =>
          obtain ⟨rfl, h3⟩ := this
          exact .box (as := as) (ks := kids) (by simp) (strictly_texts h3 hx)
        | _ => simp [itemTexts] at hx
      · exact cellIn_mono (leniently_texts ns r hr i hi x hx) (List.subset_cons_self ..)
    | dropped =>
      simp only [ho] at h
      exact cellIn_mono (leniently_texts ns iss h i hi x hx) (List.subset_cons_self ..)
    | opened =>
      simp only [ho] at h
      cases hk : leniently fl ord texts kids with
      | none => simp [hk] at h
      | some js =>
        simp only [hk] at h
        obtain ⟨r, hr, rfl⟩ := Option.map_eq_some_iff.mp h
        rcases List.mem_append.mp hi with hi | hi
        · exact .inner (as := as) (ks := kids) (by simp) (outcome_passable ho) (leniently_texts kids js hk i hi x hx)
        · exact cellIn_mono (leniently_texts ns r hr i hi x hx) (List.subset_cons_self ..)
    | fatal => simp [ho] at h

theorem cellTexts_in {kids : List Node} {iss : List Instr} (h : leniently fl ord true kids = some iss) {x : Str} (hx : x ∈ cellTexts iss) : CellIn x kids := by
  rcases List.mem_append.mp hx with hx | hx
  · rcases plainTexts_mem hx with hx | ⟨st, hx⟩
    · exact leniently_texts kids iss h _ hx x (by simp [itemTexts])
    · exact leniently_texts kids iss h _ hx x (by simp [itemTexts])
  · obtain ⟨i, h1, h2⟩ := List.mem_flatMap.mp hx
    cases i with
    | box st js => exact leniently_texts kids iss h _ h1 x h2
    | _ => simp at h2

theorem rowsOf_row {iss : List Instr} {r : TableRow} (h : r ∈ Model.rowsOf iss) : .tableRow r ∈ iss := by
  obtain ⟨i, h1, h2⟩ := List.mem_filterMap.mp h
  cases i <;> simp at h2
  rw [← h2]; exact h1

theorem cellsOf_cell {iss : List Instr} {c : TableCell} (h : c ∈ Model.cellsOf iss) : .tableCell c ∈ iss := by
  obtain ⟨i, h1, h2⟩ := List.mem_filterMap.mp h
  cases i <;> simp at h2
  rw [← h2]; exact h1

/-- The texts of an instruction are shown in its element. -/
theorem instrTexts_shown {name : Str} {as : List Attr} {kids : List Node} {i : Instr} (h : outcome fl ord (.elem name as kids) = .ok i) {x : Str} (hx : x ∈ instrTexts i) :
    PrintedIn x (.elem name as kids) := by
  have hr := outcome_reads h
  cases i with
  | text st iss => obtain ⟨rfl, h1⟩ := hr; exact .text (strictly_texts h1 hx)
  | box st iss => obtain ⟨rfl, h1⟩ := hr; exact .box (strictly_texts h1 hx)
  | table st rep rows =>
    obtain ⟨rfl, js, h1, rfl⟩ := hr
    obtain ⟨⟨rst, cells⟩, h2, h3⟩ := List.mem_flatMap.mp hx
    obtain ⟨⟨cst, c1, c2, iss⟩, h4, h5⟩ := List.mem_flatMap.mp h3
    rcases strictly_mem kids js h1 _ (rowsOf_row h2) with ⟨t, e, -⟩ | ⟨n, a, k, h6, h7⟩
    · cases e
    obtain ⟨rfl, js', h8, rfl⟩ := outcome_reads h7
    rcases strictly_mem k js' h8 _ (cellsOf_cell h4) with ⟨t, e, -⟩ | ⟨n', a', k', h9, h10⟩
    · cases e
    obtain ⟨rfl, h11⟩ := outcome_reads h10
    exact .table h6 h9 (cellTexts_in h11 h5)
  | _ => simp [instrTexts] at hx

/-- The texts of a section are shown in its elements. -/
theorem section_shown {name : Str} {kids : List Node} {iss : List Instr} (h : section_ fl ord name kids = some iss) {x : Str} (hx : x ∈ iss.flatMap instrTexts) :
    ∃ nd ∈ inside name kids, PrintedIn x nd := by
  unfold section_ at h
  unfold inside
  generalize (elems kids).filter (·.1 = name) = es at h ⊢
  induction es generalizing iss with
  | nil =>
    simp at h
    subst h
    simp at hx
  | cons e es ih =>
    obtain ⟨iss', h1, rfl⟩ := Option.map_eq_some_iff.mp h
    rw [List.mapM_cons] at h1
    obtain ⟨y, hy, h1⟩ := Option.bind_eq_some_iff.mp h1
    obtain ⟨r, hr, h1⟩ := Option.bind_eq_some_iff.mp h1
    simp only [Option.pure_def, Option.some.injEq] at h1
    subst h1
    rw [List.flatten_cons, List.flatMap_append, List.mem_append] at hx
    rw [List.flatMap_cons]
    rcases hx with hx | hx
    · obtain ⟨i, h2, h3⟩ := List.mem_flatMap.mp hx
      unfold contents at hy
      split at hy
      · rcases strictly_mem _ _ hy i h2 with ⟨t, rfl, -⟩ | ⟨n, a, k, h4, h5⟩
        · simp [instrTexts] at h3
        · exact ⟨_, List.mem_append_left _ h4, instrTexts_shown h5 h3⟩
      · exact absurd hy (by simp)
    · obtain ⟨nd, h2, h3⟩ := ih (iss := r.flatten) hx (by rw [hr]; rfl)
      exact ⟨nd, List.mem_append_right _ h2, h3⟩

/-! ### From the pages to instructions -/

/-- A text among the things put is blank or a piece of a word of the texts. -/
def Stems (m : Means) (srcs : List Str) (ps : List Put) : Prop := ∀ v, Put.text v ∈ ps →
  (v = [] ∨ v = [32]) ∨ ∃ x ∈ srcs, ∃ page, ∃ w ∈ wordsOf page x, WordPiece (PartsBreak m.hyph) w v

theorem Stems.append {a b : List Str} {ps qs : List Put} (h : Stems m a ps) (h' : Stems m b qs) : Stems m (a ++ b) (ps ++ qs) := by
  intro v hv
  rcases List.mem_append.mp hv with hv | hv
  · refine (h v hv).imp id ?_
    rintro ⟨x, h1, h2⟩
    exact ⟨x, List.mem_append_left _ h1, h2⟩
  · refine (h' v hv).imp id ?_
    rintro ⟨x, h1, h2⟩
    exact ⟨x, List.mem_append_right _ h1, h2⟩

theorem Stems.mono {a b : List Str} {ps : List Put} (h : Stems m a ps) (hs : ∀ x ∈ a, x ∈ b) : Stems m b ps := by
  intro v hv
  refine (h v hv).imp id ?_
  rintro ⟨x, h1, h2⟩
  exact ⟨x, hs x h1, h2⟩

theorem Stems.none {ps : List Put} (a : List Str) (h : ∀ v, Put.text v ∉ ps) : Stems m a ps := fun v hv => absurd hv (h v)

theorem Stems.page {a : List Str} {ps : List Put} (h : Stems m a ps) : Stems m a (.page :: ps) := by
  intro v hv
  exact h v (by simpa using hv)

theorem sourceWords_mem {page : Int} {w : Str} : ∀ {iss : List Instr}, w ∈ sourceWords page iss → ∃ x ∈ plainTexts iss, w ∈ wordsOf page x
  | [], h => by simp [sourceWords] at h
  | i :: is, h => by
    have ih := @sourceWords_mem page w is
    have lift : (∃ x ∈ plainTexts is, w ∈ wordsOf page x) → ∃ x ∈ plainTexts (i :: is), w ∈ wordsOf page x := by
      rintro ⟨x, h1, h2⟩
      exact ⟨x, by unfold plainTexts; rw [List.flatMap_cons]; exact List.mem_append_right _ h1, h2⟩
    cases i with
    | textBlock t =>
      rcases List.mem_append.mp h with h | h
      · exact ⟨t, by simp [plainTexts], h⟩
      · exact lift (ih h)
    | paragraph st t =>
      rcases List.mem_append.mp h with h | h
      · exact ⟨t, by simp [plainTexts], h⟩
      · exact lift (ih h)
    | _ => exact lift (ih h)

theorem written_pieces {hyph : Str → List Str} {ws ts : List Str} (h : Written hyph ws ts) :
    ∀ v ∈ ts, (v = [] ∨ v = [32]) ∨ ∃ w ∈ ws, WordPiece (PartsBreak hyph) w v := by
  have up : ∀ {w : Str} {ws : List Str} {v : Str}, ((v = [] ∨ v = [32]) ∨ ∃ w ∈ ws, WordPiece (PartsBreak hyph) w v) →
      (v = [] ∨ v = [32]) ∨ ∃ u ∈ w :: ws, WordPiece (PartsBreak hyph) u v := by
    rintro w ws v (h | ⟨u, h1, h2⟩)
    · exact .inl h
    · exact .inr ⟨u, List.mem_cons_of_mem _ h1, h2⟩
  induction h with
  | nil => simp
  | whole ht _ ih =>
    intro v hv
    rcases List.mem_cons.mp hv with rfl | hv
    · exact .inr ⟨_, List.mem_cons_self, .whole ht⟩
    · exact up (ih v hv)
  | @broken w ws t u ts i h1 h2 ht hu _ ih =>
    intro v hv
    have hb : PartsBreak hyph w ((hyph w).take i).flatten u := ⟨i, h1, h2, rfl, hu⟩
    rcases List.mem_cons.mp hv with rfl | hv
    · exact .inr ⟨w, List.mem_cons_self, .first hb ht⟩
    rcases List.mem_cons.mp hv with rfl | hv
    · exact .inr ⟨w, List.mem_cons_self, .second hb⟩
    · exact up (ih v hv)
  | blank ht _ ih =>
    intro v hv
    rcases List.mem_cons.mp hv with rfl | hv
    · exact .inl ht
    · exact ih v hv

theorem textPuts_stems {iss : List Instr} {ps : List Put} (h : TextPuts m iss ps) : Stems m (plainTexts iss) ps := by
  obtain ⟨page, ts, h1, rfl⟩ := h
  intro v hv
  obtain ⟨v', hv', e⟩ := List.mem_map.mp hv
  cases e
  refine (written_pieces h1 v hv').imp id ?_
  rintro ⟨w, h2, h3⟩
  obtain ⟨x, h4, h5⟩ := sourceWords_mem h2
  exact ⟨x, h4, page, w, h5, h3⟩

theorem boxPuts_stems {iss : List Instr} {ps : List Put} (h : BoxPuts m iss ps) : Stems m (plainTexts iss) ps := by
  rcases h with h | ⟨qs, h, rfl⟩
  · exact textPuts_stems h
  · exact (textPuts_stems h).page

/-- For an image there is no text. -/
def Imageless (m : Means) : Prop := ∀ src v, Put.text v ∉ m.image src

private theorem items_stems (hm : Imageless m) : ∀ (iss : List Instr) (ps : List Put), InTurn (ItemPuts m) iss ps →
    Stems m (iss.flatMap fun | .box _ js => plainTexts js | _ => []) ps
  | [], _, h => by cases h; exact .none _ (by simp)
  | i :: is, _, h => by
    cases h with
    | cons h1 h2 =>
      rw [List.flatMap_cons]
      refine Stems.append ?_ (items_stems hm is _ h2)
      cases i with
      | image st src =>
        have h1' : _ = m.image src := h1
        subst h1'
        exact .none _ (hm src)
      | box st js => exact boxPuts_stems h1
      | _ =>
        have h1' : _ = [] := h1
        rw [h1']
        exact .none _ (by simp)

private theorem row_stems (hm : Imageless m) : ∀ (cells : List (List Instr)) (ps : List Put), RowPuts m cells ps → Stems m (cells.flatMap cellTexts) ps
  | [], _, h => by cases h; exact .none _ (by simp)
  | c :: cs, _, h => by
    cases h with
    | cons h1 h2 =>
      rw [List.flatMap_cons]
      refine Stems.append ?_ (row_stems hm cs _ h2)
      obtain ⟨ts, qs, h3, h4, rfl⟩ := h1
      exact (textPuts_stems h3).append (items_stems hm c qs h4)

private theorem rows_stems (hm : Imageless m) : ∀ (rows : List (List (List Instr))) (ps : List Put), InTurn (RowPuts m) rows ps →
    Stems m (rows.flatMap fun r => r.flatMap cellTexts) ps
  | [], _, h => by cases h; exact .none _ (by simp)
  | c :: cs, _, h => by
    cases h with
    | cons h1 h2 =>
      rw [List.flatMap_cons]
      exact (row_stems hm c _ h1).append (rows_stems hm cs _ h2)

private theorem rowsPut_stems (hm : Imageless m) {head : List (List (List Instr))} {i : Nat} {rows : List (List (List Instr))} {ps : List Put}
    (h : RowsPut m head i rows ps) : Stems m ((head.flatMap fun r => r.flatMap cellTexts) ++ rows.flatMap fun r => r.flatMap cellTexts) ps := by
  induction h with
  | nil => exact .none _ (by simp)
  | @same i row rows ps qs h1 _ ih =>
    refine ((row_stems hm row ps h1).append ih).mono ?_
    intro s hs
    simp only [List.flatMap_cons, List.mem_append] at hs ⊢
    tauto
  | @page i row rows hs ps qs h0 h1 _ ih =>
    refine Stems.page ?_
    refine (((rows_stems hm _ hs h0).append (row_stems hm row ps h1)).append ih).mono ?_
    intro s hs
    simp only [List.flatMap_cons, List.mem_append] at hs ⊢
    have hh : s ∈ (if i = 0 then [] else head).flatMap (fun r => r.flatMap cellTexts) → s ∈ head.flatMap (fun r => r.flatMap cellTexts) := by
      split
      · simp
      · exact id
    tauto

theorem part_stems (hm : Imageless m) : ∀ (iss : List Instr) (ps : List Put), PartPuts m iss ps → Stems m (iss.flatMap instrTexts) ps
  | [], _, h => by cases h; exact .none _ (by simp)
  | i :: is, _, h => by
    cases h with
    | cons h1 h2 =>
      rw [List.flatMap_cons]
      refine Stems.append ?_ (part_stems hm is _ h2)
      cases i with
      | image st src =>
        have h1' : _ = m.image src := h1
        subst h1'
        exact .none _ (hm src)
      | box st js => exact boxPuts_stems h1
      | text st js => exact textPuts_stems h1
      | table st rep rows =>
        obtain ⟨extra, qs, h1, h2⟩ := h1
        have h3 := (rowsPut_stems hm h1).mono (b := instrTexts (.table st rep rows)) (by
          intro s hs
          have hall : ∃ r ∈ (rows.map fun (r : TableRow) => r.cells.map (·.iss)) ++ List.replicate extra ([] : List (List Instr)), s ∈ r.flatMap cellTexts := by
            rcases List.mem_append.mp hs with hs | hs
            · obtain ⟨r, h4, h5⟩ := List.mem_flatMap.mp hs
              exact ⟨r, List.mem_of_mem_take h4, h5⟩
            · exact List.mem_flatMap.mp hs
          obtain ⟨r, h4, h5⟩ := hall
          rcases List.mem_append.mp h4 with h4 | h4
          · obtain ⟨row, h6, rfl⟩ := List.mem_map.mp h4
            obtain ⟨c, h7, h8⟩ := List.mem_flatMap.mp h5
            obtain ⟨cell, h9, rfl⟩ := List.mem_map.mp h7
            exact List.mem_flatMap.mpr ⟨row, h6, List.mem_flatMap.mpr ⟨cell, h9, h8⟩⟩
          · rw [(List.mem_replicate.mp h4).2] at h5
            simp at h5)
        rcases h2 with rfl | rfl
        · exact h3
        · exact h3.page
      | pageBreak =>
        have h1' : _ = [Put.page] := h1
        rw [h1']
        exact .none _ (by simp)
      | _ =>
        have h1' : _ = [] := h1
        rw [h1']
        exact .none _ (by simp)

theorem filled_stems (hm : Imageless m) {header footer : List Instr} {ps ds : List Put} (h : Filled m header footer ps ds) :
    ∀ a, Stems m a ps → Stems m (a ++ header.flatMap instrTexts ++ footer.flatMap instrTexts) ds := by
  have own : ∀ {a b : List Str} {t : Str} {ps ds : List Put}, Stems m a (.text t :: ps) → (Stems m a ps → Stems m (a ++ b) ds) → Stems m (a ++ b) (.text t :: ds) := by
    intro a b t ps ds ha ih v hv
    rcases List.mem_cons.mp hv with h1 | h1
    · exact ha.mono (fun x hx => List.mem_append_left _ hx) v (by rw [h1]; simp)
    · exact ih (fun u hu => ha u (by simp [hu])) v h1
  induction h with
  | nil => intro a _; exact .none _ (by simp)
  | @text t ps ds _ ih =>
    intro a ha
    rw [List.append_assoc]
    exact own ha fun h => by rw [← List.append_assoc]; exact ih a h
  | @image src ps ds _ ih =>
    intro a ha v hv
    exact ih a (fun g hg => ha g (by simp [hg])) v (by simpa using hv)
  | @page fq fs hq hs ps ds h1 _ h2 _ _ ih1 ih2 ih3 =>
    intro a ha
    have h3 := ih1 _ (part_stems hm _ _ h1)
    have h4 := ih2 _ (part_stems hm _ _ h2)
    have h5 := ih3 a (fun g hg => ha g (by simp [hg]))
    refine (h3.append (Stems.page (h4.append h5))).mono ?_
    intro x hx
    simp only [List.mem_append] at hx ⊢
    tauto
  | @turned fq fs hq hs t ps ds h1 _ h2 _ _ ih1 ih2 ih3 =>
    intro a ha
    have h3 := ih1 _ (part_stems hm _ _ h1)
    have h4 := ih2 _ (part_stems hm _ _ h2)
    have h5 : Stems m (a ++ (header.flatMap instrTexts ++ footer.flatMap instrTexts)) (.text t :: ds) :=
      own ha fun h => by rw [← List.append_assoc]; exact ih3 a h
    refine (h3.append (Stems.page (h4.append h5))).mono ?_
    intro x hx
    simp only [List.mem_append] at hx ⊢
    tauto

end Verif.Proofs
