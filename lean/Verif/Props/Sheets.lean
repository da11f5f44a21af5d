import Verif.Spec.Sheets
import Verif.Props.Looks
/-
Property C100: every page has its header and its footer, with its number (/repo/process.go, engine/fpdf.go).
-/
namespace Verif.Props
open Verif.Go Verif.Model Verif.Spec Verif.Proofs

variable {p : Paper} {ctx : Ctx} {m : Surroundings} {n : Nat}

/-! ### Header and footer -/

private theorem textsIn_append (ds es : List Shown) : textsIn (ds ++ es) = textsIn ds ++ textsIn es := by
  simp [textsIn]

private theorem textsIn_draws (k : Nat) (cmds : List DrawCmd) : textsIn (cmds.map (Shown.draw k)) = [] := by
  simp [textsIn, List.filterMap_map, Function.comp_def]

private theorem onePage_append {k : Nat} : ∀ {ps qs : List Ask} {ds : List Shown}, OnePage k (ps ++ qs) ds →
    ∃ d1 d2, ds = d1 ++ d2 ∧ OnePage k ps d1 ∧ OnePage k qs d2
  | [], _, ds, h => ⟨[], ds, rfl, .nil, h⟩
  | _ :: _, _, _, .text h1 h => by
    obtain ⟨d1, d2, rfl, h2, h3⟩ := onePage_append h
    exact ⟨_, d2, rfl, .text h1 h2, h3⟩
  | _ :: _, _, _, .image h => by
    obtain ⟨d1, d2, rfl, h2, h3⟩ := onePage_append h
    exact ⟨_, d2, rfl, .image h2, h3⟩
  | _ :: _, _, _, .box hb h => by
    obtain ⟨d1, d2, rfl, h2, h3⟩ := onePage_append h
    exact ⟨_, d2, (List.append_assoc ..).symm, .box hb h2, h3⟩

private theorem onePage_box {k j : Nat} {sty : Styles} {r : Area} {ps : List Ask} {ds : List Shown} (h : OnePage k (.box j sty r :: ps) ds) :
    ∃ (cmds : List DrawCmd) (ds' : List Shown), ds = cmds.map (Shown.draw k) ++ ds' ∧ OnePage k ps ds' := by
  cases h with
  | box _ h => exact ⟨_, _, rfl, h⟩

private theorem onePage_image {k j : Nat} {src : Str} {ps : List Ask} {ds : List Shown} (h : OnePage k (.image j src :: ps) ds) :
    ∃ ds', ds = .image k src :: ds' ∧ OnePage k ps ds' := by
  cases h with
  | image h => exact ⟨_, rfl, h⟩

private theorem onePage_nil {k : Nat} {ds : List Shown} (h : OnePage k [] ds) : ds = [] := by cases h; rfl

private theorem written_append {hyph : Str → List Str} {ws vs ts us : List Str} (h : Written hyph ws ts) (h' : Written hyph vs us) :
    Written hyph (ws ++ vs) (ts ++ us) := by
  induction h with
  | nil => exact h'
  | whole h1 _ ih => exact .whole h1 ih
  | broken i h1 h2 h3 h4 _ ih => exact .broken i h1 h2 h3 h4 ih
  | blank h1 _ ih => exact .blank h1 ih

/-- On page `k` the words `ws k` are written, and the page stays the same. -/
private def Says (hyph : Str → List Str) (k : Nat) (ws : List Str) (R : At → List Ask → At → Prop) : Prop :=
  ∀ a ps b ds, R a ps b → a.page = k → OnePage k ps ds → b.page = k ∧ Written hyph ws (textsIn ds)

private theorem Says.turns {α : Type} {hyph : Str → List Str} {k : Nat} {ws : α → List Str} {R : α → At → List Ask → At → Prop}
    {xs : List α} (h : ∀ x ∈ xs, Says hyph k (ws x) (R x)) : Says hyph k (xs.flatMap ws) (Turns R xs) := by
  intro a ps b ds ht
  induction ht generalizing ds with
  | nil => intro h1 h2; cases h2; exact ⟨h1, .nil⟩
  | cons h1 _ ih =>
    intro h2 h3
    obtain ⟨d1, d2, rfl, h4, h5⟩ := onePage_append h3
    obtain ⟨h6, h7⟩ := h _ (by simp) _ _ _ _ h1 h2 h4
    obtain ⟨h8, h9⟩ := ih (fun x hx => h x (by simp [hx])) _ h6 h5
    exact ⟨h8, by rw [List.flatMap_cons, textsIn_append]; exact written_append h7 h9⟩

private theorem styledWords_plain (block : Bool) (cs : Classes) (sty : Styles) (k : Nat) : ∀ iss : List Instr,
    ((styledWords block cs sty k iss).map (·.2)).filter (· ≠ []) = sourceWords k iss := by
  have one : ∀ (t : Str), (wordsIn block k t).filter (· ≠ []) = wordsOf k t := by
    intro t
    have : (wordsOf k t).filter (· ≠ []) = wordsOf k t := by
      unfold wordsOf
      rw [List.filter_filter]
      simp
    unfold wordsIn
    split
    · rename_i h
      rw [h]
      split <;> rfl
    · exact this
  intro iss
  induction iss with
  | nil => rfl
  | cons i iss ih =>
    cases i
    case textBlock t => simp only [styledWords, sourceWords, List.map_append, List.filter_append, ih, List.map_map, Function.comp_def, List.map_id', one]
    case paragraph st t => simp only [styledWords, sourceWords, List.map_append, List.filter_append, ih, List.map_map, Function.comp_def, List.map_id', one]
    all_goals exact ih

private theorem writtenIn_plain {hyph : Str → List Str} (h0 : (hyph []).length ≤ 1) {ws ts : List (Font × Str)} (h : WrittenIn hyph ws ts) :
    Written hyph ((ws.map (·.2)).filter (· ≠ [])) (ts.map (·.2)) := by
  induction h with
  | nil => exact .nil
  | @whole f w ws t ts ht _ ih =>
    by_cases hw : w = []
    · subst hw
      simpa using Written.blank (by simpa using ht) ih
    · rw [List.map_cons, List.filter_cons_of_pos (by simpa using hw)]
      exact .whole ht ih
  | @broken f w ws t u ts i h1 h2 h3 h4 _ ih =>
    by_cases hw : w = []
    · subst hw; omega
    · rw [List.map_cons, List.filter_cons_of_pos (by simpa using hw)]
      exact .broken i h1 h2 h3 h4 ih

private theorem writesIn_texts {col : RGB} {k : Nat} {a b : At} {ts : List (Font × Str)} {ps : List Ask} (h : WritesIn col a ts ps b) :
    ∀ {ds : List Shown}, a.page = k → OnePage k ps ds → b.page = k ∧ textsIn ds = ts.map (·.2) := by
  induction h with
  | nil => intro ds h1 h2; cases h2; exact ⟨h1, rfl⟩
  | cons _ ih =>
    intro ds h1 h2
    cases h2 with
    | text h3 h4 =>
      obtain ⟨h5, h6⟩ := ih h1 h4
      exact ⟨h5, by rw [List.map_cons, ← h6]; rfl⟩

private theorem measured_page (block : Bool) (sty : Styles) (iss : List Instr) (a : At) : (measured m block sty iss a).page = a.page := rfl

private theorem boxMeasured_page (sty : Styles) (iss : List Instr) (a : At) : (boxMeasured m sty iss a).page = a.page := by
  unfold boxMeasured
  split <;> rfl

private theorem text_says (h0 : (m.hyph []).length ≤ 1) (k : Nat) (sty : Styles) (iss : List Instr) :
    Says m.hyph k (sourceWords k iss) (TextAsks m sty iss) := by
  rintro a ps b ds ⟨ts, h1, h2⟩ rfl h4
  obtain ⟨h5, h6⟩ := writesIn_texts h2 (measured_page ..) h4
  refine ⟨h5, ?_⟩
  rw [h6, ← styledWords_plain (isBlock sty) m.classes sty a.page iss]
  exact writtenIn_plain h0 h1

private theorem box_says (h0 : (m.hyph []).length ≤ 1) (k : Nat) (area : Area) (st : Styled) (iss : List Instr) :
    Says m.hyph k (sourceWords k iss) (BoxAsks m area st iss) := by
  intro a ps b ds h h3 h4
  rcases h with ⟨r, ts, -, h5, rfl⟩ | ⟨a2, qs, -, rfl⟩
  · obtain ⟨cmds, ds', rfl, h6⟩ := onePage_box h4
    rw [textsIn_append, textsIn_draws]
    exact text_says h0 k _ iss _ _ _ _ h5 (by rw [boxMeasured_page]; exact h3) h6
  · cases h4

private theorem quiet_says {hyph : Str → List Str} (k : Nat) : Says hyph k [] fun a ps b => ps = [] ∧ b = a := by
  rintro a ps b ds ⟨rfl, rfl⟩ h1 h2
  cases h2
  exact ⟨h1, .nil⟩

/-- What images show is not text. -/
private def Mute (m : Surroundings) : Prop := ∀ k src, m.image k src = [] ∨ ∃ s, m.image k src = [.image k s]

private theorem image_says (hm : Mute m) (k : Nat) (src : Str) : Says m.hyph k [] fun a ps b => ps = m.image a.page src ∧ b = a := by
  rintro a ps b ds ⟨rfl, rfl⟩ h1 h2
  rcases hm b.page src with h | ⟨s, h⟩
  · rw [h] at h2; cases h2; exact ⟨h1, .nil⟩
  · rw [h] at h2
    obtain ⟨ds', rfl, h3⟩ := onePage_image h2
    rw [onePage_nil h3]
    exact ⟨h1, .nil⟩

private theorem items_say (h0 : (m.hyph []).length ≤ 1) (hm : Mute m) (k : Nat) (area : Area) (iss : List Instr) :
    Says m.hyph k (iss.flatMap fun | .box _ iss => sourceWords k iss | _ => []) (Turns (ItemAsks m area) iss) := by
  apply Says.turns
  intro i _
  cases i
  case box st is _ =>
    intro a ps b ds h h1
    exact box_says h0 k area st is _ _ _ _ h ((boxMeasured_page _ _ _).trans h1)
  case image => exact image_says hm k _
  all_goals exact quiet_says k

private theorem cell_says (h0 : (m.hyph []).length ≤ 1) (hm : Mute m) (k : Nat) (cell : Styles × List Instr) :
    Says m.hyph k (sourceWords k cell.2 ++ cell.2.flatMap fun | .box _ iss => sourceWords k iss | _ => []) (CellAsks m cell) := by
  rintro a ps b ds ⟨r, a1, ts, qs, h1, h2, rfl⟩ h3 h4
  obtain ⟨cmds, ds', rfl, h5⟩ := onePage_box h4
  obtain ⟨d1, d2, rfl, h6, h7⟩ := onePage_append h5
  obtain ⟨h8, h9⟩ := text_says h0 k _ _ _ _ _ _ h1 h3 h6
  obtain ⟨h10, h11⟩ := items_say h0 hm k _ cell.2 _ _ _ _ h2 h8 h7
  refine ⟨h10, ?_⟩
  rw [textsIn_append, textsIn_draws, textsIn_append, List.nil_append]
  exact written_append h9 h11

private theorem rows_say {k : Nat} {hyph : Str → List Str} {ws : List (Styles × List Instr) → List Str}
    {head rows : List (List (Styles × List Instr))} {i : Nat} (hr : ∀ row ∈ rows, Says hyph k (ws row) (RowAsks m row)) :
    Says hyph k (rows.flatMap ws) (RowsAsk m head i rows) := by
  intro a ps b ds h
  induction h generalizing ds with
  | nil => intro h1 h2; cases h2; exact ⟨h1, .nil⟩
  | same h1 _ ih =>
    intro h2 h3
    obtain ⟨d1, d2, rfl, h4, h5⟩ := onePage_append h3
    obtain ⟨h6, h7⟩ := hr _ (by simp) _ _ _ _ h1 h2 h4
    obtain ⟨h8, h9⟩ := ih (fun x hx => hr x (by simp [hx])) _ h6 h5
    exact ⟨h8, by rw [List.flatMap_cons, textsIn_append]; exact written_append h7 h9⟩
  | page => intro _ h3; cases h3

private theorem flatMap_congr_snd {α β γ δ : Type} {f : α → List δ} {g : β → List δ} {p : α → γ} {q : β → γ} (hfg : ∀ a b, p a = q b → f a = g b) :
    ∀ {xs : List α} {ys : List β}, xs.map p = ys.map q → xs.flatMap f = ys.flatMap g
  | [], [], _ => rfl
  | [], _ :: _, h => by simp at h
  | _ :: _, [], h => by simp at h
  | x :: xs, y :: ys, h => by
    simp only [List.map_cons, List.cons.injEq] at h
    rw [List.flatMap_cons, List.flatMap_cons, hfg x y h.1, flatMap_congr_snd hfg h.2]

private def cellWords (k : Nat) (iss : List Instr) : List Str := sourceWords k iss ++ iss.flatMap fun | .box _ iss => sourceWords k iss | _ => []

private theorem styledCells_words (k : Nat) (cs : Classes) (sty : Styles) (rows : List TableRow) :
    ((styledCells cs sty rows).flatMap fun row => row.flatMap fun cell => cellWords k cell.2) = rows.flatMap fun r => r.cells.flatMap fun c => cellWords k c.iss := by
  refine flatMap_congr_snd (p := fun row : List (Styles × List Instr) => row.map (·.2)) (q := fun r : TableRow => r.cells.map (·.iss)) ?_ ?_
  · intro a b h
    exact flatMap_congr_snd (fun _ _ h => by rw [h]) h
  · simp only [styledCells]
    apply List.ext_getElem
    · simp
    · intro i h1 h2
      simp only [List.getElem_mapIdx, List.getElem_map]
      apply List.ext_getElem
      · simp
      · intro j h3 h4; simp

private theorem table_says (h0 : (m.hyph []).length ≤ 1) (hm : Mute m) (k : Nat) (st : Styled) (repeated : Int) (rows : List TableRow) :
    Says m.hyph k (instrWords k (.table st repeated rows)) (TableAsks m st repeated rows) := by
  intro a ps b ds h h3 h4
  obtain ⟨extra, h⟩ := h
  rcases h with h | ⟨a2, qs, -, rfl⟩
  · have key := rows_say (m := m) (ws := fun row => row.flatMap fun cell => cellWords k cell.2) (k := k) (hyph := m.hyph) (i := 0)
      (head := ((styledCells m.classes (st.mutatedStyles m.classes a.styles) rows ++ List.replicate extra []).take repeated.toNat))
      (rows := styledCells m.classes (st.mutatedStyles m.classes a.styles) rows ++ List.replicate extra [])
      (fun row _ => Says.turns fun cell _ => cell_says h0 hm k cell)
    have hp : ∀ (cells : List (Styles × List Instr)) (a : At), (cells.foldl (fun a cell => boxMeasured m cell.1 cell.2 a) a).page = a.page := by
      intro cells
      induction cells with
      | nil => intro a; rfl
      | cons c cells ih => intro a; rw [List.foldl_cons, ih, boxMeasured_page]
    obtain ⟨h5, h6⟩ := key _ _ _ _ h (by rw [hp]; exact h3) h4
    refine ⟨h5, ?_⟩
    rw [List.flatMap_append, styledCells_words] at h6
    have e : ((List.replicate extra ([] : List (Styles × List Instr))).flatMap fun row => row.flatMap fun cell => cellWords k cell.2) = [] := by
      rw [List.flatMap_eq_nil_iff]
      intro row hr
      rw [List.eq_of_mem_replicate hr]
      rfl
    rw [e, List.append_nil] at h6
    exact h6
  · cases h4

/-- C100: what a header or footer shows is its words, in order, with the number of the page in place of `{cp}`. -/
theorem C100_number (h0 : (ctx.hyphenate []).length ≤ 1) {iss : List Instr} {a b : At} {ds : List Shown}
    (h : HeadOrFoot (settingOf p ctx) iss a ds b) : Numbered ctx.hyphenate iss a.page ds := by
  obtain ⟨ps, h1, h2, -⟩ := h
  have hm : Mute (settingOf p ctx) := by
    intro k src
    unfold settingOf
    simp only
    split
    · exact .inr ⟨_, rfl⟩
    · exact .inl rfl
  refine (Says.turns (ws := instrWords a.page) (fun i _ => ?_) _ _ _ _ h1 rfl h2).2
  cases i
  case text is _ => exact fun a' ps b ds h h1 => text_says (m := settingOf p ctx) h0 a.page _ is _ _ _ _ h h1
  case box => exact box_says (m := settingOf p ctx) h0 a.page _ _ _
  case table => exact table_says (m := settingOf p ctx) h0 hm a.page _ _ _
  case image => exact image_says hm a.page _
  case pageBreak =>
    rintro a' ps b ds rfl h1 h2
    cases h2
  case font st =>
    rintro a' ps b ds ⟨rfl, rfl⟩ h1 h2
    cases h2
    exact ⟨h1, .nil⟩
  all_goals exact quiet_says a.page

/-! ### The pages -/

private theorem onePage_on {k : Nat} {ps : List Ask} {ds : List Shown} (h : OnePage k ps ds) : ∀ d ∈ ds, d.on = some k := by
  induction h with
  | nil => simp
  | text _ _ ih => simpa [Shown.on] using ih
  | image _ ih => simpa [Shown.on] using ih
  | box _ _ ih =>
    intro d hd
    rcases List.mem_append.mp hd with hd | hd
    · obtain ⟨c, -, rfl⟩ := List.mem_map.mp hd; rfl
    · exact ih d hd

private theorem headOrFoot_on {iss : List Instr} {a b : At} {ds : List Shown} (h : HeadOrFoot m iss a ds b) : ∀ d ∈ ds, d.on = some a.page :=
  onePage_on h.choose_spec.2.1

/-- The pages from page `k` on, which begins with `hd`; the last one ends with `ft`. -/
private theorem showing_pages {header footer : List Instr} {k l : Nat} {ps : List Ask} {ds : List Shown} (h : Showing m header footer k ps ds l) :
    ∀ hd ft : List Shown, ∃ (b0 f0 : List Shown) (rest : List PageParts), rest.length + k = l ∧
      .page :: (hd ++ ds ++ ft) = bound (⟨hd, b0, f0⟩ :: rest) ∧ Own ps ((⟨hd, b0, f0⟩ :: rest).flatMap (·.body)) ∧
      ∀ i q, (⟨hd, b0, f0⟩ :: rest : List PageParts)[i]? = some q →
        (i = 0 ∨ ∃ f c, HeadOrFoot m header ⟨f, k + i⟩ q.head c) ∧
        (i = rest.length ∧ q.foot = ft ∨ ∃ f c, HeadOrFoot m footer ⟨f, k + i⟩ q.foot c) ∧ ∀ d ∈ q.body, d.on = some (k + i) := by
  -- something more on the first page
  have more : ∀ {k l : Nat} {hd ft ds b0 f0 x : List Shown} {rest : List PageParts} {ps : List Ask} {P : List Ask},
      (∀ d ∈ x, d.on = some k) → (∀ {es}, Own ps es → Own P (x ++ es)) →
      (rest.length + k = l ∧
        .page :: (hd ++ ds ++ ft) = bound (⟨hd, b0, f0⟩ :: rest) ∧ Own ps ((⟨hd, b0, f0⟩ :: rest).flatMap (·.body)) ∧
        ∀ i q, (⟨hd, b0, f0⟩ :: rest : List PageParts)[i]? = some q →
          (i = 0 ∨ ∃ f c, HeadOrFoot m header ⟨f, k + i⟩ q.head c) ∧
          (i = rest.length ∧ q.foot = ft ∨ ∃ f c, HeadOrFoot m footer ⟨f, k + i⟩ q.foot c) ∧ ∀ d ∈ q.body, d.on = some (k + i)) →
      ∃ (b0 f0 : List Shown) (rest : List PageParts), rest.length + k = l ∧
        .page :: (hd ++ (x ++ ds) ++ ft) = bound (⟨hd, b0, f0⟩ :: rest) ∧ Own P ((⟨hd, b0, f0⟩ :: rest).flatMap (·.body)) ∧
        ∀ i q, (⟨hd, b0, f0⟩ :: rest : List PageParts)[i]? = some q →
          (i = 0 ∨ ∃ f c, HeadOrFoot m header ⟨f, k + i⟩ q.head c) ∧
          (i = rest.length ∧ q.foot = ft ∨ ∃ f c, HeadOrFoot m footer ⟨f, k + i⟩ q.foot c) ∧ ∀ d ∈ q.body, d.on = some (k + i) := by
    intro k l hd ft ds b0 f0 x rest ps P hx ho h
    obtain ⟨h1, h2, h3, h4⟩ := h
    refine ⟨x ++ b0, f0, rest, h1, ?_, ?_, ?_⟩
    · simp only [bound, List.flatMap_cons, List.cons_append, List.append_assoc, List.cons.injEq, true_and, List.append_cancel_left_eq] at h2 ⊢
      exact h2
    · rw [List.flatMap_cons, List.append_assoc]
      exact ho h3
    · intro i q hq
      cases i with
      | zero =>
        obtain ⟨-, g2, g3⟩ := h4 0 _ rfl
        simp only [List.getElem?_cons_zero, Option.some.injEq] at hq
        subst hq
        refine ⟨.inl rfl, g2, fun d hd => ?_⟩
        rcases List.mem_append.mp hd with hd | hd
        · exact hx d hd
        · exact g3 d hd
      | succ i => exact h4 (i + 1) q hq
  -- a new page before the rest
  have turn : ∀ {k l : Nat} {hd ft ds ns b0 f0 : List Shown} {a b : At} {rest : List PageParts} {ps : List Ask} {hs fs : List Shown} {a1 : At},
      a.page = k → HeadOrFoot m footer a fs a1 → HeadOrFoot m header { a1 with page := a.page + 1 } hs b → ns = fs ++ .page :: hs →
      (rest.length + (k + 1) = l ∧
        .page :: (hs ++ ds ++ ft) = bound (⟨hs, b0, f0⟩ :: rest) ∧ Own ps ((⟨hs, b0, f0⟩ :: rest).flatMap (·.body)) ∧
        ∀ i q, (⟨hs, b0, f0⟩ :: rest : List PageParts)[i]? = some q →
          (i = 0 ∨ ∃ f c, HeadOrFoot m header ⟨f, k + 1 + i⟩ q.head c) ∧
          (i = rest.length ∧ q.foot = ft ∨ ∃ f c, HeadOrFoot m footer ⟨f, k + 1 + i⟩ q.foot c) ∧ ∀ d ∈ q.body, d.on = some (k + 1 + i)) →
      ∃ (b0 f0 : List Shown) (rest : List PageParts), rest.length + k = l ∧
        .page :: (hd ++ (ns ++ ds) ++ ft) = bound (⟨hd, b0, f0⟩ :: rest) ∧ Own ps ((⟨hd, b0, f0⟩ :: rest).flatMap (·.body)) ∧
        ∀ i q, (⟨hd, b0, f0⟩ :: rest : List PageParts)[i]? = some q →
          (i = 0 ∨ ∃ f c, HeadOrFoot m header ⟨f, k + i⟩ q.head c) ∧
          (i = rest.length ∧ q.foot = ft ∨ ∃ f c, HeadOrFoot m footer ⟨f, k + i⟩ q.foot c) ∧ ∀ d ∈ q.body, d.on = some (k + i) := by
    rintro k l hd ft ds ns b0 f0 a b rest ps hs fs a1 rfl hf hh rfl ⟨h1, h2, h3, h4⟩
    refine ⟨[], fs, ⟨hs, b0, f0⟩ :: rest, by rw [List.length_cons]; omega, ?_, ?_, ?_⟩
    · have : bound (⟨hd, [], fs⟩ :: ⟨hs, b0, f0⟩ :: rest) = .page :: (hd ++ fs) ++ bound (⟨hs, b0, f0⟩ :: rest) := by
        simp [bound]
      rw [this, ← h2]
      simp
    · rw [List.flatMap_cons]
      exact h3
    · intro i q hq
      cases i with
      | zero =>
        simp only [List.getElem?_cons_zero, Option.some.injEq] at hq
        subst hq
        exact ⟨.inl rfl, .inr ⟨_, _, hf⟩, by simp⟩
      | succ i =>
        rw [List.getElem?_cons_succ] at hq
        obtain ⟨g1, g2, g3⟩ := h4 i q hq
        rw [show a.page + 1 + i = a.page + (i + 1) by omega] at g1 g2 g3
        refine ⟨.inr ?_, ?_, g3⟩
        · rcases g1 with rfl | g1
          · simp only [List.getElem?_cons_zero, Option.some.injEq] at hq
            subst hq
            exact ⟨_, _, hh⟩
          · exact g1
        · rcases g2 with ⟨rfl, g2⟩ | g2
          · exact .inl ⟨rfl, g2⟩
          · exact .inr g2
  induction h with
  | @nil k =>
    intro hd ft
    refine ⟨[], ft, [], by simp, by simp [bound], .nil, ?_⟩
    intro i q hq
    cases i with
    | zero =>
      simp only [List.getElem?_cons_zero, Option.some.injEq] at hq
      subst hq
      exact ⟨.inl rfl, .inl ⟨rfl, rfl⟩, by simp⟩
    | succ i => simp at hq
  | @text k f col t a ps ds l ha _ ih =>
    intro hd ft
    obtain ⟨b0, f0, rest, h⟩ := ih hd ft
    exact more (x := [.text k f col t]) (by simp [Shown.on]) (fun {es} h => by rw [← ha]; exact .text h) h
  | @turned k f col t a ns b ps ds l ha hn _ ih =>
    intro hd ft
    cases hn with
    | @mk fs a1 hs _ hf hh =>
      obtain ⟨b0, f0, rest, h⟩ := ih hs ft
      have hb : b.page = k + 1 := by rw [hh.choose_spec.2.2, ← ha]
      obtain ⟨b1, f1, rest1, h'⟩ := more (x := [.text (k + 1) f col t]) (P := .text f col t a b :: ps) (by simp [Shown.on])
        (fun {es} h => by rw [← hb]; exact .text h) h
      exact turn ha hf hh rfl h'
  | @image k src ps ds l _ ih =>
    intro hd ft
    obtain ⟨b0, f0, rest, h⟩ := ih hd ft
    exact more (x := [.image k src]) (by simp [Shown.on]) (fun {es} h => .image h) h
  | @box k sty r cmds ps ds l hb _ ih =>
    intro hd ft
    obtain ⟨b0, f0, rest, h⟩ := ih hd ft
    refine more (x := cmds.map (.draw k)) ?_ (fun {es} h => .box hb h) h
    intro d hd
    obtain ⟨c, -, rfl⟩ := List.mem_map.mp hd
    rfl
  | @page k a ns b ps ds l ha hn _ ih =>
    intro hd ft
    cases hn with
    | @mk fs a1 hs _ hf hh =>
      obtain ⟨b0, f0, rest, h1, h2, h3, h4⟩ := ih hs ft
      obtain ⟨b1, f1, rest1, g1, g2, g3, g4⟩ := turn (hd := hd) ha hf hh rfl ⟨h1, h2, h3, h4⟩
      exact ⟨b1, f1, rest1, g1, g2, .page g3, g4⟩

/-- C100: a processed document is its pages one after the other.  On each page there is first what the header shows there, once, then a part of the body,
then what the footer shows, once (it is missing on the last page if there was an error, when nothing is written).  All this is on that page, and the parts
of the body make up the body. -/
theorem C100_pages (hw : ∀ w, (ctx.hyphenate w).flatten <:+: w) {r : PdfResult} {s' : PState Fpdf}
    (h : process (Fpdf.engine p) ctx n (newProcessor (Fpdf.new p)) = some (r, s')) :
    ∃ (pages : List PageParts) (ps : List Ask) (a b : At), shownOn s'.eng = bound pages ∧ pages.length = s'.eng.page ∧
      PartAsks (settingOf p ctx) ctx.body a ps b ∧ Own ps (pages.flatMap (·.body)) ∧
      ∀ k q, pages[k]? = some q →
        (∃ f c, HeadOrFoot (settingOf p ctx) ctx.header ⟨f, k + 1⟩ q.head c) ∧
        ((∃ f c, HeadOrFoot (settingOf p ctx) ctx.footer ⟨f, k + 1⟩ q.foot c) ∨ r.failed = true ∧ k + 1 = pages.length ∧ q.foot = []) ∧
        ∀ d ∈ q.head ++ q.body ++ q.foot, d.on = some (k + 1) := by
  obtain ⟨hd, a, ds, b, ft, h1, ⟨ps, h2, h3⟩, h4, h5, h6⟩ := C88_document hw h
  obtain ⟨b0, f0, rest, g1, g2, g3, g4⟩ := showing_pages h3 hd ft
  have ha : a.page = 1 := h1.choose_spec.2.2
  rw [ha] at g1 g4
  refine ⟨_, ps, a, b, h5.trans g2, ?_, h2, g3, ?_⟩
  · rw [h6, List.length_cons]; exact g1
  · intro k q hq
    obtain ⟨j1, j2, j3⟩ := g4 k q hq
    rw [Nat.add_comm 1 k] at j1 j2 j3
    have k1 : ∃ f c, HeadOrFoot (settingOf p ctx) ctx.header ⟨f, k + 1⟩ q.head c := by
      rcases j1 with rfl | j1
      · simp only [List.getElem?_cons_zero, Option.some.injEq] at hq
        subst hq
        exact ⟨_, _, h1⟩
      · exact j1
    have k2 : (∃ f c, HeadOrFoot (settingOf p ctx) ctx.footer ⟨f, k + 1⟩ q.foot c) ∨
        r.failed = true ∧ k + 1 = ((⟨hd, b0, f0⟩ :: rest : List PageParts)).length ∧ q.foot = [] := by
      rcases j2 with ⟨e1, e2⟩ | j2
      · rcases h4 with ⟨d, h4⟩ | ⟨h4, h7⟩
        · refine .inl ⟨b.font, d, ?_⟩
          rw [e2, show (⟨b.font, k + 1⟩ : At) = b by rw [e1, g1]]
          exact h4
        · exact .inr ⟨h4, by rw [e1]; rfl, by rw [e2, h7]⟩
      · exact .inl j2
    refine ⟨k1, k2, ?_⟩
    intro d hd'
    rcases List.mem_append.mp hd' with hd' | hd'
    · rcases List.mem_append.mp hd' with hd' | hd'
      · obtain ⟨f, c, k1⟩ := k1
        exact headOrFoot_on k1 d hd'
      · exact j3 d hd'
    · rcases k2 with ⟨f, c, k2⟩ | ⟨-, -, k2⟩
      · exact headOrFoot_on k2 d hd'
      · rw [k2] at hd'; simp at hd'

/-! ### Example

A header and a footer with the number of the page, and a body with a page break; the body does not show the right number where a text goes on on the
next page. -/

private def plain : Styled := ⟨[], []⟩

private def exNumbers (body : List Instr) : Ctx :=
  { classes := [], header := [.text plain [.textBlock b!"page {cp}"]], footer := [.box plain [.textBlock b!"end of {cp}"]], body := body,
    hyphenate := fun w => [w], resolve := id, describe := fun _ => none }

private def exBody : List Instr := [.text plain [.textBlock b!"one"], .pageBreak, .text plain [.textBlock b!"two"]]

/-- Page and text. -/
private def brief : Shown → Option (Nat × Str)
  | .text k _ _ t => some (k, t)
  | _ => none

example : (process (Fpdf.engine exPaper) (exNumbers exBody) 2 (newProcessor (Fpdf.new exPaper))).map (fun r => (r.1.failed, (shownOn r.2.eng).filterMap brief)) =
    some (false, [(1, b!"page"), (1, b!" 1"), (1, b!"one"), (1, b!"end"), (1, b!" of"), (1, b!" 1"),
      (2, b!"page"), (2, b!" 2"), (2, b!"two"), (2, b!"end"), (2, b!" of"), (2, b!" 2")]) := by
  decide +kernel

/-- Twenty lines, each with the number of the page: more than there is room for on a page. -/
private def longBody : List Instr := [.text plain ((List.replicate 20 [Instr.textBlock b!"{cp}", .lineBreak]).flatten)]

/-- In the body this does not hold: the page number is that of the page on which the text starts. -/
theorem C100_body_number : ∃ r s', process (Fpdf.engine exPaper) (exNumbers longBody) 2 (newProcessor (Fpdf.new exPaper)) = some (r, s') ∧
    r.failed = false ∧ ∃ f c, Shown.text 2 f c b!"1" ∈ shownOn s'.eng := by
  have h : ((process (Fpdf.engine exPaper) (exNumbers longBody) 2 (newProcessor (Fpdf.new exPaper))).elim false fun x =>
      !x.1.failed && (shownOn x.2.eng).any fun d => brief d == some (2, b!"1")) = true := by
    decide +kernel
  generalize process (Fpdf.engine exPaper) (exNumbers longBody) 2 (newProcessor (Fpdf.new exPaper)) = o at h ⊢
  obtain _ | ⟨r, s'⟩ := o
  · simp at h
  · simp only [Option.elim_some, Bool.and_eq_true, Bool.not_eq_true', List.any_eq_true, beq_iff_eq] at h
    obtain ⟨h1, d, h2, h3⟩ := h
    refine ⟨r, s', rfl, h1, ?_⟩
    cases d
    case text k f c t =>
      simp only [brief, Option.some.injEq, Prod.mk.injEq] at h3
      obtain ⟨rfl, rfl⟩ := h3
      exact ⟨f, c, h2⟩
    all_goals simp [brief] at h3

end Verif.Props
