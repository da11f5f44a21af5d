import Verif.Spec.Laid
import Verif.Proofs.Laid
import Verif.Proofs.Looks
import Verif.Props.InStep
import Verif.Props.RenderTable
/-
Property C92: the tables of the body on the pages (/repo/table.go, /repo/process.go, /repo/engine/fpdf.go).
-/
namespace Verif.Props
open Verif.Go Verif.Model Verif.Proofs Verif.Spec

variable {p : Paper} {ctx : Ctx} {n : Nat} {s s' : PState Fpdf} {t : Tab}

/-! ### Marks and pages -/

theorem turns_append (a b : List Mark) : turns (a ++ b) = turns a + turns b := List.count_append

private theorem any_closed (cs : Classes) : Closed cs (fun _ => True) (fun _ => True) := ⟨fun _ _ _ _ => trivial, fun _ _ _ _ _ => trivial, fun _ _ _ _ => trivial⟩

private theorem any_known (iss : List Instr) : Known (fun _ => True) iss := fun _ _ _ _ => trivial

/-- Since there were the marks `o`, on pages up to `k`: marks were added, and the pages are counted. -/
private def Added (o : List Mark) (k : Nat) (e : Fpdf) : Prop := ∃ new, e.out = o ++ new ∧ e.page = k + turns new

private theorem Added.refl (e : Fpdf) : Added e.out e.page e := ⟨[], by simp, rfl⟩

private theorem added_snoc {o : List Mark} {k : Nat} {e e' : Fpdf} {m : Mark} (h : Added o k e) (ho : e'.out = e.out ++ [m]) (hp : e'.page = e.page)
    (hm : m ≠ .page) : Added o k e' := by
  obtain ⟨new, h1, h2⟩ := h
  refine ⟨new ++ [m], by rw [ho, h1, List.append_assoc], ?_⟩
  rw [hp, h2, turns_append, show turns [m] = 0 from List.count_singleton.trans (if_neg (by simpa using hm))]
  rfl

private theorem added_tracks {o : List Mark} {k : Nat} {c : Calls Fpdf} (hw : ∀ t, Keep (fun s : PState Fpdf => Added o k s.eng ∧ True) (c.writeText t))
    (ha : Keep (fun s : PState Fpdf => Added o k s.eng ∧ True) c.addPage) :
    Tracks (Fpdf.engine p) (fun _ => True) (fun s => Added o k s.eng ∧ (fun _ => True) s.curr) c where
  setX _ _ h := h
  setY _ _ h := h
  lineFeed _ s h := ⟨added_snoc (m := .feed s.eng.page) h.1 rfl rfl (by simp), trivial⟩
  font _ _ _ h := h
  changeFont _ _ _ h := h
  color _ _ _ h := h
  image src x y w hh s h := ⟨added_snoc (m := .image s.eng.page src x y w hh) h.1 rfl rfl (by simp), trivial⟩
  draw _ _ _ _ _ _ cmd _ s h := by cases cmd <;> exact ⟨added_snoc (m := .draw s.eng.page _) h.1 rfl rfl (by simp), trivial⟩
  curr _ _ := trivial
  write := hw
  add := ha

private theorem added_turn {o : List Mark} {k : Nat} {f : Font} {c : RGB} {e : Fpdf} (h : Added o k e) :
    ProgOk (Added o k) (Added o k) (Added o k) (Fpdf.turn p f c e) := by
  obtain ⟨new, h1, h2⟩ := h
  exact ⟨⟨new ++ [.page], by rw [← List.append_assoc, ← h1], by rw [turns_append]; show e.page + 1 = _; rw [h2]; rfl⟩, fun _ h' => h'⟩

private theorem added_addPage {o : List Mark} {k : Nat} {e : Fpdf} (h : Added o k e) :
    ProgOk (Added o k) (Added o k) (Added o k) (Fpdf.addPage p e) := by
  unfold Fpdf.addPage
  split
  · exact ⟨h, fun e' h' => added_turn (e := { e' with inHeaderFooter := false }) h'⟩
  · exact added_turn h

private theorem added_calls (o : List Mark) (k : Nat) (n : Nat) :
    Tracks (Fpdf.engine p) (fun _ => True) (fun s => Added o k s.eng ∧ (fun _ => True) s.curr) (callsAt (Fpdf.engine p) ctx n) := by
  induction n with
  | zero => exact added_tracks (fun t => Le.none) Le.none
  | succ n ih =>
    refine added_tracks (fun t => ?_) ?_
    · refine runWith_K (any_closed ctx.classes) (D := Added o k) ih (any_known _) (any_known _) _ fun e he => ?_
      show ProgOk _ _ _ (Fpdf.writeText p t e)
      unfold Fpdf.writeText
      split
      · refine progOk_andThen (D := Added o k) (fun e' _ h' => ?_) (added_addPage he)
        exact added_snoc (m := .text e'.page e.x e'.y e'.font e'.color t) h' rfl rfl (by simp)
      · exact added_snoc (m := .text e.page e.x e.y e.font e.color t) he rfl rfl (by simp)
    · exact runWith_K (any_closed ctx.classes) (D := Added o k) ih (any_known _) (any_known _) _ fun e he => added_addPage he

private theorem added_instrs {iss : List Instr} (h : processInstrs (Fpdf.engine p) ctx (callsAt (Fpdf.engine p) ctx n) iss s = some ((), s')) :
    Added s.eng.out s.eng.page s'.eng :=
  (processInstrs_K (any_closed ctx.classes) (added_calls s.eng.out s.eng.page n) iss (any_known _) s ⟨.refl _, trivial⟩ _ _ h).2.1

/-! ### Events among the marks -/

private theorem onPages_marks {loose : Bool} : ∀ {k : Nat} (ms : List Mark), (loose = true ∨ turns ms = 0) → OnPages t loose k [] ms
  | _, [], _ => .done
  | k, m :: ms, h => by
    by_cases hm : m = .page
    · subst hm
      rcases h with h | h
      · exact .turn h (onPages_marks ms (Or.inl h))
      · exact absurd h (by simp [turns])
    · refine .other hm (onPages_marks ms (h.imp id fun h => ?_))
      unfold turns at h ⊢
      rwa [List.count_cons_of_ne hm] at h

private theorem onPages_append {loose : Bool} {k : Nat} {es es' : List TEvent} {ms ms' : List Mark} (h : OnPages t loose k es ms)
    (h' : OnPages t loose (k + turns ms) es' ms') : OnPages t loose k (es ++ es') (ms ++ ms') := by
  induction h with
  | done => exact h'
  | other hm _ ih =>
    refine .other hm (ih ?_)
    unfold turns at h' ⊢
    rwa [List.count_cons_of_ne hm] at h'
  | turn hl _ ih =>
    refine .turn hl (ih ?_)
    unfold turns at h' ⊢
    rw [List.count_cons_self] at h'
    rwa [Nat.add_assoc, Nat.add_comm 1]
  | page _ ih =>
    refine .page (ih ?_)
    unfold turns at h' ⊢
    rw [List.count_cons_self] at h'
    rwa [Nat.add_assoc, Nat.add_comm 1]
  | cell _ ih =>
    refine .cell (ih ?_)
    unfold turns at h' ⊢
    rwa [List.count_cons_of_ne (by simp [cellMark])] at h'

/-- The page breaks among events. -/
private def pageEvents (es : List TEvent) : Nat := es.countP fun | .page _ => true | .cell _ _ => false

private theorem pageEvents_cells (y : ℚ) : ∀ (ids : List Nat) (x : ℚ), pageEvents (cellEvents t y x ids) = 0
  | [], _ => rfl
  | id :: ids, x => by
    unfold cellEvents pageEvents
    rw [List.countP_append]
    have := pageEvents_cells y ids (x + (t.cell id).width)
    unfold pageEvents at this
    rw [this]
    split <;> rfl

private theorem pageEvents_items (x : ℚ) : ∀ (items : List Item), pageEvents (items.flatMap (Item.events t x)) = breaks items
  | [] => rfl
  | it :: items => by
    have ih := pageEvents_items x items
    rw [List.flatMap_cons]
    unfold pageEvents at ih ⊢
    rw [List.countP_append, ih]
    cases it with
    | page top => show 1 + _ = breaks items + 1; omega
    | header i y => show pageEvents (cellEvents t y x (idsOf t i)) + _ = breaks items; rw [pageEvents_cells]; omega
    | row i y => show pageEvents (cellEvents t y x (idsOf t i)) + _ = breaks items; rw [pageEvents_cells]; omega

private theorem onPages_le {loose : Bool} {k : Nat} {es : List TEvent} {ms : List Mark} (h : OnPages t loose k es ms) : pageEvents es ≤ turns ms := by
  unfold pageEvents turns
  induction h with
  | done => exact Nat.le_refl _
  | other hm _ ih => rwa [List.count_cons_of_ne hm]
  | turn _ _ ih => rw [List.count_cons_self]; omega
  | page _ ih => rw [List.count_cons_self, List.countP_cons_of_pos rfl]; omega
  | cell _ ih => rwa [List.count_cons_of_ne (by simp [cellMark]), List.countP_cons_of_neg (by simp)]

/-- If there are no other page breaks. -/
private theorem onPages_strict {loose : Bool} {k : Nat} {es : List TEvent} {ms : List Mark} (h : OnPages t loose k es ms) (he : pageEvents es = turns ms) :
    OnPages t false k es ms := by
  unfold pageEvents turns at he
  induction h with
  | done => exact .done
  | other hm _ ih => exact .other hm (ih (by rwa [List.count_cons_of_ne hm] at he))
  | turn _ h ih =>
    have := onPages_le h
    unfold pageEvents turns at this
    rw [List.count_cons_self] at he
    omega
  | page _ ih => exact .page (ih (by rw [List.count_cons_self, List.countP_cons_of_pos rfl] at he; omega))
  | cell _ ih => exact .cell (ih (by rwa [List.count_cons_of_ne (by simp [cellMark]), List.countP_cons_of_neg (by simp)] at he))

/-- A cell among the events is among the marks; on which page, if there are no other page breaks. -/
private theorem onPages_mem {loose : Bool} {k : Nat} {es : List TEvent} {ms : List Mark} (h : OnPages t loose k es ms) :
    ∀ a b id pa, es = a ++ .cell id pa :: b → ∃ q, k + pageEvents a ≤ q ∧ (loose = false → q = k + pageEvents a) ∧ cellMark t q id pa ∈ ms := by
  unfold pageEvents
  induction h with
  | done => intro a b id pa e; simp at e
  | other hm _ ih =>
    intro a b id pa e
    obtain ⟨q, h1, h2, h3⟩ := ih a b id pa e
    exact ⟨q, h1, h2, List.mem_cons_of_mem _ h3⟩
  | turn hl _ ih =>
    intro a b id pa e
    obtain ⟨q, h1, h2, h3⟩ := ih a b id pa e
    exact ⟨q, by omega, fun h => by simp [hl] at h, List.mem_cons_of_mem _ h3⟩
  | page _ ih =>
    intro a b id pa e
    cases a with
    | nil => simp at e
    | cons x a =>
      simp only [List.cons_append, List.cons.injEq] at e
      obtain ⟨q, h1, h2, h3⟩ := ih a b id pa e.2
      rw [← e.1, List.countP_cons_of_pos rfl]
      exact ⟨q, by omega, fun h => by rw [h2 h]; omega, List.mem_cons_of_mem _ h3⟩
  | cell _ ih =>
    intro a b id pa e
    cases a with
    | nil =>
      simp only [List.nil_append, List.cons.injEq, TEvent.cell.injEq] at e
      obtain ⟨⟨rfl, rfl⟩, -⟩ := e
      exact ⟨_, Nat.le_refl _, fun _ => rfl, by simp⟩
    | cons x a =>
      simp only [List.cons_append, List.cons.injEq] at e
      obtain ⟨q, h1, h2, h3⟩ := ih a b id pa e.2
      rw [← e.1, List.countP_cons_of_neg (by simp)]
      exact ⟨q, h1, h2, List.mem_cons_of_mem _ h3⟩

/-! ### One table -/

/-- Nothing is drawn, and the position is the same. -/
private def Still (s u : PState Fpdf) : Prop :=
  u.eng.out = s.eng.out ∧ u.eng.page = s.eng.page ∧ u.eng.x = s.eng.x ∧ u.eng.y = s.eng.y ∧ u.prevent = s.prevent

private theorem still_lines {cs : Classes} {width : ℚ} {sty : Styles} : ∀ (iss : List Instr) (acc : List TextLine × TextLine) (s u : PState Fpdf),
    Still s u → Still s (linesLoop (Fpdf.engine p) cs width sty iss acc u).2
  | [], _, s, u, h => h
  | is :: iss, acc, s, u, h => by
    cases is with
    | textBlock t =>
      simp only [linesLoop, textOf]
      by_cases h0 : norm (Fpdf.engine p) u.eng t = []
      · rw [if_pos h0]; exact still_lines iss _ _ _ h
      · rw [if_neg h0]; exact still_lines iss _ _ _ h
    | paragraph st t =>
      simp only [linesLoop, textOf]
      by_cases h0 : norm (Fpdf.engine p) u.eng t = []
      · rw [if_pos h0]; exact still_lines iss _ _ _ h
      · rw [if_neg h0]; exact still_lines iss _ _ _ h
    | _ => exact still_lines iss _ _ _ h

private theorem still_linesHyph {hyph : Str → List Str} {cs : Classes} {width : ℚ} {sty : Styles} : ∀ (iss : List Instr) (acc : List TextLine × TextLine)
    (s u : PState Fpdf), Still s u → Still s (linesLoopHyph (Fpdf.engine p) hyph cs width sty iss acc u).2
  | [], _, s, u, h => h
  | is :: iss, acc, s, u, h => by
    cases is with
    | textBlock t => exact still_linesHyph iss _ _ (changeFont (Fpdf.engine p) sty.font u) h
    | paragraph st t => exact still_linesHyph iss _ _ (changeFont (Fpdf.engine p) (st.mutatedStyles cs sty).font u) h
    | _ => exact still_linesHyph iss _ _ _ h

/-- The position is not moved and nothing is drawn while a table is laid out. -/
private theorem transform_still {page : Page} {curr : Styles} {st : Styled} {rows : List TableRow} {s s1 : PState Fpdf}
    (h : transformTable (textHeightFnc (Fpdf.engine p) ctx) ctx.classes page curr st rows s = some (t, s1)) : Still s s1 := by
  refine transformTable_inv (P := Still s) (fun sty iss w u hu => ?_) h ⟨rfl, rfl, rfl, rfl, rfl⟩
  unfold textHeightFnc
  split
  · exact still_linesHyph iss _ _ { u with eng := (Fpdf.engine p).changeFont sty.font u.eng } hu
  · exact still_lines iss _ _ { u with eng := (Fpdf.engine p).changeFont sty.font u.eng } hu

/-- What is known of a cell that was rendered: its background, then whatever. -/
theorem cell_marks {pa : Area} {sty : Styles} {iss : List Instr}
    (h : renderCell (Fpdf.engine p) ctx (callsAt (Fpdf.engine p) ctx n) pa sty iss s = some ((), s')) :
    ∃ a b, s'.eng.out = s.eng.out ++ (a ++ .draw s.eng.page (.fillRect (pa.x0 + sty.lineWidth / 2) (pa.y0 + sty.lineWidth / 2)
      (pa.x1 - pa.x0 - sty.lineWidth) (pa.y1 - pa.y0 - sty.lineWidth)) :: b) ∧ turns a = 0 ∧ s'.eng.page = s.eng.page + turns b ∧
      ∀ m ∈ a, ∃ c, m = .draw s.eng.page c := by
  have hd : ∀ (cmds : List DrawCmd) (e : Fpdf), (cmds.foldl (fun e c => (Fpdf.engine p).draw c e) e).out = e.out ++ cmds.map (.draw e.page) ∧
      (cmds.foldl (fun e c => (Fpdf.engine p).draw c e) e).page = e.page := by
    intro cmds
    induction cmds with
    | nil => intro e; simp
    | cons c cmds ih =>
      intro e
      have h1 : ((Fpdf.engine p).draw c e).out = e.out ++ [.draw e.page c] ∧ ((Fpdf.engine p).draw c e).page = e.page := by
        cases c <;> exact ⟨rfl, rfl⟩
      obtain ⟨h2, h3⟩ := ih ((Fpdf.engine p).draw c e)
      rw [List.foldl_cons, h2, h3, h1.1, h1.2]
      simp
  unfold renderCell at h
  obtain ⟨_, s1, h1, h2⟩ := bind_some h
  simp only [drawBoxM, upd, Option.some.injEq, Prod.mk.injEq, true_and] at h1
  obtain ⟨d1, d2⟩ := hd (drawBox pa.x0 pa.y0 pa.x1 pa.y1 sty) s.eng
  have e1 : s1.eng.out = s.eng.out ++ (drawBox pa.x0 pa.y0 pa.x1 pa.y1 sty).map (.draw s.eng.page) := by rw [← h1]; exact d1
  have e2 : s1.eng.page = s.eng.page := by rw [← h1]; exact d2
  have hk := added_calls (p := p) (ctx := ctx) s1.eng.out s1.eng.page n
  have hC := any_closed ctx.classes
  have ht : Keep (fun s : PState Fpdf => Added s1.eng.out s1.eng.page s.eng ∧ (fun _ => True) s.curr)
      (renderCellText (Fpdf.engine p) ctx (callsAt (Fpdf.engine p) ctx n) pa sty iss) :=
    (Le.total fun s hp => textHeight_K hC hk trivial (any_known _) hp).bind fun _ => (Le.upd (hk.setY _)).bind fun _ => (Le.upd (hk.setX _)).bind fun _ =>
    writeTextFnc_K hC hk (any_known _) _ trivial
  have hr := (Le.ite (fun _ => ht.bind fun _ => (Le.upd (hk.setX _)).bind fun _ => renderCellItems_K hC hk _ _ _ (any_known _))
    (fun _ => (Le.pure _).bind fun _ => (Le.upd (hk.setX _)).bind fun _ => renderCellItems_K hC hk _ _ _ (any_known _)) s1 ⟨.refl _, trivial⟩ _ _ h2).2.1
  obtain ⟨new, n1, n2⟩ := hr
  rw [e1] at n1
  rw [e2] at n2
  have e3 : sty.lineWidth = 2 * (sty.lineWidth / 2) := by ring
  refine ⟨((drawBox pa.x0 pa.y0 pa.x1 pa.y1 sty).take 3).map (.draw s.eng.page), ((drawBox pa.x0 pa.y0 pa.x1 pa.y1 sty).drop 4).map (.draw s.eng.page) ++ new, ?_, ?_, ?_, ?_⟩
  · rw [n1]
    unfold drawBox
    simp only [List.map_cons, List.map_nil, List.take, List.drop, List.append_assoc, List.cons_append, List.nil_append]
    rw [show 2 * (sty.lineWidth / 2) = sty.lineWidth by ring]
  · simp [drawBox, turns]
  · rw [n2, turns_append]
    simp [drawBox, turns]
  · intro m hm
    obtain ⟨c, -, hc⟩ := List.mem_map.mp hm
    exact ⟨c, hc.symm⟩

/-- What is known of a new page: it is started once. -/
theorem addPage_marks (hl : 0 ≤ p.margins.left) (ht : 0 ≤ p.margins.top) {a : Unit} (h : (callsAt (Fpdf.engine p) ctx n).addPage s = some (a, s')) :
    ∃ more, s'.eng.out = s.eng.out ++ more ∧ s'.eng.page = s.eng.page + 1 ∧ turns more = 1 := by
  have hn := C42_newpage hl ht n h
  obtain ⟨more, m1, m2⟩ := ((added_calls (p := p) (ctx := ctx) s.eng.out s.eng.page n).add s ⟨.refl _, trivial⟩ _ _ h).2.1
  exact ⟨more, m1, hn.1, by have := hn.1; omega⟩

/-- What renderTable works with, and what is on the pages. -/
private theorem sim_ops (hl : 0 ≤ p.margins.left) (ht : 0 ≤ p.margins.top) (o : List Mark) (k : Nat) :
    SimOps (fun (s : PState Fpdf) (u : PState Fpdf × List TEvent) => u.1 = s ∧ (∀ z, .page z ∈ u.2 → z = p.margins.top) ∧
        ∃ new, s.eng.out = o ++ new ∧ s.eng.page = k + turns new ∧ OnPages t true k u.2 new)
      (tableOps (Fpdf.engine p) ctx (callsAt (Fpdf.engine p) ctx n) t) (traced (tableOps (Fpdf.engine p) ctx (callsAt (Fpdf.engine p) ctx n) t)) where
  getXY s u h := by rw [← h.1]; rfl
  prevent s u h := by rw [← h.1]; rfl
  setX x s u h := ⟨by rw [← h.1]; rfl, h.2⟩
  setY y s u h := ⟨by rw [← h.1]; rfl, h.2⟩
  add s u s' h e := by
    obtain ⟨rfl, h1, new, h2, h3, h4⟩ := h
    refine ⟨(s', u.2 ++ [.page ((Fpdf.engine p).getXY s'.eng).2]), by simp only [traced, e, Option.map_some]; rfl, rfl, ?_, ?_⟩
    · obtain ⟨q, hq, rfl⟩ := Option.map_eq_some_iff.mp e
      have hn := C42_newpage hl ht n hq
      intro z hz
      rcases List.mem_append.mp hz with hz | hz
      · exact h1 z hz
      · simp only [List.mem_singleton, TEvent.page.injEq] at hz
        rw [hz, hn.2.1]
        rfl
    · obtain ⟨q, hq, rfl⟩ := Option.map_eq_some_iff.mp e
      obtain ⟨more, m1, m2, m3⟩ := addPage_marks hl ht hq
      have m4 : .page ∈ more := List.count_pos_iff.mp (show 0 < turns more by omega)
      obtain ⟨a, b, hab⟩ := List.append_of_mem m4
      have m5 : turns more = turns a + (turns b + 1) := by
        rw [hab, turns_append]
        unfold turns
        rw [List.count_cons_self]
      refine ⟨new ++ more, by rw [m1, h2, List.append_assoc], by rw [m2, h3, turns_append]; omega, ?_⟩
      refine onPages_append h4 ?_
      rw [hab]
      have := onPages_append (onPages_marks (t := t) (loose := true) (k := k + turns new) a (Or.inl rfl))
        (.page (top := ((Fpdf.engine p).getXY q.2.eng).2) (onPages_marks (t := t) (loose := true) b (Or.inl rfl)))
      exact this
  cell pa id s u s' h e := by
    obtain ⟨rfl, h1, new, h2, h3, h4⟩ := h
    refine ⟨(s', u.2 ++ [.cell id pa]), by simp only [traced, e, Option.map_some], rfl, ?_, ?_⟩
    · intro z hz
      rcases List.mem_append.mp hz with hz | hz
      · exact h1 z hz
      · simp at hz
    · obtain ⟨q, hq, rfl⟩ := Option.map_eq_some_iff.mp e
      obtain ⟨a, b, c1, c2, c3, -⟩ := cell_marks hq
      refine ⟨_, by rw [c1, h2, List.append_assoc], ?_, ?_⟩
      · rw [c3, h3, turns_append, turns_append, c2]
        unfold turns
        rw [List.count_cons_of_ne (by simp)]
        omega
      · refine onPages_append h4 ?_
        have := onPages_append (onPages_marks (t := t) (loose := true) (k := k + turns new) a (Or.inl rfl))
          (.cell (id := id) (a := pa) (onPages_marks (t := t) (loose := true) b (Or.inl rfl)))
        rw [c2, Nat.add_zero] at this
        rw [h3]
        exact this

/-- A table where page breaks are allowed.  Either it has no columns, and nothing happens; or its rows and page breaks are on the pages one below the
other, from where the position was: each row ends above the bottom margin, or is the first one of its page, right below the header rows.  Whatever `Q` relates renderTable and its steps
is known in the end. -/
theorem table_with {Q : Tab → PState Fpdf → PState Fpdf × List TEvent → Prop}
    (hQ : ∀ t, SimOps (Q t) (tableOps (Fpdf.engine p) ctx (callsAt (Fpdf.engine p) ctx n) t)
      (traced (tableOps (Fpdf.engine p) ctx (callsAt (Fpdf.engine p) ctx n) t)))
    (hQ0 : ∀ t s1, s1.eng.out = s.eng.out → s1.eng.page = s.eng.page → Q t s1 (s1, [])) (hl : 0 ≤ p.margins.left) (ht : 0 ≤ p.margins.top) (hp : s.prevent = false) {st : Styled} {rh : Int} {rows : List TableRow}
    (h : processInstr (Fpdf.engine p) ctx (callsAt (Fpdf.engine p) ctx n) (.table st rh rows) s = some ((), s')) :
    ∃ t s1 new, transformTable (textHeightFnc (Fpdf.engine p) ctx) ctx.classes (Page.mk ((Fpdf.engine p).printableArea s.eng)) s.curr st rows s =
        some (t, s1) ∧ s'.eng.out = s.eng.out ++ new ∧ s'.eng.page = s.eng.page + turns new ∧
      (t.columnCount = 0 → new = [] ∧ s'.eng.x = s.eng.x ∧ s'.eng.y = s.eng.y) ∧
      (t.columnCount ≠ 0 → ∃ items, LaidOut p t rh s.eng s'.eng new items ∧
        ∃ s5, s'.eng.out = s5.eng.out ∧ s'.eng.page = s5.eng.page ∧ Q t s5 (s5, items.flatMap (Item.events t s.eng.x))) := by
  simp only [processInstr] at h
  unfold renderTable at h
  rw [bind_eq] at h
  simp only [MonadState.get, getThe, MonadStateOf.get, StateT.get, Pure.pure, Option.bind_some] at h
  cases hx : transformTable (textHeightFnc (Fpdf.engine p) ctx) ctx.classes (Page.mk ((Fpdf.engine p).printableArea s.eng)) s.curr st rows s with
  | none => rw [hx] at h; exact absurd h (by simp)
  | some q =>
    obtain ⟨t, s1⟩ := q
    obtain ⟨q1, q2, q3, q4, q5⟩ := transform_still hx
    simp only [hx] at h
    obtain ⟨_, s2, h2, hr⟩ := bind_some h
    clear h
    have h2 : s2 = s1 := by
      simp only [MonadStateOf.set, set, StateT.set, Pure.pure, Option.some.injEq, Prod.mk.injEq] at h2
      exact h2.2.symm
    subst h2
    by_cases hcol : t.columnCount = 0
    · rw [if_pos hcol] at hr
      simp only [resetStyles, Option.some.injEq, Prod.mk.injEq, true_and] at hr
      refine ⟨t, s2, [], rfl, ?_, ?_, fun _ => ⟨rfl, ?_, ?_⟩, fun hn => absurd hcol hn⟩
      · rw [← hr, List.append_nil]; exact q1
      · rw [← hr]; exact q2
      · rw [← hr]; exact q3
      · rw [← hr]; exact q4
    · rw [if_neg hcol] at hr
      obtain ⟨pa, s3, h3, hr⟩ := bind_some hr
      simp only [Model.ask, Option.some.injEq, Prod.mk.injEq] at h3
      obtain ⟨rfl, rfl⟩ := h3
      obtain ⟨_, s4, h4, hr⟩ := bind_some hr
      simp only [Option.map_eq_some_iff, Prod.mk.injEq] at h4
      obtain ⟨s5, h5, -, rfl⟩ := h4
      simp only [resetStyles, Option.some.injEq, Prod.mk.injEq, true_and] at hr
      obtain ⟨⟨u, log⟩, h6, rfl, h7, new, h8, h9, h10⟩ := renderLaid_sim (sim_ops (t := t) (ctx := ctx) (n := n) hl ht s.eng.out s.eng.page) (u := (s2, []))
        ⟨rfl, fun z hz => absurd hz (by simp), [], by simpa using q1, by simpa [turns] using q2, .done⟩ h5
      obtain ⟨u1, h6', hQ1⟩ := renderLaid_sim (hQ t) (u := (s2, [])) (hQ0 t s2 q1 q2) h5
      obtain rfl : u1 = (u, log) := by rw [h6] at h6'; exact (Option.some.inj h6').symm
      obtain ⟨items, hE, hfit, hpage, hhead, hstart, s6, hend⟩ := C30_steps (C29_body t n) (q5.trans hp) h6
      have hxy : (tableOps (Fpdf.engine p) ctx (callsAt (Fpdf.engine p) ctx n) t).getXY s2 = (s.eng.x, s.eng.y) := by
        show (s2.eng.x, s2.eng.y) = _
        rw [q3, q4]
      rw [hxy] at hE hpage hstart hend
      have htop : ∀ z, Item.page z ∈ items → z = p.margins.top := by
        intro z hz
        refine h7 z ?_
        show TEvent.page z ∈ log
        rw [hE.log]
        exact List.mem_flatMap.mpr ⟨_, hz, by simp [Item.events]⟩
      refine ⟨t, s2, new, rfl, ?_, ?_, fun hc => absurd hc hcol, fun _ => ⟨items, ⟨⟨hE.chained, hE.rows, htop, ?_, ?_, ?_, ?_⟩, ?_, ?_, ?_⟩,
        u, by rw [← hr]; rfl, by rw [← hr]; rfl, by rw [← hE.log]; exact hQ1⟩⟩
      · rw [← hr]; exact h8
      · rw [← hr]; exact h9
      · intro pre post i z he
        rcases hfit pre post i z he with h | ⟨pre', top, h⟩
        · exact Or.inl h
        · have : top = p.margins.top := htop top (by rw [he, h]; simp)
          exact Or.inr ⟨pre', by rw [h, this]; rfl⟩
      · intro hgt
        obtain ⟨top, post, he⟩ := hstart hgt
        rw [← htop top (by rw [he]; simp)]
        exact ⟨post, he⟩
      · intro pre post he
        exact hpage pre post _ he
      · intro pre post j z he
        obtain ⟨i, top, y, pre', post', g1, g2, h1, h2⟩ := hhead pre post j z he
        have : top = p.margins.top := htop top (by rw [h1]; simp)
        subst this
        exact ⟨i, y, pre', post', g1, g2, h1, h2⟩
      · rw [← hE.log]; exact h10
      · intro hy
        rw [← hr]
        show u.eng.y = _
        rw [hend]
        show (if endY t s.eng.y items ≥ 0 then endY t s.eng.y items else _) = _
        rw [if_pos hy]
      · intro hn hx0
        obtain ⟨y, s7, h11⟩ := renderLaid_left hn h5
        rw [hxy] at h11
        rw [← hr]
        show u.eng.x = _
        rw [show u = _ from h11]
        show (if (if s.eng.x ≥ 0 then s.eng.x else _) ≥ 0 then (if s.eng.x ≥ 0 then s.eng.x else _) else _) = _
        rw [if_pos hx0, if_pos hx0]

/-- C92: a table where page breaks are allowed.  Either it has no columns, and nothing happens; or its rows and page breaks are on the pages one below the
other, from where the position was: each row ends above the bottom margin, or is the first one of its page, right below the header rows. -/
theorem C92_table (hl : 0 ≤ p.margins.left) (ht : 0 ≤ p.margins.top) (hp : s.prevent = false) {st : Styled} {rh : Int} {rows : List TableRow}
    (h : processInstr (Fpdf.engine p) ctx (callsAt (Fpdf.engine p) ctx n) (.table st rh rows) s = some ((), s')) :
    ∃ t s1 new, transformTable (textHeightFnc (Fpdf.engine p) ctx) ctx.classes (Page.mk ((Fpdf.engine p).printableArea s.eng)) s.curr st rows s =
        some (t, s1) ∧ s'.eng.out = s.eng.out ++ new ∧ s'.eng.page = s.eng.page + turns new ∧
      (t.columnCount = 0 → new = [] ∧ s'.eng.x = s.eng.x ∧ s'.eng.y = s.eng.y) ∧
      (t.columnCount ≠ 0 → ∃ items, LaidOut p t rh s.eng s'.eng new items) := by
  obtain ⟨t, s1, new, h1, h2, h3, h4, h5⟩ := table_with (Q := fun _ s u => u.1 = s)
    (fun t => ⟨fun s u h => by rw [← h]; rfl, fun s u h => by rw [← h]; rfl, fun x s u h => by rw [← h]; rfl, fun y s u h => by rw [← h]; rfl,
      fun s u s' h e => by subst h; exact ⟨(s', _), by simp only [traced, e, Option.map_some]; rfl, rfl⟩,
      fun pa id s u s' h e => by subst h; exact ⟨(s', _), by simp only [traced, e, Option.map_some]; rfl, rfl⟩⟩)
    (fun _ _ _ _ => rfl) hl ht hp h
  exact ⟨t, s1, new, h1, h2, h3, h4, fun hc => (h5 hc).imp fun _ h => h.1⟩

/-- C92: the tables of the body of a processed document: `s` and `s2` are the states before and after the table; nothing that was put on the pages is
taken away later. -/
theorem C92_document (hl : 0 ≤ p.margins.left) (ht : 0 ≤ p.margins.top) {r : PdfResult}
    (h : process (Fpdf.engine p) ctx n (newProcessor (Fpdf.new p)) = some (r, s')) {pre post : List Instr} {st : Styled} {rh : Int} {rows : List TableRow}
    (hb : ctx.body = pre ++ .table st rh rows :: post) :
    ∃ s s2 t s1 new, Reached p ctx n pre s ∧ Reached p ctx n (pre ++ [.table st rh rows]) s2 ∧
      transformTable (textHeightFnc (Fpdf.engine p) ctx) ctx.classes (Page.mk ((Fpdf.engine p).printableArea s.eng)) s.curr st rows s = some (t, s1) ∧
      s.eng.page = turns s.eng.out ∧ s2.eng.out = s.eng.out ++ new ∧ s2.eng.out <+: s'.eng.out ∧
      (t.columnCount = 0 → new = [] ∧ s2.eng.x = s.eng.x ∧ s2.eng.y = s.eng.y) ∧
      (t.columnCount ≠ 0 → ∃ items, LaidOut p t rh s.eng s2.eng new items) := by
  obtain ⟨s3, e1, e2, h1⟩ := C47_written h
  obtain ⟨q, hq1, hq2⟩ := Option.bind_eq_some_iff.mp h1
  rw [hb, C54_in_order, bind_eq] at hq2
  obtain ⟨⟨_, s⟩, h3, h4⟩ := Option.bind_eq_some_iff.mp hq2
  unfold processInstrs at h4
  obtain ⟨_, s2, h5, h6⟩ := bind_some h4
  have a0 := ((added_calls (p := p) (ctx := ctx) [] 0 n).add _ ⟨⟨[], rfl, rfl⟩, trivial⟩ _ _ hq1).2.1
  have a1 : Added [] 0 s.eng := (processInstrs_K (any_closed ctx.classes) (added_calls [] 0 n) pre (any_known _) q.2 ⟨a0, trivial⟩ _ _ h3).2.1
  obtain ⟨new0, b1, b2⟩ := a1
  have hprev : s.prevent = false := C29_allowed pre n (C42_newpage hl ht n hq1).2.2.2.2 h3
  obtain ⟨t, s1, new, c1, c2, c3, c4⟩ := C92_table hl ht hprev h5
  have hlast : s2.eng.out <+: s3.eng.out := by
    obtain ⟨x, hx, _⟩ := added_instrs h6
    exact ⟨x, hx.symm⟩
  have hfin : s3.eng.out <+: s'.eng.out := by
    cases hf : (Fpdf.engine p).failed s3.eng with
    | true => rw [(e1 hf).2]
    | false =>
      have h7 := e2 hf
      have := (runWith_K (any_closed ctx.classes) (D := Added s3.eng.out s3.eng.page) (added_calls s3.eng.out s3.eng.page (n - 1)) (any_known _) (any_known _)
        (Fpdf.engine p).writePDF (fun e he => ⟨he, fun e' h' => h'⟩) s3 ⟨.refl _, trivial⟩ _ _ h7).2.1
      obtain ⟨x, hx, _⟩ := this
      exact ⟨x, hx.symm⟩
  refine ⟨s, s2, t, s1, new, ⟨⟨_, hb⟩, q.2, hq1, h3⟩, ⟨⟨post, by rw [hb]; simp⟩, q.2, hq1, ?_⟩, c1, ?_, c2, hlast.trans hfin, c4⟩
  · rw [C54_in_order, bind_eq, h3]
    simp only [Option.bind_some]
    unfold processInstrs
    rw [bind_eq, h5]
    rfl
  · rw [b2, b1]; simp

/-! ### On which page -/

/-- C92: there are at least the page breaks of the table, and if there are no others (no text was too low for its page) then each cell is on the page
that the steps before it lead to: the cells of a row are all on the same page. -/
theorem C92_same_page {rh : Int} {e e' : Fpdf} {new : List Mark} {items : List Item} (h : LaidOut p t rh e e' new items) :
    breaks items ≤ turns new ∧ ∀ pre post i z, (items = pre ++ .row i z :: post ∨ items = pre ++ .header i z :: post) →
      ∀ id pa, .cell id pa ∈ cellEvents t z e.x (idsOf t i) →
        ∃ q, e.page + breaks pre ≤ q ∧ (turns new = breaks items → q = e.page + breaks pre) ∧ cellMark t q id pa ∈ new := by
  refine ⟨by rw [← pageEvents_items (t := t) e.x]; exact onPages_le h.marks, fun pre post i z he id pa hm => ?_⟩
  obtain ⟨a, b, hab⟩ := List.append_of_mem hm
  have hev : items.flatMap (Item.events t e.x) = (pre.flatMap (Item.events t e.x) ++ a) ++ .cell id pa :: (b ++ post.flatMap (Item.events t e.x)) := by
    rcases he with rfl | rfl <;> simp [Item.events, hab]
  have hpg : pageEvents (pre.flatMap (Item.events t e.x) ++ a) = breaks pre := by
    have h1 := pageEvents_items (t := t) e.x pre
    have h2 := pageEvents_cells (t := t) z (idsOf t i) e.x
    rw [hab] at h2
    unfold pageEvents at h1 h2 ⊢
    rw [List.countP_append] at h2 ⊢
    omega
  by_cases hs : turns new = breaks items
  · obtain ⟨q, h1, h2, h3⟩ := onPages_mem (onPages_strict h.marks (by rw [pageEvents_items, hs])) _ _ _ _ hev
    rw [hpg] at h1 h2
    exact ⟨q, h1, fun _ => h2 rfl, h3⟩
  · obtain ⟨q, h1, _, h3⟩ := onPages_mem h.marks _ _ _ _ hev
    rw [hpg] at h1
    exact ⟨q, h1, fun h => absurd h hs, h3⟩

/-! ### Examples -/

private def high (q : ℚ) : Styled := ⟨[[([2, 1], .flt q), ([6, 0], .flt 0)]], []⟩
private def cell (q : ℚ) (iss : List Instr) : TableCell := .mk (high q) 1 1 iss

private def exDoc (body : List Instr) : Ctx :=
  { classes := [], header := [], footer := [], body := body, hyphenate := exHyph, resolve := id, describe := fun _ => none }

private structure Rect where
  page : Nat
  x : ℚ
  y : ℚ
  width : ℚ
  height : ℚ
deriving DecidableEq

private def rectsOf (ms : List Mark) : List Rect := ms.filterMap fun
  | .draw pg (.fillRect x y w h) => some ⟨pg, x, y, w, h⟩
  | _ => none

private def rects (c : Ctx) : Option (List Rect × ℚ × ℚ) :=
  (process (Fpdf.engine exPaper) c 2 (newProcessor (Fpdf.new exPaper))).map fun r => (rectsOf r.2.eng.out, r.2.eng.x, r.2.eng.y)

/-- Rows of 10, 30 and 40 mm. -/
private def exThree : Instr := .table (high 0) 1 [.mk (high 0) [cell 10 [.textBlock b!"a"], cell 5 [.textBlock b!"b"]],
  .mk (high 0) [cell 30 [], cell 5 [.textBlock b!"c"]], .mk (high 0) [cell 40 [], cell 5 [.textBlock b!"d"]]]

/-- Between 10 and 90 mm: the last row does not fit below the others; it is on a new page, below the repeated header row. -/
example : rects (exDoc [.setY 20, exThree]) = some ([⟨1, 10, 20, 39, 10⟩, ⟨1, 49, 20, 39, 10⟩, ⟨1, 10, 30, 39, 30⟩, ⟨1, 49, 30, 39, 30⟩,
    ⟨2, 10, 10, 39, 10⟩, ⟨2, 49, 10, 39, 10⟩, ⟨2, 10, 20, 39, 40⟩, ⟨2, 49, 20, 39, 40⟩], 10, 60) := by decide +kernel

/-- The header row would fit, but not together with the row below. -/
example : rects (exDoc [.setY 60, exThree]) = some ([⟨2, 10, 10, 39, 10⟩, ⟨2, 49, 10, 39, 10⟩, ⟨2, 10, 20, 39, 30⟩, ⟨2, 49, 20, 39, 30⟩,
    ⟨2, 10, 50, 39, 40⟩, ⟨2, 49, 50, 39, 40⟩], 10, 90) := by decide +kernel

/-- A row with twenty lines is taller than the page. -/
private def exTall : Instr := .table (high 0) 0 [.mk (high 0) [cell 0 (List.replicate 20 [.textBlock b!"a", .lineBreak]).flatten, cell 5 [.textBlock b!"b"]]]

private structure Seen where
  prevent : Bool
  rows : Nat
  columns : Nat
  before : Nat
  after : List (Nat × ℚ × ℚ)
deriving DecidableEq

/-- C92: without the condition of `C92_same_page` the cells of a row can be on different pages: the text of the first cell goes on on the next page, and the
second cell is drawn there, as if it was the page of the first one.  Also, two pages are started before the row, one of them stays blank. -/
theorem C92_torn : ∃ (ctx : Ctx) (s s' : PState Fpdf) (t : Tab) (new : List Mark) (items : List Item),
    Reached exPaper ctx 2 [] s ∧ Reached exPaper ctx 2 ctx.body s' ∧ s'.eng.out = s.eng.out ++ new ∧ LaidOut exPaper t 0 s.eng s'.eng new items ∧
    t.rows.length = 1 ∧ ((rectsOf new).map fun r => (r.page, r.x, r.y)) = [(3, 10, 10), (4, 49, 10)] := by
  have hp : ((callsAt (Fpdf.engine exPaper) (exDoc [exTall]) 2).addPage
      { eng := Fpdf.changeFont exPaper defaultStyle.font { Fpdf.new exPaper with pageCountAlias := b!"{np}" }, curr := defaultStyle, prevent := false }).bind
      (fun q => (processInstr (Fpdf.engine exPaper) (exDoc [exTall]) (callsAt (Fpdf.engine exPaper) (exDoc [exTall]) 2) exTall q.2).bind fun r =>
        (transformTable (textHeightFnc (Fpdf.engine exPaper) (exDoc [exTall])) [] (Page.mk ((Fpdf.engine exPaper).printableArea q.2.eng)) q.2.curr (high 0)
          [.mk (high 0) [cell 0 (List.replicate 20 [.textBlock b!"a", .lineBreak]).flatten, cell 5 [.textBlock b!"b"]]] q.2).map fun t =>
        Seen.mk q.2.prevent t.1.rows.length t.1.columnCount (rectsOf q.2.eng.out).length ((rectsOf r.2.eng.out).map fun r => (r.page, r.x, r.y))) =
      some ⟨false, 1, 2, 0, [(3, 10, 10), (4, 49, 10)]⟩ := by decide +kernel
  obtain ⟨⟨_, s⟩, h1, hp⟩ := Option.bind_eq_some_iff.mp hp
  obtain ⟨⟨_, s'⟩, h2, hp⟩ := Option.bind_eq_some_iff.mp hp
  obtain ⟨⟨t, s1⟩, h3, hp⟩ := Option.map_eq_some_iff.mp hp
  simp only [Seen.mk.injEq] at hp
  obtain ⟨e1, e2, e3, e4, e5⟩ := hp
  obtain ⟨t', s1', new, c1, c2, -, -, c5⟩ := C92_table (p := exPaper) (by decide +kernel) (by decide +kernel) e1 h2
  have c1 : _ = some (t', s1') := c1
  obtain ⟨rfl, rfl⟩ : t' = t ∧ s1' = s1 := by
    have := c1.symm.trans h3
    simpa using this
  obtain ⟨items, c6⟩ := c5 (by rw [e3]; decide)
  refine ⟨exDoc [exTall], s, s', t', new, items, ⟨⟨_, rfl⟩, s, h1, rfl⟩, ⟨⟨[], rfl⟩, s, h1, ?_⟩, c2, c6, e2, ?_⟩
  · show processInstrs _ _ _ [exTall] s = _
    unfold processInstrs
    rw [bind_eq, h2]
    rfl
  · rw [c2] at e5
    unfold rectsOf at e4 e5 ⊢
    rw [List.filterMap_append, List.eq_nil_of_length_eq_zero e4, List.nil_append] at e5
    exact e5

end Verif.Props
