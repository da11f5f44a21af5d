import Verif.Spec.Blank
import Verif.Props.RenderTable
import Verif.Props.Laid
/-
Property C107: does a table leave pages blank?
-/
namespace Verif.Props
open Verif.Go Verif.Model Verif.Proofs Verif.Spec

variable {σ : Type} {ops : TableOps σ} {t : Tab} {rh : Int} {bottom : ℚ} {s s' : σ} {log : List TEvent}

/-- After a page: if headers and a row follow, then it is not left blank. -/
private theorem not_left {hs mid post rest : List Item} {i : Nat} {z : ℚ} (h : hs ++ .row i z :: rest = mid ++ post) (hh : ∀ it ∈ hs, ∃ j z, it = Item.header j z)
    (hm : ∀ it ∈ mid, ∃ j z, it = Item.header j z) (hp : post = [] ∨ ∃ top' post', post = .page top' :: post') : False := by
  induction hs generalizing mid with
  | nil =>
    cases mid with
    | nil => rcases hp with rfl | ⟨_, _, rfl⟩ <;> simp at h
    | cons m mid =>
      obtain ⟨j, z', rfl⟩ := hm m (by simp)
      simp at h
  | cons a hs ih =>
    obtain ⟨j, z', rfl⟩ := hh a (by simp)
    cases mid with
    | nil => rcases hp with rfl | ⟨_, _, rfl⟩ <;> simp at h
    | cons m mid =>
      simp only [List.cons_append, List.cons.injEq] at h
      exact ih h.2 (fun it hi => hh it (by simp [hi])) (fun it hi => hm it (by simp [hi]))

private theorem headersAt_all (t : Tab) (rh : Int) (i : Nat) (top : ℚ) :
    ∀ it ∈ (if i > 0 ∧ rh > 0 then headersAt t rh.toNat top else []), ∃ j z, it = Item.header j z := by
  intro it hi
  split at hi
  · exact headersAt_no_page t _ _ hi
  · simp at hi

/-- From the first row on no page is left blank. -/
private theorem run_not_blank {mode : Option Bool} {i : Nat} {y : ℚ} {items : List Item} (h : Run t rh bottom mode i y items) : ¬ LeavesBlank items := by
  rintro ⟨pre, top, mid, post, he, hm, hp⟩
  obtain ⟨_, k, z, post', h1, h2, h3⟩ := h.at_page pre (mid ++ post) top he
  exact not_left h2.symm (headersAt_all t rh k top) hm hp

/-- C107: where page breaks are allowed, a table leaves a page blank exactly if its header rows and the row below do not fit where it starts, so that it starts a page,
and its first row does not fit there either, so that it starts another one. -/
theorem C107_iff {I : σ → Prop} (hk : Keeps ops false I) (hI : I s) (ht : t.rows ≠ []) (h : renderLaid (traced ops) t rh bottom (s, []) = some (s', log)) :
    ∃ items, Explains t (ops.getXY s).1 (ops.getXY s).2 log items ∧
      (LeavesBlank items ↔ (ops.getXY s).2 + stacked t (min (rh + 1).toNat t.rows.length) > bottom ∧ ∃ top post, items = .page top :: post ∧ ¬ Fits t 0 top bottom) := by
  obtain ⟨init, items, y1, hl, hr, hi, s2, he⟩ := run_of (mode := some false) hk hI h
  refine ⟨init ++ items, explains_of hl hr (hi.imp (fun h => ⟨h.1, h.2.1⟩) (fun h => h.1)), ?_⟩
  have hlen : 0 < t.rows.length := List.length_pos_iff.mpr ht
  rcases hi with ⟨rfl, rfl, hle⟩ | ⟨rfl, _, hgt⟩
  · constructor
    · intro hb
      exact absurd hb (run_not_blank hr)
    · rintro ⟨hgt, -⟩
      exact absurd (hle rfl) (not_le.mpr hgt)
  · constructor
    · rintro ⟨pre, top, mid, post, he, hm, hp⟩
      refine ⟨hgt, y1, items, rfl, ?_⟩
      cases pre with
      | cons a pre =>
        simp only [List.cons_append, List.nil_append, List.cons.injEq] at he
        exact absurd ⟨pre, top, mid, post, he.2, hm, hp⟩ (run_not_blank hr)
      | nil =>
        simp only [List.cons_append, List.nil_append, List.cons.injEq] at he
        cases hr with
        | nil h0 => omega
        | stay _ _ _ => exact (not_left (hs := []) he.2 (by simp) hm hp).elim
        | brk _ _ h3 _ _ _ => exact h3
    · rintro ⟨-, top, post, hpost, hf⟩
      simp only [List.cons_append, List.nil_append, List.cons.injEq, Item.page.injEq] at hpost
      obtain ⟨rfl, rfl⟩ := hpost
      cases hr with
      | nil h0 => omega
      | stay _ h2 _ => exact absurd (h2 rfl) hf
      | brk _ _ _ _ _ _ => exact ⟨[], y1, [], _, rfl, by simp, .inr ⟨_, _, rfl⟩⟩

private theorem foldl_max_ge : ∀ (l : List ℚ) (m : ℚ), m ≤ l.foldl max m ∧ ∀ x ∈ l, x ≤ l.foldl max m
  | [], m => ⟨le_refl _, by simp⟩
  | a :: l, m => by
    obtain ⟨h1, h2⟩ := foldl_max_ge l (max m a)
    refine ⟨le_trans (le_max_left _ _) h1, fun x hx => ?_⟩
    rcases List.mem_cons.mp hx with rfl | hx
    · exact le_trans (le_max_right _ _) h1
    · exact h2 x hx

private theorem tallest_nonneg (t : Tab) (k : Nat) : 0 ≤ tallest t k := (foldl_max_ge _ 0).1

/-- If header rows and the row below fit, then the first row does. -/
private theorem fits_first (hlen : 0 < t.rows.length) (hrh : 0 ≤ rh) {y : ℚ} (h : y + stacked t (min (rh + 1).toNat t.rows.length) ≤ bottom) : Fits t 0 y bottom := by
  obtain ⟨n, hn⟩ : ∃ n, min (rh + 1).toNat t.rows.length = n + 1 := ⟨min (rh + 1).toNat t.rows.length - 1, by omega⟩
  rw [hn, stacked, List.range_succ_eq_map, List.map_cons, List.sum_cons] at h
  have hs : 0 ≤ ((List.map Nat.succ (List.range n)).map (tallest t)).sum := List.sum_nonneg (by
    intro x hx
    obtain ⟨k, _, rfl⟩ := List.mem_map.mp hx
    exact tallest_nonneg t k)
  have h0 := tallest_nonneg t 0
  refine ⟨by linarith, fun id hid => ?_⟩
  have : (t.dim id).2 ≤ tallest t 0 := (foldl_max_ge _ 0).2 _ (List.mem_map.mpr ⟨id, hid, rfl⟩)
  linarith

/-- The first row that comes in its turn is row 0. -/
private theorem first_row {hs rest : List Item} {i n : Nat} {z : ℚ} (hh : ∀ it ∈ hs, it.rowIdx = none) (h : (hs ++ .row i z :: rest).filterMap Item.rowIdx = List.range n) :
    i = 0 := by
  have hz : hs.filterMap Item.rowIdx = [] := List.filterMap_eq_nil_iff.mpr hh
  rw [List.filterMap_append, hz, List.nil_append, List.filterMap_cons_some (by rfl : (Item.row i z).rowIdx = some i)] at h
  cases n with
  | zero => simp at h
  | succ n =>
    rw [List.range_succ_eq_map, List.cons.injEq] at h
    exact h.1

private theorem some_row {items : List Item} {n : Nat} (hn : 0 < n) (h : items.filterMap Item.rowIdx = List.range n) : ∃ it ∈ items, it.rowIdx ≠ none := by
  by_contra hc
  push Not at hc
  have := congrArg List.length h
  rw [List.filterMap_eq_nil_iff.mpr hc, List.length_range] at this
  simp only [List.length_nil] at this
  omega

private theorem repeated_none (t : Tab) (rh : Int) (i : Nat) (top : ℚ) : ∀ it ∈ repeated t rh i top, it.rowIdx = none := by
  intro it hi
  obtain ⟨_, _, rfl⟩ := headersAt_all t rh i top it hi
  rfl

/-- C107: the tables of the body of a document (in the sense of C92: `items` are their steps) leave no page blank, if their header rows and the row below fit on an
empty page.  And then a table that starts at the top of a page, starts there. -/
theorem C107_steps_partial {top y : ℚ} {items : List Item} (h : TableSteps t rh top bottom y items) (ht : t.rows ≠ []) (hrh : 0 ≤ rh)
    (hfit : top + stacked t (min (rh + 1).toNat t.rows.length) ≤ bottom) :
    ¬ LeavesBlank items ∧ (y ≤ top → ∃ post, items = .row 0 y :: post) := by
  have hlen : 0 < t.rows.length := List.length_pos_iff.mpr ht
  have hfirst := fits_first hlen hrh hfit
  constructor
  · rintro ⟨pre, top', mid, post, he, hm, hp⟩
    obtain rfl := h.tops top' (by rw [he]; simp)
    rcases h.needed pre _ he with ⟨rfl, _⟩ | ⟨i, z, post', _, h2, _⟩
    · -- the page before the first row
      rw [List.nil_append] at he
      have hmid : mid = [] := by
        cases mid with
        | nil => rfl
        | cons m mid =>
          obtain ⟨j, z, rfl⟩ := hm m (by simp)
          obtain ⟨i, y', pre', post', hi, _, h3, h4⟩ := h.headers [.page top'] (mid ++ post) j z (by rw [he]; rfl)
          have hpre : pre' = [] := by
            have := congrArg List.length h4
            simp at this
            exact List.length_eq_zero_iff.mp (by omega)
          subst hpre
          have hr := h.rows
          rw [h3] at hr
          have := first_row (hs := .page top' :: headersAt t rh.toNat top') (fun it hi => by
            rcases List.mem_cons.mp hi with rfl | hi
            · rfl
            · obtain ⟨_, _, rfl⟩ := headersAt_no_page t _ _ hi
              rfl) hr
          omega
      subst hmid
      rcases hp with rfl | ⟨top2, post2, rfl⟩
      · obtain ⟨it, hi, hn⟩ := some_row hlen h.rows
        rw [he] at hi
        simp only [List.append_nil, List.mem_singleton] at hi
        subst hi
        exact absurd rfl hn
      · obtain rfl := h.tops top2 (by rw [he]; simp)
        rcases h.needed [.page top2] post2 (by rw [he]; rfl) with ⟨h0, _⟩ | ⟨i, z, post', _, h2, h3⟩
        · simp at h0
        · have hi : i = 0 := first_row (hs := .page top2 :: .page top2 :: repeated t rh i top2) (fun it hi => by
            rcases List.mem_cons.mp hi with rfl | hi
            · rfl
            · rcases List.mem_cons.mp hi with rfl | hi
              · rfl
              · exact repeated_none t rh i top2 it hi) (rest := post') (z := z) (by rw [← h.rows, he, h2]; rfl)
          subst hi
          exact h3 hfirst
    · exact not_left h2.symm (headersAt_all t rh i top') hm hp
  · intro hy
    have hno : ¬ y + stacked t (min (rh + 1).toNat t.rows.length) > bottom := by
      rw [not_lt]
      linarith
    have hfy : Fits t 0 y bottom := fits_first hlen hrh (not_lt.mp hno)
    cases items with
    | nil =>
      obtain ⟨_, hi, _⟩ := some_row hlen h.rows
      simp at hi
    | cons a items =>
      cases a with
      | page z =>
        obtain rfl := h.tops z (by simp)
        rcases h.needed [] items rfl with ⟨_, h0⟩ | ⟨i, z', post', _, h2, h3⟩
        · exact absurd h0 hno
        · have hi : i = 0 := first_row (hs := .page z :: repeated t rh i z) (fun it hi => by
            rcases List.mem_cons.mp hi with rfl | hi
            · rfl
            · exact repeated_none t rh i z it hi) (rest := post') (z := z') (by rw [← h.rows, h2]; rfl)
          subst hi
          exact absurd hfy h3
      | header j z =>
        obtain ⟨_, _, _, _, _, _, _, h4⟩ := h.headers [] items j z rfl
        simp at h4
      | row i z =>
        obtain rfl := first_row (hs := []) (by simp) h.rows
        exact ⟨items, by rw [h.chained.1]⟩

private theorem breaks_split : ∀ (items : List Item) (k : Nat), k < breaks items → ∃ pre top post, items = pre ++ .page top :: post ∧ breaks pre = k
  | [], k, h => absurd h (Nat.not_lt_zero k)
  | .page top :: items, 0, _ => ⟨[], top, items, rfl, rfl⟩
  | .page top :: items, k + 1, h => by
    obtain ⟨pre, top', post, h1, h2⟩ := breaks_split items k (by rw [breaks] at h; omega)
    exact ⟨.page top :: pre, top', post, by rw [h1]; rfl, by rw [breaks, h2]⟩
  | .header j z :: items, k, h => by
    obtain ⟨pre, top', post, h1, h2⟩ := breaks_split items k h
    exact ⟨.header j z :: pre, top', post, by rw [h1]; rfl, h2⟩
  | .row j z :: items, k, h => by
    obtain ⟨pre, top', post, h1, h2⟩ := breaks_split items k h
    exact ⟨.row j z :: pre, top', post, by rw [h1]; rfl, h2⟩

private theorem breaks_page (top : ℚ) (hs : List Item) (hh : ∀ it ∈ hs, ∃ j z, it = Item.header j z) : ∀ pre : List Item, breaks (pre ++ .page top :: hs) = breaks pre + 1
  | [] => by
    have : breaks hs = 0 := by
      induction hs with
      | nil => rfl
      | cons a hs ih =>
        obtain ⟨j, z, rfl⟩ := hh a (by simp)
        exact ih fun it hi => hh it (by simp [hi])
    show breaks hs + 1 = 0 + 1
    rw [this]
  | .page _ :: pre => by rw [List.cons_append, breaks, breaks, breaks_page top hs hh pre]
  | .header _ _ :: pre => breaks_page top hs hh pre
  | .row _ _ :: pre => breaks_page top hs hh pre

private theorem has_cell (y : ℚ) : ∀ (ids : List Nat) (x : ℚ), (∃ id ∈ ids, isAuthored t id = true) → ∃ id pa, .cell id pa ∈ cellEvents t y x ids
  | [], _, h => by simp at h
  | a :: ids, x, h => by
    by_cases ha : isAuthored t a = true
    · exact ⟨a, ⟨x, y, x + (t.dim a).1, y + (t.dim a).2⟩, by unfold cellEvents; simp [ha]⟩
    · obtain ⟨id, h1, h2⟩ := h
      rcases List.mem_cons.mp h1 with rfl | h1
      · exact absurd h2 ha
      · obtain ⟨id', pa, h3⟩ := has_cell y ids (x + (t.cell a).width) ⟨id, h1, h2⟩
        exact ⟨id', pa, by unfold cellEvents; exact List.mem_append_right _ h3⟩

/-- C107: then something is on every page that the table starts, if a cell of its own starts in each row, and if no text in a cell is too low for its page (`turns`, as in
`C92_same_page`). -/
theorem C107_pages_partial {p : Paper} {e e' : Fpdf} {new : List Mark} {items : List Item} (h : LaidOut p t rh e e' new items) (ht : t.rows ≠ []) (hrh : 0 ≤ rh)
    (hfit : p.margins.top + stacked t (min (rh + 1).toNat t.rows.length) ≤ p.height - p.margins.bottom)
    (hcells : ∀ i < t.rows.length, ∃ id ∈ idsOf t i, isAuthored t id = true) (hs : turns new = breaks items) :
    ∀ q, e.page < q → q ≤ e.page + turns new → ¬ BlankPage new q := by
  intro q h1 h2
  obtain ⟨k, rfl⟩ : ∃ k, q = e.page + (k + 1) := ⟨q - e.page - 1, by omega⟩
  obtain ⟨pre, top, post, he, hk⟩ := breaks_split items k (by omega)
  obtain rfl := h.steps.tops top (by rw [he]; simp)
  obtain ⟨hs', i, z, post', h3, h4, h5⟩ : ∃ hs i z post', (∀ it ∈ hs, ∃ j z, it = Item.header j z) ∧ post = hs ++ .row i z :: post' ∧ i < t.rows.length := by
    rcases h.steps.needed pre post he with ⟨rfl, _⟩ | ⟨i, z, post', h3, h4, _⟩
    · have hnb := (C107_steps_partial h.steps ht hrh hfit).1
      -- the steps after the page: headers, up to the first other one
      have key : ∀ l : List Item, ∃ mid rest, l = mid ++ rest ∧ (∀ it ∈ mid, ∃ j z, it = Item.header j z) ∧
          (rest = [] ∨ (∃ a l', rest = .page a :: l') ∨ ∃ i z l', rest = .row i z :: l') := by
        intro l
        induction l with
        | nil => exact ⟨[], [], rfl, by simp, .inl rfl⟩
        | cons a l ih =>
          cases a with
          | page z => exact ⟨[], _, rfl, by simp, .inr (.inl ⟨z, l, rfl⟩)⟩
          | row i z => exact ⟨[], _, rfl, by simp, .inr (.inr ⟨i, z, l, rfl⟩)⟩
          | header j z =>
            obtain ⟨mid, rest, h1, h2, h3⟩ := ih
            refine ⟨.header j z :: mid, rest, by rw [h1]; rfl, ?_, h3⟩
            intro it hi
            rcases List.mem_cons.mp hi with rfl | hi
            · exact ⟨j, z, rfl⟩
            · exact h2 it hi
      obtain ⟨mid, rest, k1, k2, k3⟩ := key post
      rcases k3 with k3 | k3 | ⟨i, z, l', k3⟩
      · exact absurd ⟨[], _, mid, rest, by rw [he, k1], k2, .inl k3⟩ hnb
      · exact absurd ⟨[], _, mid, rest, by rw [he, k1], k2, .inr k3⟩ hnb
      · refine ⟨mid, i, z, l', k2, by rw [k1, k3], ?_⟩
        have hr := h.steps.rows
        have : i ∈ items.filterMap Item.rowIdx := List.mem_filterMap.mpr ⟨.row i z, by rw [he, k1, k3]; simp, rfl⟩
        rw [hr] at this
        exact List.mem_range.mp this
    · exact ⟨_, i, z, post', headersAt_all t rh i _, h4, h3⟩
  obtain ⟨id, pa, h6⟩ := has_cell (t := t) z (idsOf t i) e.x (hcells i h5)
  obtain ⟨q, _, h7, h8⟩ := (C92_same_page h).2 (pre ++ .page p.margins.top :: hs') post' i z (.inl (by rw [he, h4]; simp)) id pa h6
  have h7 := h7 hs
  rw [breaks_page _ _ h3, hk] at h7
  subst h7
  intro hb
  have := hb _ h8
  simp [cellMark, showsOn] at this

/-! ### Examples -/

/-- With a page ending at 20 the header row fits on no page: two pages are started before it. -/
example : exTab.bind (fun t => (renderLaid (traced (exOps false)) t.1 0 20 ((5, 15), [])).map fun r => r.2) =
    some [.page 10, .page 10, .cell 0 ⟨5, 10, 105, 22⟩, .page 10, .cell 1 ⟨5, 10, 105, 60⟩, .page 10, .cell 2 ⟨5, 10, 105, 22⟩] := by decide +kernel

private def mm (q : ℚ) : Styled := ⟨[[([2, 1], .flt q), ([6, 0], .flt 0)]], []⟩

private def exTwoRows : List TableRow := [.mk (mm 0) [.mk (mm 30) 1 1 [.textBlock b!"a"]], .mk (mm 0) [.mk (mm 30) 1 1 [.textBlock b!"b"]]]

private def exBody : Ctx :=
  { classes := [], header := [], footer := [], body := [.setY 60, .table (mm 0) 1 exTwoRows], hyphenate := exHyph, resolve := id, describe := fun _ => none }

private structure Got where
  prevent : Bool
  rows : Nat
  columns : Nat
  start : ℚ
  height : ℚ
  cells : Bool
  before : Nat
  after : Nat
deriving DecidableEq

/-- The hypotheses of `C107_pages_partial`: the two rows do not fit where the table starts, but they do on an empty page. -/
example : ∃ (s s' : PState Fpdf) (t : Tab) (new : List Mark) (items : List Item),
    LaidOut exPaper t 1 s.eng s'.eng new items ∧ t.rows ≠ [] ∧ exPaper.margins.top + stacked t (min (1 + 1 : Int).toNat t.rows.length) ≤ exPaper.height - exPaper.margins.bottom ∧
    (∀ i < t.rows.length, ∃ id ∈ idsOf t i, isAuthored t id = true) ∧ turns new = breaks items ∧ turns new = 1 := by
  have hp : ((do
      let _ ← (callsAt (Fpdf.engine exPaper) exBody 2).addPage
      processInstr (Fpdf.engine exPaper) exBody (callsAt (Fpdf.engine exPaper) exBody 2) (.setY 60) : M Fpdf Unit)
      { eng := Fpdf.changeFont exPaper defaultStyle.font { Fpdf.new exPaper with pageCountAlias := b!"{np}" }, curr := defaultStyle, prevent := false }).bind
      (fun q => (processInstr (Fpdf.engine exPaper) exBody (callsAt (Fpdf.engine exPaper) exBody 2) (.table (mm 0) 1 exTwoRows) q.2).bind fun r =>
        (transformTable (textHeightFnc (Fpdf.engine exPaper) exBody) [] (Page.mk ((Fpdf.engine exPaper).printableArea q.2.eng)) q.2.curr (mm 0) exTwoRows q.2).map fun t =>
        Got.mk q.2.prevent t.1.rows.length t.1.columnCount q.2.eng.y (stacked t.1 2) (decide (∀ i < t.1.rows.length, ∃ id ∈ idsOf t.1 i, isAuthored t.1 id = true))
          (turns q.2.eng.out) (turns r.2.eng.out)) =
      some ⟨false, 2, 1, 60, 60, true, 1, 2⟩ := by decide +kernel
  obtain ⟨⟨_, s⟩, h1, hp⟩ := Option.bind_eq_some_iff.mp hp
  obtain ⟨⟨_, s'⟩, h2, hp⟩ := Option.bind_eq_some_iff.mp hp
  obtain ⟨⟨t, s1⟩, h3, hp⟩ := Option.map_eq_some_iff.mp hp
  simp only [Got.mk.injEq, decide_eq_true_eq] at hp
  obtain ⟨e1, e2, e3, e4, e5, e6, e7, e8⟩ := hp
  obtain ⟨t', s1', new, c1, c2, -, -, c5⟩ := C92_table (p := exPaper) (by decide +kernel) (by decide +kernel) e1 h2
  have c1 : _ = some (t', s1') := c1
  obtain ⟨rfl, rfl⟩ : t' = t ∧ s1' = s1 := by
    have := c1.symm.trans h3
    simpa using this
  obtain ⟨items, c6⟩ := c5 (by rw [e3]; decide)
  have hn : turns new = 1 := by
    rw [c2, turns_append] at e8
    omega
  have hst : stacked t' (min (1 + 1 : Int).toNat t'.rows.length) = 60 := by
    rw [e2]
    exact e5
  refine ⟨s, s', t', new, items, c6, fun h0 => by rw [h0] at e2; simp at e2, by rw [hst]; decide +kernel, e6, ?_, hn⟩
  have hle := (C92_same_page c6).1
  obtain ⟨post, hpost⟩ := c6.steps.together (by rw [hst, e4]; decide +kernel)
  have : 1 ≤ breaks items := by
    rw [hpost]
    show 1 ≤ breaks post + 1
    omega
  omega

/-! ### The code leaves pages blank -/

private def row100 : Styled := ⟨[[([2, 1], .flt 100), ([6, 0], .flt 0)]], []⟩

/-- A document with nothing but a table of one cell that is 100 mm high. -/
private def exHigh : Ctx :=
  { classes := [], header := [], footer := [], body := [.table ⟨[], []⟩ 0 [.mk ⟨[], []⟩ [.mk row100 1 1 [.textBlock b!"a"]]]],
    hyphenate := exHyph, resolve := id, describe := fun _ => none }

/-- C107 is false of the code: the cell does not fit on the first page, which is blank yet; so a page is started for the table, and then another one for its first row.
The first two pages of the document are blank. -/
theorem C107_false : ∃ (ctx : Ctx) (r : PdfResult) (s' : PState Fpdf), process (Fpdf.engine exPaper) ctx 2 (newProcessor (Fpdf.new exPaper)) = some (r, s') ∧
    turns s'.eng.out = 3 ∧ BlankPage s'.eng.out 1 ∧ BlankPage s'.eng.out 2 ∧ ¬ BlankPage s'.eng.out 3 := by
  have h : (process (Fpdf.engine exPaper) exHigh 2 (newProcessor (Fpdf.new exPaper))).map (fun r =>
      (turns r.2.eng.out, r.2.eng.out.any (showsOn 1), r.2.eng.out.any (showsOn 2), r.2.eng.out.any (showsOn 3))) = some (3, false, false, true) := by decide +kernel
  obtain ⟨⟨r, s'⟩, h1, h2⟩ := Option.map_eq_some_iff.mp h
  simp only [Prod.mk.injEq, List.any_eq_false, List.any_eq_true, Bool.not_eq_true] at h2
  obtain ⟨e1, e2, e3, m, e4, e5⟩ := h2
  exact ⟨exHigh, r, s', h1, e1, e2, e3, fun hb => by rw [hb m e4] at e5; exact absurd e5 (by decide)⟩

end Verif.Props
