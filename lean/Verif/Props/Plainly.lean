import Verif.Spec.Plainly
import Verif.Props.Typeset
import Verif.Props.Laying
/-
Property C125: spans that are none, and more header rows than there are rows (/repo/table.go).
-/
namespace Verif.Props
open Verif.Go Verif.Model Verif.Proofs Verif.Spec

/-- A cell or row without styles, with its spans as the number of places they stand for. -/
private def tidyCell (c : TableCell) : TableCell := .mk ⟨[], []⟩ (extent c.colSpan : Int) (extent c.rowSpan : Int) c.iss

private def tidyRow (r : TableRow) : TableRow := .mk ⟨[], []⟩ (r.cells.map tidyCell)

private theorem tidyCell_iss (c : TableCell) : (tidyCell c).iss = c.iss := rfl

private theorem tidyCell_rowSpan (c : TableCell) : (tidyCell c).rowSpan = (extent c.rowSpan : Int) := rfl

private theorem tidyRow_cells (r : TableRow) : (tidyRow r).cells = r.cells.map tidyCell := rfl

private theorem extent_extent (a : Int) : extent (extent a : Int) = extent a := by
  unfold extent
  split
  · rfl
  · rename_i h
    rw [if_neg (by omega)]
    omega

private theorem extent_same {a b : Int} (h : SameSpan a b) : extent a = extent b := by
  rcases h with rfl | ⟨h1, h2⟩
  · rfl
  · unfold extent
    rw [if_pos h1, if_pos h2]

private theorem tidy_same {cs : Classes} {rows rows' : List TableRow} (h : SameCells cs rows rows') : rows.map tidyRow = rows'.map tidyRow := by
  replace h := h.spans
  induction h with
  | nil => rfl
  | @cons r r' l l' h _ ih =>
    simp only [List.map_cons, ih, List.cons.injEq, and_true]
    unfold tidyRow
    have e : r.cells.map tidyCell = r'.cells.map tidyCell := by
      clear ih
      generalize r.cells = l at h
      generalize r'.cells = l' at h
      induction h with
      | nil => rfl
      | @cons c c' _ _ h _ ih =>
        obtain ⟨g2, g3, g4⟩ := h
        simp only [List.map_cons, ih, tidyCell, g2, extent_same g3, extent_same g4]
    rw [e]

section
variable {f g : Nat → Int} (h : ∀ a, extent (f a) = extent (g a))
include h

private theorem coverBelow_same : ∀ (xs : List TPlace) (k : Nat) (rows : List (List TPlace)), coverBelow f k xs rows = coverBelow g k xs rows
  | [], _, _ => rfl
  | .cell a :: xs, k, rows => by simp only [coverBelow, h a, coverBelow_same xs]
  | .covered a :: xs, k, rows => by simp only [coverBelow, coverBelow_same xs]
  | .free :: xs, k, rows => by simp only [coverBelow, coverBelow_same xs]

private theorem coverRows_same : ∀ (n : Nat) (rows : List (List TPlace)), coverRows f n rows = coverRows g n rows
  | 0, _ => rfl
  | _ + 1, [] => rfl
  | n + 1, row :: rows => by simp only [coverRows, coverBelow_same h, coverRows_same n]

end

variable {σ : Type} {m : Measure σ} {cs : Classes} {rows rows' : List TableRow}

private theorem tidy_cells (rows : List TableRow) : (rows.map tidyRow).flatMap (·.cells) = (rows.flatMap (·.cells)).map tidyCell := by
  rw [List.flatMap_map, List.map_flatMap]
  rfl

private theorem tidy_rowSpan (rows : List TableRow) (a : Nat) : extent (rowSpanOf (rows.map tidyRow) a) = extent (rowSpanOf rows a) := by
  unfold rowSpanOf
  rw [tidy_cells, List.getElem?_map]
  cases (rows.flatMap (·.cells))[a]? with
  | none => rfl
  | some c => exact extent_extent c.rowSpan

private theorem tidy_placesOf : ∀ (l : List TableCell) (a : Nat), placesOf a (l.map tidyCell) = placesOf a l
  | [], _ => rfl
  | c :: l, a => by
    simp only [List.map_cons, placesOf, tidy_placesOf l]
    rw [show (tidyCell c).colSpan = (extent c.colSpan : Int) from rfl, extent_extent]

private theorem tidy_placesIn : ∀ (rows : List TableRow) (a : Nat), placesIn a (rows.map tidyRow) = placesIn a rows
  | [], _ => rfl
  | r :: rows, a => by
    simp only [List.map_cons, placesIn, tidy_placesIn rows, tidyRow_cells, tidy_placesOf, List.length_map]

private theorem tidy_places (rows : List TableRow) : tablePlaces (rows.map tidyRow) = tablePlaces rows := by
  unfold tablePlaces
  rw [tidy_placesIn, List.length_map, coverRows_same (tidy_rowSpan rows)]

private theorem inTurn_map {α β : Type} {f : β → σ → ℚ × σ} {g : α → β} : ∀ (l : List α) (s : σ), inTurn f (l.map g) s = inTurn (fun a => f (g a)) l s
  | [], _ => rfl
  | a :: l, s => by simp only [List.map_cons, inTurn, inTurn_map l]

private theorem lay_same (h : SameCells cs rows rows') (width : ℚ) (sty : Styles) (s : σ) :
    tablePlaces rows = tablePlaces rows' ∧ layTable m cs width sty rows s = layTable m cs width sty rows' s := by
  have places : tablePlaces rows = tablePlaces rows' := by rw [← tidy_places rows, tidy_same h, tidy_places]
  have k : ∀ (rs : List TableRow) all ws hs, setRows (rs.map tidyRow) all ws hs = setRows rs all ws hs := by
    intro rs all ws hs
    have e : cellSetAt (rs.map tidyRow) all ws hs = cellSetAt rs all ws hs := by
      funext i x
      cases x with
      | cell a => simp only [cellSetAt, tidy_places, tidy_rowSpan]
      | covered a => rfl
      | free => rfl
    unfold setRows
    rw [tidy_places, e]
  have z : ∀ (rs : List TableRow) (look : Nat → Styles) (ws : List ℚ) (places : List (List TPlace)),
      inTurn (fun (c : TableCell × Nat) s => shareOf m (look c.2) c.1.iss (extent c.1.rowSpan) (widthOf ws places c.2) s) ((rs.map tidyRow).flatMap (·.cells)).zipIdx s =
        inTurn (fun (c : TableCell × Nat) s => shareOf m (look c.2) c.1.iss (extent c.1.rowSpan) (widthOf ws places c.2) s) (rs.flatMap (·.cells)).zipIdx s := by
    intro rs look ws places
    have e : ((rs.map tidyRow).flatMap (·.cells)).zipIdx = (rs.flatMap (·.cells)).zipIdx.map fun c => (tidyCell c.1, c.2) := by
      rw [tidy_cells, List.zipIdx_map]
      rfl
    rw [e, inTurn_map]
    simp only [tidyCell_iss, tidyCell_rowSpan, extent_extent]
  refine ⟨places, ?_⟩
  have k1 := fun look ws places => (z rows look ws places).symm.trans ((congrArg (fun rs : List TableRow =>
    inTurn (fun (c : TableCell × Nat) s => shareOf m (look c.2) c.1.iss (extent c.1.rowSpan) (widthOf ws places c.2) s) (rs.flatMap (·.cells)).zipIdx s) (tidy_same h)).trans
    (z rows' look ws places))
  have k2 := k1 (fun a => ((styledCells cs sty rows').flatten.getD a (zeroStyles, [])).1)
    (columnWidths (fun a => ((styledCells cs sty rows').flatten.getD a (zeroStyles, [])).1) width (tablePlaces rows')) (tablePlaces rows')
  have k3 : setRows rows = setRows rows' := by
    funext all ws hs
    rw [← k rows, tidy_same h, k]
  unfold layTable
  dsimp only at k2 ⊢
  rw [h.look, places, k2, k3]

/-- C125: the code lays out tables with the same cells, up to spans that are none and to where the styles come from, in the same way, and measures the same texts for that. -/
theorem C125_table {page : Page} {curr : Styles} {st : Styled} {s s1 s1' : σ} {t t' : Tab} (hs : SameCells cs rows rows') (h : transformTable m cs page curr st rows s = some (t, s1))
    (h' : transformTable m cs page curr st rows' s = some (t', s1')) : laidRows t = laidRows t' ∧ s1 = s1' := by
  have e := (C123_laid h).trans ((lay_same hs _ _ s).2.trans (C123_laid h').symm)
  exact ⟨congrArg Prod.fst e, congrArg Prod.snd e⟩

/-- C125: that is so for cells with the same attributes, up to spans that are none. -/
theorem C125_spans (cs : Classes) (h : SameSpans rows rows') : SameCells cs rows rows' := by
  refine ⟨h.imp fun _ _ h => h.2.imp fun _ _ h => h.2, fun sty => ?_⟩
  unfold styledCells
  apply List.ext_getElem
  · simp [h.length_eq]
  · intro i h1 h2
    rw [List.length_mapIdx] at h1 h2
    simp only [List.getElem_mapIdx, h.length_eq]
    obtain ⟨e, hc⟩ := h.get h1 h2
    simp only [List.get_eq_getElem] at e hc
    apply List.ext_getElem
    · simp [hc.length_eq]
    · intro j h3 h4
      rw [List.length_mapIdx] at h3 h4
      obtain ⟨e1, e2, _⟩ := hc.get h3 h4
      simp only [List.get_eq_getElem] at e1 e2
      simp only [List.getElem_mapIdx, hc.length_eq, e, e1, e2]

/-- C125: and if the style texts of rows are moved to their cells, as long as the rows have no classes and, below a style text, the cells have none. -/
theorem C125_moved (cs : Classes) (hr : ∀ r ∈ rows, r.st.classes = [] ∧ (r.st.mutators = [] ∨ ∀ c ∈ r.cells, c.st.classes = [])) : SameCells cs rows (rows.map movedDown) := by
  constructor
  · rw [List.forall₂_map_right_iff, List.forall₂_same]
    intro r _
    show List.Forall₂ _ r.cells (r.cells.map _)
    rw [List.forall₂_map_right_iff, List.forall₂_same]
    exact fun c _ => ⟨rfl, .inl rfl, .inl rfl⟩
  · have none_of : ∀ {l : Option Str} {st : Styled} {sty : Styles}, st.classes = [] → stylesAt cs l st sty = st.mutators.foldl (fun s m => mutate m s) sty := by
      intro l st sty h
      cases l <;> simp [stylesAt, Styled.mutatedStyles, Styled.mutatedStylesWithSelector, h, Classes.mutate, Classes.mutateWithSelector]
    intro sty
    unfold styledCells
    apply List.ext_getElem
    · simp
    · intro i h1 h2
      rw [List.length_mapIdx] at h1
      simp only [List.getElem_mapIdx, List.getElem_map, List.length_map]
      obtain ⟨e, h⟩ := hr rows[i] (List.getElem_mem h1)
      generalize rows[i] = r at e h
      apply List.ext_getElem
      · simp [show (movedDown r).cells = r.cells.map _ from rfl]
      · intro j h3 h4
        rw [List.length_mapIdx] at h3
        have el : (movedDown r).cells.length = r.cells.length := by simp [show (movedDown r).cells = r.cells.map _ from rfl]
        have ec : (movedDown r).cells[j]'(by omega) = .mk ⟨r.st.mutators ++ r.cells[j].st.mutators, r.cells[j].st.classes⟩ r.cells[j].colSpan r.cells[j].rowSpan r.cells[j].iss := by
          simp [show (movedDown r).cells = r.cells.map _ from rfl]
        simp only [List.getElem_mapIdx, el, ec]
        have hmem := List.getElem_mem h3
        generalize r.cells[j] = c at hmem ⊢
        rw [none_of e, none_of (st := (movedDown r).st) rfl]
        rcases h with h | h
        · rw [h]; rfl
        · have hc := h c hmem
          rw [none_of hc, none_of (st := (TableCell.mk ⟨r.st.mutators ++ c.st.mutators, c.st.classes⟩ c.colSpan c.rowSpan c.iss).st) hc]
          show (_, c.iss) = (List.foldl _ _ (r.st.mutators ++ c.st.mutators), c.iss)
          rw [List.foldl_append]
          rfl

private theorem again_same {p : Paper} {ctx : Ctx} {turn : Option (Typist → Typist)} {all : List SetRow} {a b : Int} (h : SameHeaders all.length a b) (hn : 0 < all.length) (x0 : ℚ) :
    Typist.again p ctx turn all a x0 = Typist.again p ctx turn all b x0 := by
  rcases h with rfl | ⟨h1, h2⟩
  · rfl
  · funext i t
    unfold Typist.again
    rw [List.take_of_length_le (by omega), List.take_of_length_le (by omega)]
    have : (0 < a) ↔ 0 < b := by omega
    simp only [this]

private theorem rows_same {p : Paper} {ctx : Ctx} {turn : Option (Typist → Typist)} {all : List SetRow} {a b : Int} (h : SameHeaders all.length a b) (hn : 0 < all.length) (x0 : ℚ) :
    ∀ (l : List SetRow) (i : Nat) (q : ℚ × Typist), Typist.rows p ctx turn all a x0 i l q = Typist.rows p ctx turn all b x0 i l q
  | [], _, _ => rfl
  | r :: l, i, q => by simp only [Typist.rows, again_same h hn, rows_same h hn x0 l]

private theorem step_same (p : Paper) (ctx : Ctx) (turn : Option (Typist → Typist)) (t : Typist) {i i' : Instr} (h : SameSetting ctx.classes i i') :
    Typist.step p ctx turn t i = Typist.step p ctx turn t i' := by
  cases h with
  | same => rfl
  | @table st rh rh' rows rows' hs hr =>
    show Typist.table p ctx turn st rh rows t = Typist.table p ctx turn st rh' rows' t
    have e := lay_same (m := Typist.measure p ctx) (cs := ctx.classes) hs
    have hlen : ∀ width sty, (layTable (Typist.measure p ctx) ctx.classes width sty rows' t).1.length = (tablePlaces rows).length := by
      intro width sty
      simp [layTable, setRows, (e 0 sty t).1]
    unfold Typist.table
    dsimp only
    rw [(e _ _ t).2, (e 0 defaultStyle t).1]
    split
    · rfl
    · rename_i hl
      have hn : 0 < (tablePlaces rows).length := by
        rw [(e 0 defaultStyle t).1]
        rcases h : tablePlaces rows' with _ | ⟨x, l⟩
        · rw [h] at hl; exact absurd rfl hl
        · simp
      have hl := hlen (wideSet ((printable p).x1 - (printable p).x0) (t.styles ctx st).dim.width) (t.styles ctx st)
      generalize layTable (Typist.measure p ctx) ctx.classes (wideSet ((printable p).x1 - (printable p).x0) (t.styles ctx st).dim.width) (t.styles ctx st) rows' t = q at hl
      have et : (q.1.take (rh + 1).toNat) = q.1.take (rh' + 1).toNat := by
        rcases hr with rfl | ⟨h1, h2⟩
        · rfl
        · rw [List.take_of_length_le (by omega), List.take_of_length_le (by omega)]
      rw [et]
      simp only [rows_same (p := p) (ctx := ctx) (turn := turn) (hl ▸ hr) (hl ▸ hn)]

private theorem steps_same (p : Paper) (ctx : Ctx) (turn : Option (Typist → Typist)) {l l' : List Instr} (h : List.Forall₂ (SameSetting ctx.classes) l l') :
    ∀ t, l.foldl (Typist.step p ctx turn) t = l'.foldl (Typist.step p ctx turn) t := by
  induction h with
  | nil => intro t; rfl
  | cons h _ ih => intro t; simp only [List.foldl_cons, step_same p ctx turn t h, ih]


/-! ### Documents -/

/-- Another document with the same styles, hyphenation and images. -/
private abbrev other (ctx : Ctx) (h f b : List Instr) : Ctx := { ctx with header := h, footer := f, body := b }

section
variable (p : Paper) (ctx : Ctx) (turn : Option (Typist → Typist)) (h f b : List Instr)

private theorem items_other (v : Str) (inner : Area) : ∀ (is : List Instr) (t : Typist), Typist.items p (other ctx h f b) turn v inner is t = Typist.items p ctx turn v inner is t
  | [], _ => rfl
  | i :: is, t => by
    cases i with
    | box st iss => exact items_other v inner is _
    | image st source => exact items_other v inner is _
    | _ => exact items_other v inner is t

private theorem cell_other (pa : Area) (sty : Styles) (iss : List Instr) (t : Typist) : Typist.cell p (other ctx h f b) turn pa sty iss t = Typist.cell p ctx turn pa sty iss t := by
  unfold Typist.cell
  simp only [items_other]
  rfl

private theorem cells_other (y : ℚ) : ∀ (cs : List (ℚ × Option SetCell)) (x : ℚ) (t : Typist), Typist.cells p (other ctx h f b) turn y x cs t = Typist.cells p ctx turn y x cs t
  | [], _, _ => rfl
  | (_, none) :: cs, x, t => cells_other y cs _ t
  | (_, some c) :: cs, x, t => by
    simp only [Typist.cells, cell_other]
    exact cells_other y cs _ _

private theorem row_other : Typist.row p (other ctx h f b) turn = Typist.row p ctx turn := by
  funext x0 q r
  simp only [Typist.row, cells_other]

private theorem rows_other (all : List SetRow) (rh : Int) (x0 : ℚ) : ∀ (l : List SetRow) (i : Nat) (q : ℚ × Typist),
    Typist.rows p (other ctx h f b) turn all rh x0 i l q = Typist.rows p ctx turn all rh x0 i l q
  | [], _, _ => rfl
  | r :: l, i, q => by
    simp only [Typist.rows, Typist.again, row_other]
    exact rows_other all rh x0 l _ _

private theorem step_other : Typist.step p (other ctx h f b) turn = Typist.step p ctx turn := by
  funext t i
  cases i with
  | table st rh rows =>
    simp only [Typist.step, Typist.table, rows_other]
    rfl
  | _ => rfl

end

variable {p : Paper} {ctx : Ctx} {h h' f f' b b' : List Instr}

private theorem next_same (hh : List.Forall₂ (SameSetting ctx.classes) h h') (hf : List.Forall₂ (SameSetting ctx.classes) f f') (b b' : List Instr) :
    Typist.foot p { ctx with header := h, footer := f, body := b } = Typist.foot p { ctx with header := h', footer := f', body := b' } ∧
      Typist.head p { ctx with header := h, footer := f, body := b } = Typist.head p { ctx with header := h', footer := f', body := b' } := by
  constructor
  · funext t
    unfold Typist.foot
    rw [step_other p ctx none h f b, step_other p ctx none h' f' b']
    exact steps_same p ctx none hf t
  · funext t
    unfold Typist.head
    dsimp only
    rw [step_other p ctx none h f b, step_other p ctx none h' f' b', steps_same p ctx none hh]

/-- The typist sets the same pages. -/
private theorem typeset_same (hh : List.Forall₂ (SameSetting ctx.classes) h h') (hf : List.Forall₂ (SameSetting ctx.classes) f f') (hb : List.Forall₂ (SameSetting ctx.classes) b b') :
    (typeset p { ctx with header := h, footer := f, body := b } b).foot p { ctx with header := h, footer := f, body := b } =
      (typeset p { ctx with header := h', footer := f', body := b' } b').foot p { ctx with header := h', footer := f', body := b' } := by
  obtain ⟨e1, e2⟩ := next_same (p := p) (ctx := ctx) hh hf b b'
  rw [e1]
  congr 1
  unfold typeset
  rw [step_other p ctx _ h f b, step_other p ctx _ h' f' b', e2]
  have e3 : Typist.next p { ctx with header := h, footer := f, body := b } = Typist.next p { ctx with header := h', footer := f', body := b' } := by
    funext t
    unfold Typist.next
    rw [e1, e2]
  rw [e3]
  exact steps_same p ctx _ hb _

private theorem noBreak {cs : Classes} {l l' : List Instr} (hl : List.Forall₂ (SameSetting cs) l l') (h : .pageBreak ∉ l) : .pageBreak ∉ l' := by
  induction hl with
  | nil => exact h
  | cons g _ ih =>
    simp only [List.mem_cons, not_or] at h ⊢
    refine ⟨?_, ih h.2⟩
    cases g with
    | same => exact h.1
    | table => simp

/-- C125: documents with such tables, in body, header or footer, come out equal: everything is on the same page and at the same place in both. -/
theorem C125_document (ht : 0 ≤ p.margins.top) (hm : 0 ≤ p.margins.left) (hh : List.Forall₂ (SameSetting ctx.classes) h h') (hf : List.Forall₂ (SameSetting ctx.classes) f f')
    (hb : List.Forall₂ (SameSetting ctx.classes) b b') (hnh : .pageBreak ∉ h) (hnf : .pageBreak ∉ f) {n n' pages pages' : Nat} {out out' : List Mark}
    (ho : ComesOut (Fpdf.engine p) p { ctx with header := h, footer := f } n b pages out)
    (ho' : ComesOut (Fpdf.engine p) p { ctx with header := h', footer := f' } n' b' pages' out') : pages = pages' ∧ out = out' := by
  obtain ⟨r, s, h1, h2, h3, h4⟩ := ho
  obtain ⟨r', s', h1', h2', h3', h4'⟩ := ho'
  have k := C116_typeset ht hm hnh hnf h1
  have k' := C116_typeset ht hm (noBreak hh hnh) (noBreak hf hnf) h1'
  rw [h2] at k
  rw [h2'] at k'
  simp only [Bool.false_eq_true, false_and, or_false] at k k'
  have e := typeset_same (p := p) (ctx := ctx) hh hf hb
  exact ⟨by rw [← h3, ← h3', k.2, k'.2]; exact congrArg Typist.page e, by rw [← h4, ← h4', k.1, k'.1]; exact congrArg Typist.out e⟩

/-! ### Examples -/

private def plain : Styled := ⟨[], []⟩

private def exCtx : Ctx := { classes := [], header := [], footer := [], body := [], hyphenate := exHyph, resolve := id, describe := fun _ => none }

/-- A table whose first cell, with the given attributes, may cover places to the right and below. -/
private def exCells (colSpan rowSpan : Int) : List TableRow :=
  [.mk plain [.mk plain colSpan rowSpan [.textBlock b!"name"], .mk plain 1 1 [.textBlock b!"what"]], .mk plain [.mk plain 1 1 [.textBlock b!"a"], .mk plain 1 1 [.textBlock b!"b c"]]]

/-- At the end of a page, with `rh` header rows. -/
private def exTable (rh colSpan rowSpan : Int) : List Instr := [.setY 78, .table plain rh (exCells colSpan rowSpan)]

private theorem exSpans : SameSpans (exCells 1 0) (exCells (-5) 1) :=
  .cons ⟨rfl, .cons ⟨rfl, rfl, .inr (by decide), .inr (by decide)⟩ (.cons ⟨rfl, rfl, .inl rfl, .inl rfl⟩ .nil)⟩
    (.cons ⟨rfl, .cons ⟨rfl, rfl, .inl rfl, .inl rfl⟩ (.cons ⟨rfl, rfl, .inl rfl, .inl rfl⟩ .nil)⟩ .nil)

private theorem exSame : List.Forall₂ (SameSetting []) (exTable 2 1 0) (exTable 10 (-5) 1) :=
  .cons (.same _) (.cons (.table _ (C125_spans [] exSpans) (.inr (by decide +kernel))) .nil)

private def run (body : List Instr) : Option (PdfResult × PState Fpdf) := process (Fpdf.engine exPaper) { exCtx with body := body } 2 (newProcessor (Fpdf.new exPaper))

private theorem run_comesOut {body : List Instr} (h : (run body).map (fun q => q.1.failed) = some false) :
    ∃ pages out, ComesOut (Fpdf.engine exPaper) exPaper exCtx 2 body pages out := by
  cases e : run body with
  | none => rw [e] at h; cases h
  | some q => exact ⟨_, _, q.1, q.2, e, by rw [e] at h; exact Option.some.inj h, rfl, rfl⟩

/-- C125: two documents that meet the conditions; they have the same pages. -/
example : ∃ pages out, ComesOut (Fpdf.engine exPaper) exPaper exCtx 2 (exTable 2 1 0) pages out ∧ ComesOut (Fpdf.engine exPaper) exPaper exCtx 2 (exTable 10 (-5) 1) pages out := by
  obtain ⟨pages, out, h⟩ := run_comesOut (body := exTable 2 1 0) (by decide +kernel)
  obtain ⟨pages', out', h'⟩ := run_comesOut (body := exTable 10 (-5) 1) (by decide +kernel)
  obtain ⟨rfl, rfl⟩ := C125_document (p := exPaper) (ctx := exCtx) (by decide +kernel) (by decide +kernel) .nil .nil exSame (by simp) (by simp) h h'
  exact ⟨pages, out, h, h'⟩

/-- C125: two such tables. -/
example (page : Page) : ∃ t t' s s', transformTable exMeasure [] page defaultStyle plain (exCells 1 0) () = some (t, s) ∧
    transformTable exMeasure [] page defaultStyle plain (exCells (-5) 1) () = some (t', s') ∧ laidRows t = laidRows t' := by
  obtain ⟨t, s, h, _⟩ := C123_always exMeasure [] page defaultStyle plain (exCells 1 0) ()
  obtain ⟨t', s', h', _⟩ := C123_always exMeasure [] page defaultStyle plain (exCells (-5) 1) ()
  exact ⟨t, t', s, s', h, h', (C125_table (C125_spans [] exSpans) h h').1⟩

/-- A row in a large font, with a cell in a small one. -/
private def exLarge : List TableRow :=
  [.mk ⟨[[([0, 1], .flt 24)]], []⟩ [.mk plain 0 0 [.textBlock b!"large"], .mk ⟨[[([0, 1], .flt 6)]], []⟩ 0 0 [.textBlock b!"small"]], .mk plain [.mk plain 0 0 [.textBlock b!"a"]]]

/-- C125: its style text can be moved to its cells: both documents come out, with the same pages. -/
example : ∃ pages out, ComesOut (Fpdf.engine exPaper) exPaper exCtx 2 [.table plain 0 exLarge] pages out ∧
    ComesOut (Fpdf.engine exPaper) exPaper exCtx 2 [.table plain 0 (exLarge.map movedDown)] pages out := by
  obtain ⟨pages, out, h⟩ := run_comesOut (body := [.table plain 0 exLarge]) (by decide +kernel)
  obtain ⟨pages', out', h'⟩ := run_comesOut (body := [.table plain 0 (exLarge.map movedDown)]) (by decide +kernel)
  have hs : List.Forall₂ (SameSetting exCtx.classes) [.table plain 0 exLarge] [.table plain 0 (exLarge.map movedDown)] :=
    .cons (.table _ (C125_moved [] (by
      intro r hr
      simp only [exLarge, List.mem_cons, List.not_mem_nil, or_false] at hr
      rcases hr with rfl | rfl
      · exact ⟨rfl, .inr (by intro c hc; simp only [TableRow.cells, List.mem_cons, List.not_mem_nil, or_false] at hc; rcases hc with rfl | rfl <;> rfl)⟩
      · exact ⟨rfl, .inl rfl⟩)) (.inl rfl)) .nil
  obtain ⟨rfl, rfl⟩ := C125_document (p := exPaper) (ctx := exCtx) (by decide +kernel) (by decide +kernel) .nil .nil hs (by simp) (by simp) h h'
  exact ⟨pages, out, h, h'⟩

/-- C125: it cannot be moved to a cell with a class, which counts before the style text of the cell but after that of the row. -/
theorem C125_class : let cs : Classes := [(b!"s", ⟨[([0, 1], .flt 6)], []⟩)]
    let rows : List TableRow := [.mk ⟨[[([0, 1], .flt 24)]], []⟩ [.mk ⟨[], [b!"s"]⟩ 0 0 [.textBlock b!"small"]]]
    ((styledCells cs defaultStyle rows).flatten.map (·.1.font.pointSize)) = [6] ∧ ((styledCells cs defaultStyle (rows.map movedDown)).flatten.map (·.1.font.pointSize)) = [24] := by
  decide +kernel

/-- C125: a span of 2 does make a difference, in both directions. -/
example : (run (exTable 2 2 0)).map (·.2.eng.out) ≠ (run (exTable 2 1 0)).map (·.2.eng.out) ∧ (run (exTable 2 1 2)).map (·.2.eng.out) ≠ (run (exTable 2 1 0)).map (·.2.eng.out) := by
  decide +kernel

end Verif.Props
