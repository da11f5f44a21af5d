import Verif.Spec.Frame
import Verif.Props.Laying
import Verif.Proofs.Typeset
import Verif.Props.Inside
/-
Property C124: what the contents of the cells do to a table (/repo/table.go).
-/
namespace Verif.Props
open Verif.Go Verif.Model Verif.Proofs Verif.Spec

section
variable {rows rows' : List TableRow} (hf : SameFrame rows rows')
include hf

private theorem frame_cells : List.Forall₂ SameCell (rows.flatMap (·.cells)) (rows'.flatMap (·.cells)) := by
  induction hf with
  | nil => exact .nil
  | cons h _ ih => simpa using List.rel_append h.2 ih

private theorem frame_spans (a : Nat) : rowSpanOf rows a = rowSpanOf rows' a := by
  unfold rowSpanOf
  have h := frame_cells hf
  generalize rows.flatMap (·.cells) = l at h
  generalize rows'.flatMap (·.cells) = l' at h
  induction h generalizing a with
  | nil => rfl
  | cons h _ ih =>
    cases a with
    | zero => simp [h.2.2]
    | succ a => simpa using ih a

omit hf in
private theorem frame_row {l l' : List TableCell} (h : List.Forall₂ SameCell l l') : ∀ a, placesOf a l = placesOf a l' := by
  induction h with
  | nil => intro a; rfl
  | cons h _ ih => intro a; simp only [placesOf, h.2.1, ih]

private theorem frame_placesIn : ∀ a, placesIn a rows = placesIn a rows' := by
  induction hf with
  | nil => intro a; rfl
  | cons h _ ih => intro a; simp only [placesIn, frame_row h.2, h.2.length_eq, ih]

private theorem frame_places : tablePlaces rows = tablePlaces rows' := by
  unfold tablePlaces
  rw [frame_placesIn hf, hf.length_eq, show rowSpanOf rows = rowSpanOf rows' from funext (frame_spans hf)]

private theorem frame_styles (cs : Classes) (sty : Styles) :
    (styledCells cs sty rows).flatten.map Prod.fst = (styledCells cs sty rows').flatten.map Prod.fst := by
  unfold styledCells
  rw [hf.length_eq]
  generalize rows'.length = n
  have key : ∀ k, ((rows.mapIdx fun i r => r.cells.mapIdx fun j c => (stylesAt cs (placeName b!"first-cell" b!"last-cell" j r.cells.length) c.st
      (stylesAt cs (placeName b!"first-row" b!"last-row" (i + k) n) r.st sty), c.iss)).flatten.map Prod.fst) =
      ((rows'.mapIdx fun i r => r.cells.mapIdx fun j c => (stylesAt cs (placeName b!"first-cell" b!"last-cell" j r.cells.length) c.st
      (stylesAt cs (placeName b!"first-row" b!"last-row" (i + k) n) r.st sty), c.iss)).flatten.map Prod.fst) := by
    induction hf with
    | nil => intro k; rfl
    | @cons r r' l l' h hl ih =>
      intro k
      simp only [List.mapIdx_cons, List.flatten_cons, List.map_append]
      have e : ∀ i, i + 1 + k = i + (k + 1) := fun i => by omega
      simp only [e, ih (k + 1)]
      congr 1
      rw [h.1, h.2.length_eq]
      generalize stylesAt cs (placeName b!"first-row" b!"last-row" (0 + k) n) r'.st sty = sty'
      generalize r'.cells.length = n'
      have hc := h.2
      apply List.ext_getElem
      · simp [hc.length_eq]
      · intro j h1 h2
        simp only [List.length_map, List.length_mapIdx] at h1 h2
        simp only [List.getElem_map, List.getElem_mapIdx]
        have := (List.Forall₂.get hc h1 h2).1
        simp only [List.get_eq_getElem] at this
        rw [this]
  exact key 0

end

section
variable {σ τ : Type} {m : Measure σ} {m' : Measure τ} {cs : Classes} {page : Page} {curr : Styles} {st : Styled} {rows rows' : List TableRow} {s s1 : σ} {u u1 : τ} {t t' : Tab}

private theorem frame_look (hf : SameFrame rows rows') (sty : Styles) (a : Nat) : ((styledCells cs sty rows).flatten.getD a (zeroStyles, [])).1 = ((styledCells cs sty rows').flatten.getD a (zeroStyles, [])).1 := by
  have h := congrArg (fun l => l[a]?) (frame_styles hf cs sty)
  simp only [List.getElem?_map] at h
  rw [List.getD_eq_getElem?_getD, List.getD_eq_getElem?_getD]
  revert h
  cases (styledCells cs sty rows).flatten[a]? <;> cases (styledCells cs sty rows').flatten[a]? <;> simp

private theorem inTurn_reads {α : Type} {f : α → σ → ℚ × σ} {I : σ → Prop} {g : α → ℚ} (h : ∀ a s, I s → (f a s).1 = g a ∧ I (f a s).2) :
    ∀ (l : List α) (s : σ), I s → (inTurn f l s).1 = l.map g
  | [], _, _ => rfl
  | a :: l, s, hs => by
    simp only [inTurn, List.map_cons, (h a s hs).1, inTurn_reads h l _ (h a s hs).2]

private theorem largest_mono {α : Type} {f g : α → ℚ} : ∀ {l : List α}, (∀ x ∈ l, f x ≤ g x) → largest (l.map f) ≤ largest (l.map g)
  | [], _ => le_refl _
  | x :: l, h => by
    simp only [largest, List.map_cons, List.foldr_cons]
    exact max_le_max (h x (List.mem_cons_self ..)) (largest_mono fun y hy => h y (List.mem_cons_of_mem _ hy))

/-- What cell `a` asks for, if its text is `μ` high. -/
private def asks (μ : Styles → List Instr → ℚ → ℚ) (look : Nat → Styles) (ws : List ℚ) (places : List (List TPlace)) (c : TableCell × Nat) : ℚ :=
  if 0 < (look c.2).dim.height then (look c.2).dim.height else
    (μ (look c.2) c.1.iss (widthOf ws places c.2 - ((look c.2).box.padding.left + (look c.2).box.padding.right)) + (look c.2).box.padding.top + (look c.2).box.padding.bottom) /
      (extent c.1.rowSpan : ℚ)

private theorem heights_reads {I : σ → Prop} {μ : Styles → List Instr → ℚ → ℚ} (hm : Reads m I μ) (hs : I s) (h : transformTable m cs page curr st rows s = some (t, s1)) :
    let sty := st.mutatedStyles cs curr
    let look := fun a => ((styledCells cs sty rows).flatten.getD a (zeroStyles, [])).1
    t.rows.map (·.height) = rowHeights look ((rows.flatMap (·.cells)).zipIdx.map (asks μ look (columnWidths look (tableWidth page sty.dim.width) (tablePlaces rows)) (tablePlaces rows)))
      (tablePlaces rows) := by
  intro sty look
  have hl := congrArg (fun q => q.1.map SetRow.height) (C123_laid h)
  simp only [laidRows, layTable, List.map_map] at hl
  have e : (SetRow.height ∘ fun r : TRow => (⟨r.height, t.maxCellHeight r, r.cells.map fun x => ((t.cell x).width,
    if (t.cell x).spannedBy.isSome ∨ (t.cell x).zero then none else some ⟨(t.cell x).styles, (t.cell x).iss, (t.dim x).1, (t.dim x).2⟩)⟩ : SetRow)) = (·.height) := rfl
  rw [e] at hl
  rw [hl, inTurn_reads (I := I) (g := asks μ look (columnWidths look (tableWidth page sty.dim.width) (tablePlaces rows)) (tablePlaces rows)) (fun c s hs => ?_) _ _ hs]
  · unfold setRows
    apply List.ext_getElem
    · simp [rowHeights]
    · intro i h1 h2
      simp only [List.getElem_map, List.getElem_mapIdx]
      rw [List.getD_eq_getElem?_getD, List.getElem?_eq_getElem h2]
      rfl
  · unfold shareOf asks
    split
    · exact ⟨rfl, hs⟩
    · obtain ⟨e1, e2⟩ := hm (look c.2) c.1.iss (widthOf (columnWidths look (tableWidth page sty.dim.width) (tablePlaces rows)) (tablePlaces rows) c.2 -
        ((look c.2).box.padding.left + (look c.2).box.padding.right)) s hs
      exact ⟨by simp only [← e1]; rfl, e2⟩

/-- A table is laid out in the same way with what is measured. -/
theorem layTable_reads {I : σ → Prop} {μ : Styles → List Instr → ℚ → ℚ} (hm : Reads m I μ) (hs : I s) (width : ℚ) (sty : Styles) :
    (layTable m cs width sty rows s).1 = (layTable (fun sty iss w (_ : Unit) => (μ sty iss w, ())) cs width sty rows ()).1 := by
  have key : ∀ (look : Nat → Styles) {τ : Type} {m : Measure τ} {I : τ → Prop}, Reads m I μ → ∀ s, I s → (inTurn (fun (c : TableCell × Nat) s =>
      shareOf m (look c.2) c.1.iss (extent c.1.rowSpan) (widthOf (columnWidths look width (tablePlaces rows)) (tablePlaces rows) c.2) s) (rows.flatMap (·.cells)).zipIdx s).1 =
      (rows.flatMap (·.cells)).zipIdx.map (asks μ look (columnWidths look width (tablePlaces rows)) (tablePlaces rows)) := by
    intro look τ m I hm s hs
    refine inTurn_reads (I := I) (fun c s hs => ?_) _ _ hs
    unfold shareOf asks
    split
    · exact ⟨rfl, hs⟩
    · obtain ⟨e1, e2⟩ := hm (look c.2) c.1.iss (widthOf (columnWidths look width (tablePlaces rows)) (tablePlaces rows) c.2 -
        ((look c.2).box.padding.left + (look c.2).box.padding.right)) s hs
      exact ⟨by simp only [← e1], e2⟩
  have k1 := key (fun a => ((styledCells cs sty rows).flatten.getD a (zeroStyles, [])).1) hm s hs
  have k2 := key (fun a => ((styledCells cs sty rows).flatten.getD a (zeroStyles, [])).1) (I := fun _ => True) (m := fun sty iss w (_ : Unit) => (μ sty iss w, ()))
    (fun _ _ _ _ _ => ⟨rfl, trivial⟩) () trivial
  unfold layTable
  dsimp only at k1 k2 ⊢
  rw [k1, k2]

/-- A table is laid out in the same way by what agrees on its cells. -/
theorem layTable_on {μ μ' : Styles → List Instr → ℚ → ℚ} (h : ∀ r ∈ rows, ∀ c ∈ r.cells, ∀ sty w, μ sty c.iss w = μ' sty c.iss w) (width : ℚ) (sty : Styles) :
    layTable (fun sty iss w (_ : Unit) => (μ sty iss w, ())) cs width sty rows () = layTable (fun sty iss w (_ : Unit) => (μ' sty iss w, ())) cs width sty rows () := by
  have turn : ∀ {α : Type} {f g : α → Unit → ℚ × Unit} (l : List α), (∀ a ∈ l, f a = g a) → ∀ s, inTurn f l s = inTurn g l s := by
    intro α f g l
    induction l with
    | nil => intro _ s; rfl
    | cons a l ih =>
      intro h s
      simp only [inTurn, h a (List.mem_cons_self ..), ih fun b hb => h b (List.mem_cons_of_mem _ hb)]
  unfold layTable
  dsimp only
  rw [turn (g := fun (c : TableCell × Nat) s => shareOf (fun sty iss w (_ : Unit) => (μ' sty iss w, ())) ((styledCells cs sty rows).flatten.getD c.2 (zeroStyles, [])).1 c.1.iss
    (extent c.1.rowSpan) (widthOf (columnWidths (fun a => ((styledCells cs sty rows).flatten.getD a (zeroStyles, [])).1) width (tablePlaces rows)) (tablePlaces rows) c.2) s)]
  intro c hc
  obtain ⟨r, hr, hc⟩ := List.mem_flatMap.mp (List.mem_of_getElem? (List.mem_zipIdx_iff_getElem?.mp hc))
  funext s
  unfold shareOf
  simp only [h r hr c.1 hc]

private theorem heightOf_getD (t : Tab) (i : Nat) : heightOf t i = (t.rows.map (·.height)).getD i 0 := by
  unfold heightOf
  rw [List.getD_eq_getElem?_getD, List.getElem?_map]
  cases t.rows[i]? <;> rfl

private theorem rowHeights_getD (look : Nat → Styles) (share : List ℚ) (places : List (List TPlace)) (i : Nat) :
    (rowHeights look share places).getD i 0 = (places[i]?.map fun row => largest (row.map (heightAsked look share row))).getD 0 := by
  unfold rowHeights
  rw [List.getD_eq_getElem?_getD, List.getElem?_map]

/-- C124: which cell, which covered place or which filling is where, and how wide it is, does not depend on what is written in the cells, nor on how it is measured. -/
theorem C124_widths (hf : SameFrame rows rows') (h : transformTable m cs page curr st rows s = some (t, s1)) (h' : transformTable m' cs page curr st rows' u = some (t', u1)) :
    t.rows.map (fun r => r.cells.map (foundAt t)) = t'.rows.map (fun r => r.cells.map (foundAt t')) ∧
    t.rows.map (fun r => r.cells.map fun x => (t.cell x).width) = t'.rows.map (fun r => r.cells.map fun x => (t'.cell x).width) := by
  have hp : t.rows.map (fun r => r.cells.map (foundAt t)) = t'.rows.map (fun r => r.cells.map (foundAt t')) := by
    rw [C122_places h, C122_places h', frame_places hf]
  refine ⟨hp, ?_⟩
  have hl := congrArg (fun q => q.1.map fun r => r.cells.map Prod.fst) (C123_laid h)
  have hl' := congrArg (fun q => q.1.map fun r => r.cells.map Prod.fst) (C123_laid h')
  simp only [laidRows, layTable, setRows, List.map_map, Function.comp_def] at hl hl'
  rw [hl, hl', frame_places hf]
  simp only [frame_look hf]
  apply List.ext_getElem
  · simp
  · intro i h1 h2
    simp only [List.getElem_map, List.getElem_mapIdx, List.map_map, Function.comp_def]

/-- C124: if no text in a cell that reaches the row is lower in the second table, then the row is not lower there. -/
theorem C124_higher (hf : SameFrame rows rows') {I : σ → Prop} {I' : τ → Prop} {μ μ' : Styles → List Instr → ℚ → ℚ} (hm : Reads m I μ) (hm' : Reads m' I' μ') (hs : I s) (hu : I' u)
    (h : transformTable m cs page curr st rows s = some (t, s1)) (h' : transformTable m' cs page curr st rows' u = some (t', u1)) {i : Nat}
    (hc : ∀ a c c', ReachesRow rows a i → (rows.flatMap (·.cells))[a]? = some c → (rows'.flatMap (·.cells))[a]? = some c' → ∀ sty w, μ sty c.iss w ≤ μ' sty c'.iss w) :
    heightOf t i ≤ heightOf t' i := by
  have e := heights_reads hm hs h
  have e' := heights_reads hm' hu h'
  simp only at e e'
  rw [heightOf_getD, heightOf_getD, e, e', rowHeights_getD, rowHeights_getD, ← frame_places hf]
  simp only [← frame_look hf]
  cases hrow : (tablePlaces rows)[i]? with
  | none => exact le_refl _
  | some row =>
    simp only [Option.map_some, Option.getD_some]
    refine largest_mono fun x hx => ?_
    have key : ∀ a, .cell a ∈ row ∨ .covered a ∈ row → ∀ (look : Nat → Styles) (ws : List ℚ) (places : List (List TPlace)),
        ((rows.flatMap (·.cells)).zipIdx.map (asks μ look ws places)).getD a 0 ≤ ((rows'.flatMap (·.cells)).zipIdx.map (asks μ' look ws places)).getD a 0 := by
      intro a ha look ws places
      have hl := (frame_cells hf).length_eq
      rw [List.getD_eq_getElem?_getD, List.getD_eq_getElem?_getD, List.getElem?_map, List.getElem?_map, List.getElem?_zipIdx, List.getElem?_zipIdx]
      by_cases hlt : a < (rows.flatMap (·.cells)).length
      · have g := List.getElem?_eq_getElem hlt
        have g' := List.getElem?_eq_getElem (hl ▸ hlt)
        have hsame := List.Forall₂.get (frame_cells hf) hlt (hl ▸ hlt)
        simp only [List.get_eq_getElem] at hsame
        rw [g, g']
        simp only [Option.map_some, Option.getD_some, Nat.zero_add]
        unfold asks
        split
        · exact le_refl _
        · rw [hsame.2.2]
          refine div_le_div_of_nonneg_right ?_ (Nat.cast_nonneg _)
          have := hc a _ _ ⟨row, hrow, ha⟩ g g' (look a) (widthOf ws places a - ((look a).box.padding.left + (look a).box.padding.right))
          linarith
      · rw [List.getElem?_eq_none (by omega), List.getElem?_eq_none (by omega)]
        exact le_refl _
    cases x with
    | cell a => exact key a (.inl hx) _ _ _
    | covered a =>
      simp only [heightAsked]
      split
      · exact le_refl _
      · exact key a (.inr hx) _ _ _
    | free => exact le_refl _

private theorem frame_symm (hf : SameFrame rows rows') : SameFrame rows' rows :=
  List.Forall₂.imp (fun _ _ h => ⟨h.1.symm, List.Forall₂.imp (fun _ _ g => ⟨g.1.symm, g.2.1.symm, g.2.2.symm⟩) h.2.flip⟩) hf.flip

/-- C124: what is written in a cell makes a difference to the heights of the rows that the cell reaches only. -/
theorem C124_local (hf : SameFrame rows rows') {I : σ → Prop} {I' : τ → Prop} {μ : Styles → List Instr → ℚ → ℚ} (hm : Reads m I μ) (hm' : Reads m' I' μ) (hs : I s) (hu : I' u)
    (h : transformTable m cs page curr st rows s = some (t, s1)) (h' : transformTable m' cs page curr st rows' u = some (t', u1)) {i : Nat}
    (hc : ∀ a c c', ReachesRow rows a i → (rows.flatMap (·.cells))[a]? = some c → (rows'.flatMap (·.cells))[a]? = some c' → c.iss = c'.iss) :
    heightOf t i = heightOf t' i := by
  refine le_antisymm (C124_higher hf hm hm' hs hu h h' fun a c c' hr e e' sty w => by rw [hc a c c' hr e e'])
    (C124_higher (frame_symm hf) hm' hm hu hs h' h fun a c c' hr e e' sty w => ?_)
  unfold ReachesRow at hr
  rw [← frame_places hf] at hr
  rw [hc a c' c hr e' e]

end

/-- C124: the heights of texts are of this kind: they depend on the page only, through its number, and measuring does not change it. -/
theorem C124_paper (p : Paper) (ctx : Ctx) (k : Nat) : Reads (textHeightFnc (Fpdf.engine p) ctx) (fun s => s.eng.page = k) (heightOn p ctx k) := by
  intro sty iss w s hk
  have hpage : ∀ f, (Fpdf.engine p).currentPage ({ s with eng := (Fpdf.engine p).changeFont f s.eng } : PState Fpdf).eng = (k : Int) := fun f => congrArg Int.ofNat hk
  unfold textHeightFnc heightOn setLines wordsOn
  by_cases hb : sty.align.h = b!"block"
  · simp only [if_pos hb, textHeightHyphenated]
    refine ⟨?_, ?_⟩
    · rw [tallSet_eq]
      congr 1
      · rw [textLinesHyph_eq (measures_paper p), hpage, wrappedHyph_fill]
      · have := linesLoopHyph_last (hyph := ctx.hyphenate) (cs := ctx.classes) (width := w) (sty := sty) (fh := lineHeight) (measures_paper p) (fun _ _ => rfl) iss ([], TextLine.empty)
          { s with eng := (Fpdf.engine p).changeFont sty.font s.eng } sty.font rfl
        rw [hpage] at this
        exact this
    · exact (textLinesHyph_both (p := p) (ctx := ctx) (s := { s with eng := (Fpdf.engine p).changeFont sty.font s.eng }) (K := fun _ => True)
        (P := fun s' => s'.eng.page = k) (W := w) (sty := sty) (iss := iss) (fun _ _ _ h => h) trivial (fun _ _ _ => trivial) hk).2
  · simp only [if_neg hb, textHeight]
    refine ⟨?_, ?_⟩
    · rw [tallSet_eq]
      congr 1
      · rw [textLines_eq (measures_paper p), hpage, wrapped_fill]
        rfl
      · have := linesLoop_last (cs := ctx.classes) (width := w) (sty := sty) (fh := lineHeight) (measures_paper p) (fun _ _ => rfl) iss ([], TextLine.empty)
          { s with eng := (Fpdf.engine p).changeFont sty.font s.eng } sty.font rfl
        rw [hpage] at this
        exact this
    · exact (textLines_both (p := p) (ctx := ctx) (s := { s with eng := (Fpdf.engine p).changeFont sty.font s.eng }) (K := fun _ => True)
        (P := fun s' => s'.eng.page = k) (W := w) (sty := sty) (iss := iss) (fun _ _ _ h => h) trivial (fun _ _ _ => trivial) hk).2

/-- C124: on paper: if a table is laid out twice on pages with the same number, with different contents of some cells, then the rows that none of these cells reaches are as high as before. -/
theorem C124_edit {p : Paper} {ctx : Ctx} {cs : Classes} {page : Page} {curr : Styles} {st : Styled} {rows rows' : List TableRow} {s s1 u u1 : PState Fpdf} {t t' : Tab}
    (hf : SameFrame rows rows') (hk : s.eng.page = u.eng.page) (h : transformTable (textHeightFnc (Fpdf.engine p) ctx) cs page curr st rows s = some (t, s1))
    (h' : transformTable (textHeightFnc (Fpdf.engine p) ctx) cs page curr st rows' u = some (t', u1)) {i : Nat}
    (hc : ∀ a c c', ReachesRow rows a i → (rows.flatMap (·.cells))[a]? = some c → (rows'.flatMap (·.cells))[a]? = some c' → c.iss = c'.iss) :
    heightOf t i = heightOf t' i :=
  C124_local hf (C124_paper p ctx s.eng.page) (C124_paper p ctx s.eng.page) rfl hk.symm h h' hc

/-! ### Examples -/

/-- The table of the examples (see C21) with more text in the cell over three rows. -/
private def longRows : List TableRow :=
  [.mk ⟨[], []⟩ [.mk ⟨[], []⟩ 0 0 [], .mk ⟨[], []⟩ 2 0 [.textBlock b!"abc"]],
   .mk ⟨[], []⟩ [.mk ⟨[], []⟩ 0 3 [.textBlock b!"x", .lineBreak, .textBlock b!"z"], .mk ⟨[[([3, 0], .flt 30)]], []⟩ 1 1 []],
   .mk ⟨[], []⟩ [.mk ⟨[[([2, 1], .flt 50)]], []⟩ 0 0 [.textBlock b!"y"], .mk ⟨[], []⟩ 0 0 []]]

private theorem exFrame : SameFrame exRows longRows := by
  unfold exRows longRows
  repeat' first
    | exact .nil
    | exact ⟨rfl, rfl, rfl⟩
    | apply List.Forall₂.cons
    | refine ⟨rfl, ?_⟩

/-- C124: the conditions hold for these tables and row 0, which the cell (number 2) does not reach. -/
example : SameFrame exRows longRows ∧ Reads exMeasure (fun _ => True) (fun _ iss _ => 12 * iss.length) ∧
    ∀ a c c', ReachesRow exRows a 0 → (exRows.flatMap (·.cells))[a]? = some c → (longRows.flatMap (·.cells))[a]? = some c' → c.iss = c'.iss := by
  refine ⟨exFrame, fun _ _ _ _ _ => ⟨rfl, trivial⟩, fun a c c' hr h h' => ?_⟩
  obtain ⟨row, hrow, ha⟩ := hr
  have e : (tablePlaces exRows)[0]? = some [.cell 0, .cell 1, .covered 1] := by decide +kernel
  rw [e] at hrow
  obtain rfl := Option.some.inj hrow
  have : a = 0 ∨ a = 1 := by rcases ha with ha | ha <;> simp at ha <;> omega
  rcases this with rfl | rfl <;> cases h <;> cases h' <;> rfl

/-- C124: rows 1 and 3 become higher; row 2 has a cell of the given height 50; row 0 and the widths stay. -/
example : ((layTable exMeasure [] 100 ((⟨[[([2, 0], .flt (-1))]], []⟩ : Styled).mutatedStyles [] zeroStyles) exRows ()).1.map (·.height)) = [12, 4, 50, 4] ∧
    ((layTable exMeasure [] 100 ((⟨[[([2, 0], .flt (-1))]], []⟩ : Styled).mutatedStyles [] zeroStyles) longRows ()).1.map (·.height)) = [12, 12, 50, 12] := by decide +kernel

end Verif.Props
