import Verif.Props.Table
import Verif.Props.Style
import Verif.Spec.TableStyles
/-
Property C63: the styles of table cells.
-/
namespace Verif.Props
open Verif.Go Verif.Model Verif.Spec Verif.Proofs

theorem makeCells_styles (cs : Classes) (rowSty : Styles) (n : Nat) : ∀ (xcs : List TableCell) (ic : Nat) (heap : List TCell),
    heap <+: (makeCells cs rowSty n ic xcs heap).1 ∧
    ∀ h2, (makeCells cs rowSty n ic xcs heap).1 <+: h2 → ∀ j c, xcs[j]? = some c →
      ∃ x, (makeCells cs rowSty n ic xcs heap).2[j]? = some x ∧ (h2.getD x TCell.new).styles = cellStyles cs rowSty n (ic + j) c.st
  | [], _, heap => ⟨List.prefix_refl _, by simp⟩
  | xc :: xcs, ic, heap => by
    have ih := makeCells_styles cs rowSty n xcs (ic + 1)
      (heap ++ [{ TCell.new with styles := cellStyles cs rowSty n ic xc.st, colSpan := xc.colSpan, rowSpan := xc.rowSpan, iss := xc.iss }])
    refine ⟨(List.prefix_append _ _).trans ih.1, ?_⟩
    intro h2 hp j c hj
    cases j with
    | zero =>
      simp only [List.getElem?_cons_zero, Option.some.injEq] at hj
      subst hj
      refine ⟨heap.length, by simp [makeCells], ?_⟩
      obtain ⟨tl, rfl⟩ := ih.1.trans hp
      simp [List.getD_eq_getElem?_getD]
    | succ j =>
      obtain ⟨x, h1, h3⟩ := ih.2 h2 hp j c (by simpa using hj)
      refine ⟨x, by simpa [makeCells] using h1, ?_⟩
      rw [h3, show ic + 1 + j = ic + (j + 1) by omega]

theorem makeRows_styles (cs : Classes) (tabSty : Styles) (n : Nat) : ∀ (xrs : List TableRow) (ir : Nat) (heap : List TCell),
    heap <+: (makeRows cs tabSty n ir xrs heap).1 ∧
    ∀ h2, (makeRows cs tabSty n ir xrs heap).1 <+: h2 → ∀ i xr, xrs[i]? = some xr → ∀ j c, xr.cells[j]? = some c →
      ∃ row x, (makeRows cs tabSty n ir xrs heap).2[i]? = some row ∧ row.cells[j]? = some x ∧
        (h2.getD x TCell.new).styles = cellStyles cs (rowStyles cs tabSty n (ir + i) xr.st) xr.cells.length j c.st
  | [], _, heap => ⟨List.prefix_refl _, by simp⟩
  | xr :: xrs, ir, heap => by
    have hc := makeCells_styles cs (rowStyles cs tabSty n ir xr.st) xr.cells.length xr.cells 0 heap
    have ih := makeRows_styles cs tabSty n xrs (ir + 1) (makeCells cs (rowStyles cs tabSty n ir xr.st) xr.cells.length 0 xr.cells heap).1
    refine ⟨hc.1.trans ih.1, ?_⟩
    intro h2 hp i xr' hi j c hj
    cases i with
    | zero =>
      simp only [List.getElem?_cons_zero, Option.some.injEq] at hi
      subst hi
      obtain ⟨x, h1, h3⟩ := hc.2 h2 (ih.1.trans hp) j c hj
      refine ⟨⟨(makeCells cs (rowStyles cs tabSty n ir xr.st) xr.cells.length 0 xr.cells heap).2, 0⟩, x, by simp [makeRows], h1, ?_⟩
      rw [h3]; simp
    | succ i =>
      obtain ⟨row, x, h1, h3, h4⟩ := ih.2 h2 hp i xr' (by simpa using hi) j c hj
      refine ⟨row, x, by simpa [makeRows] using h1, h3, ?_⟩
      rw [h4, show ir + 1 + i = ir + (i + 1) by omega]

theorem makeTable_styles (cs : Classes) (tabSty : Styles) (xrows : List TableRow) {i j : Nat} {xr : TableRow} {c : TableCell}
    (hi : xrows[i]? = some xr) (hj : xr.cells[j]? = some c) :
    ∃ x, (rowAt (makeTable cs tabSty xrows) i)[j]? = some x ∧ ((makeTable cs tabSty xrows).cell x).styles =
      cellStyles cs (rowStyles cs tabSty xrows.length i xr.st) xr.cells.length j c.st := by
  obtain ⟨row, x, h1, h2, h3⟩ := (makeRows_styles cs tabSty xrows.length xrows 0 []).2 _ (List.prefix_refl _) i xr hi j c hj
  refine ⟨x, ?_, ?_⟩
  · rw [← idsOf_eq]
    simp only [idsOf, makeTable, h1, h2]
  · rw [Nat.zero_add] at h3
    exact h3

variable {σ : Type} {m : Measure σ} {cs : Classes} {page : Page} {curr : Styles} {st : Styled} {xrows : List TableRow} {s s' : σ} {t : Tab}

/-- The styles of a selector, which may be absent. -/
theorem selected_get {S : SheetMeaning} (hR : Rep cs S) {st : Styled} {σs : List (Prp → Option Leaf)}
    (hσ : List.Forall₂ Behaves st.mutators σs) (first last : Str) (i n : Nat) (sty : Styles) (p : Prp) :
    p.get (if i = 0 then st.mutatedStylesWithSelector first cs sty
      else if i + 1 = n then st.mutatedStylesWithSelector last cs sty else st.mutatedStyles cs sty) =
    lastSetter (sourcesAt S (placeName first last i n) st.classes σs) (p.get sty) p := by
  unfold placeName sourcesAt
  split
  · rw [C20_selector hR hσ]; rfl
  · split
    · rw [C20_selector hR hσ]; rfl
    · rw [C19_cascade hR hσ]; rfl

/-- C63: cell `j` of row `i` of the document: each of its properties is what the last source says that sets it: the table, then the
row (with the selector for its place), then the cell (with the selector for its place), and otherwise the current style. -/
theorem C63_styles {S : SheetMeaning} (hR : Rep cs S) (h : transformTable m cs page curr st xrows s = some (t, s'))
    {i j : Nat} {xr : TableRow} {xc : TableCell} (hi : xrows[i]? = some xr) (hj : xr.cells[j]? = some xc)
    {inT inR inC : List (Prp → Option Leaf)} (hT : List.Forall₂ Behaves st.mutators inT) (hRow : List.Forall₂ Behaves xr.st.mutators inR)
    (hC : List.Forall₂ Behaves xc.st.mutators inC) :
    ∃ a, ((idsOf t i).filter (isAuthored t))[j]? = some a ∧ (t.cell a).iss = xc.iss ∧ ∀ p : Prp,
      p.get (t.cell a).styles = lastSetter
        (sourcesAt S none st.classes inT ++
         sourcesAt S (placeName b!"first-row" b!"last-row" i xrows.length) xr.st.classes inR ++
         sourcesAt S (placeName b!"first-cell" b!"last-cell" j xr.cells.length) xc.st.classes inC) (p.get curr) p := by
  have hau := C22_authored h i
  obtain ⟨H0, orig, cws, hl, hf, _⟩ := table_laid_of h
  obtain ⟨a, h1, h2⟩ := makeTable_styles cs (st.mutatedStyles cs curr) xrows hi hj
  have hrow : (idsOf t i).filter (isAuthored t) = rowAt (makeTable cs (st.mutatedStyles cs curr) xrows) i := by
    rw [hf.row, ← hl.span.inv.auth i, idsOf_eq]
    exact List.filter_congr fun x hx => hl.span.inv.isAuthored_iff hx
  have ha : a < H0.length := by
    rw [hf.row] at h1
    exact hf.lt (List.mem_of_getElem? h1)
  refine ⟨a, by rw [hrow]; exact h1, ?_, ?_⟩
  · have := congrArg (fun l => l[j]?) hau
    simp only [authoredIn, written, hi, List.getElem?_map, hrow, h1, hj, Option.map_some, Option.some.injEq, Prod.mk.injEq] at this
    exact this.1
  · intro p
    rw [(hl.span.inv.authored a ha).1, ← hf.cell, h2, lastSetter_append, lastSetter_append]
    rw [show sourcesAt S none st.classes inT = st.classes.filterMap (fun n => (S n).map (·.own)) ++ inT from rfl, ← C19_cascade hR hT curr p]
    unfold cellStyles rowStyles
    rw [selected_get hR hC, selected_get hR hRow]

/-! The example: class `a` aligns to the left, and its cells in first rows to the right; class `b` sets a height for last cells, which
the inline style of the cell with text `y` overrides.  The middle row of class `a` has no selector. -/

private def exClasses : Classes := [(b!"a", ⟨[([4, 0], .str b!"left")], [(b!"first-row", [([4, 0], .str b!"right")])]⟩),
  (b!"b", ⟨[], [(b!"last-cell", [([2, 1], .flt 30)])]⟩)]

private def exTable : List TableRow :=
  [.mk ⟨[], [b!"a"]⟩ [.mk ⟨[], [b!"b"]⟩ 0 0 [], .mk ⟨[], [b!"b"]⟩ 0 0 [.textBlock b!"x"]],
   .mk ⟨[], [b!"a"]⟩ [.mk ⟨[], [b!"b"]⟩ 0 0 [], .mk ⟨[[([2, 1], .flt 50)]], [b!"b"]⟩ 0 0 [.textBlock b!"y"]],
   .mk ⟨[], []⟩ [.mk ⟨[], []⟩ 0 0 []]]

example : (transformTable exMeasure exClasses ⟨⟨0, 0, 100, 200⟩⟩ zeroStyles ⟨[[([4, 0], .str b!"center")]], []⟩ exTable ()).map
    (fun r => [0, 1, 2, 3, 4].map fun x => ((r.1.cell x).styles.align.h, (r.1.cell x).styles.dim.height)) =
    some [(b!"right", 0), (b!"right", 30), (b!"left", 0), (b!"left", 50), (b!"center", 0)] := by decide +kernel

end Verif.Props
