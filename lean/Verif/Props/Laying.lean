import Verif.Proofs.Laying
/-
Property C123, all together: a table laid out, from what is in the file alone (/repo/table.go).
-/
namespace Verif.Props
open Verif.Go Verif.Model Verif.Proofs Verif.Spec

variable {σ : Type} {m : Measure σ} {cs : Classes} {page : Page} {curr : Styles} {st : Styled} {xrows : List TableRow} {s s' : σ} {t : Tab}

/-- C123: the table that is laid out, with the styles, the contents, the places and the sizes of its cells, is the one of `layTable`. -/
theorem C123_laid (h : transformTable m cs page curr st xrows s = some (t, s')) :
    (laidRows t, s') = layTable m cs (tableWidth page (st.mutatedStyles cs curr).dim.width) (st.mutatedStyles cs curr) xrows s := by
  rw [← tableWidth_eq]
  exact (layTable_eq h).symm

/-- C123: and there always is one. -/
theorem C123_always (m : Measure σ) (cs : Classes) (page : Page) (curr : Styles) (st : Styled) (xrows : List TableRow) (s : σ) :
    ∃ t s', transformTable m cs page curr st xrows s = some (t, s') ∧
      (laidRows t, s') = layTable m cs (tableWidth page (st.mutatedStyles cs curr).dim.width) (st.mutatedStyles cs curr) xrows s := by
  obtain ⟨t, s', _, _, _, h, _⟩ := transformTable_laid m cs page curr st xrows s
  exact ⟨t, s', h, C123_laid h⟩

private def exLay : List SetRow := (layTable exMeasure [] 100 ((⟨[[([2, 0], .flt (-1))]], []⟩ : Styled).mutatedStyles [] zeroStyles) exRows ()).1

/-- C123: the example table (see C21), laid out: the heights of its rows, and how far down their cells reach. -/
example : exLay.map (fun r => (r.height, r.reach)) = [(12, 12), (4, 58), (50, 50), (4, 4)] := by decide +kernel

/-- C123: and its cells: cell 1 is over two columns, cell 2 over three rows. -/
example : exLay.map (fun r => r.cells.map fun c => c.2.map fun d => (d.width, d.height)) =
    [[some (35, 12), some (65, 12), none], [some (35, 58), some (30, 4), none], [none, some (30, 50), some (35, 50)], [none, none, none]] ∧
    exLay.map (fun r => r.cells.map (·.1)) = List.replicate 4 [35, 30, 35] := by decide +kernel

end Verif.Props
