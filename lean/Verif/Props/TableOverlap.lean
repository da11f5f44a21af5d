import Verif.Proofs.TableOverlap
import Verif.Props.Table
import Verif.Spec.Spans
/-
Property C25: do table cells overlap (/repo/table.go)?
-/
namespace Verif.Props
open Verif.Go Verif.Model Verif.Proofs Verif.Spec

/-- The authored cell `a`, at row `i` and column `j`, covers position `(r, k)`. -/
def Covers (t : Tab) (a r k : Nat) : Prop := ∃ i j, (idsOf t i)[j]? = some a ∧ isAuthored t a = true ∧
  (i ≤ r ∧ r < i + extent (t.cell a).rowSpan) ∧ j ≤ k ∧ k < j + extent (t.cell a).colSpan

/-- C25, the full claim: no position is covered by two cells. -/
def NoOverlap (t : Tab) : Prop := ∀ a b r k, Covers t a r k → Covers t b r k → a = b

variable {σ : Type} {m : Measure σ} {cs : Classes} {page : Page} {curr : Styles} {st : Styled} {xrows : List TableRow} {s s' : σ} {t : Tab}

private theorem pos_of (h : transformTable m cs page curr st xrows s = some (t, s')) (h2 : RowsClear t) (h3 : Descending t) :
    ∃ H0 orig, Inv H0 orig t ∧ RPos H0.length t ∧ CPos H0.length t ∧ Spanned H0 orig t := by
  obtain ⟨hf, hw⟩ := makeTable_fresh cs (st.mutatedStyles cs curr) xrows
  obtain ⟨t1, e1, hs1⟩ := processSpans_spec hf
  obtain ⟨t2, cws, e2, sh12, _⟩ := assignColumnWidths_spec hs1 (page.effectiveWidth (st.mutatedStyles cs curr).dim.width)
  have hs2 := hs1.shape sh12
  obtain ⟨sh23, _⟩ := assignHeights_spec m hs2.inv s
  have hs3 := hs2.shape sh23
  have sh := sh12.trans sh23
  have he : t = (assignHeights m t2 s).1 := by
    unfold transformTable at h
    simp only [e1, e2, Option.some.injEq] at h
    rw [h]
  rw [← he] at sh hs3
  have hi := hs3.inv
  set H0 := (makeTable cs (st.mutatedStyles cs curr) xrows).heap
  set orig := (makeTable cs (st.mutatedStyles cs curr) xrows).rows.map TRow.cells
  have hau : ∀ i a, a ∈ rowAt t i → a < H0.length → isAuthored t a = true := fun i a h1 h2 => by
    rw [hi.isAuthored_iff h1]; simpa using h2
  have hcf : ColFree H0 orig := by
    intro i k b x hb h0 hk hx
    obtain ⟨hb1, hb2⟩ := (hi.mem_orig i b).mp hb
    obtain ⟨hx1, hx2⟩ := (hi.mem_orig (i + k) x).mp hx
    have := h2 i (i + k) b x (by rw [idsOf_eq]; exact hb1) (hau i b hb1 hb2) (by rw [idsOf_eq]; exact hx1) (hau _ x hx1 hx2) (by omega)
      (by rw [(hi.authored b hb2).2.2.2.1, extent_eq]; omega)
    rw [(hi.authored x hx2).2.2.1] at this
    exact this
  have hst : Stairs H0 t1 := by
    intro a i j b i' j' ha hb hpa hpb hlt hreach hspan
    rw [← sh.2.2.2.1] at hpa hpb
    have hpa' : (idsOf t i)[j]? = some a := by rw [idsOf_eq]; exact hpa
    have hpb' : (idsOf t i')[j']? = some b := by rw [idsOf_eq]; exact hpb
    refine h3 i j i' j' a b hpa' (hau i a (List.mem_of_getElem? hpa) ha) hpb' (hau i' b (List.mem_of_getElem? hpb) hb) hlt ?_ ?_
    · rw [(hi.authored a ha).2.2.2.1, extent_eq]; omega
    · rw [(hi.authored b hb).2.2.2.1]; exact hspan
  obtain ⟨hR, hC⟩ := sh.pos (processSpans_pos hf hcf e1 hst)
  exact ⟨H0, orig, hi, hR, hC, hs3⟩

/-- C25 for tables in which no cell extends over both several rows and several columns, no row with a wide cell is reached from
above, and high cells that share a row below are placed from left to right.  The full claim (without these conditions) is false:
see `C25_block_overlap` and `C25_rows_overlap`. -/
theorem C25_partial (h : transformTable m cs page curr st xrows s = some (t, s')) (h1 : NoBlocks t) (h2 : RowsClear t)
    (h3 : Descending t) : NoOverlap t := by
  obtain ⟨H0, orig, hi, hR, hC, hs⟩ := pos_of h h2 h3
  -- who is at a covered position
  have owner : ∀ a r k, Covers t a r k → a < H0.length ∧ ∃ x, (rowAt t r)[k]? = some x ∧ (x = a ∨ (t.cell x).spannedBy = some a) := by
    rintro a r k ⟨i, j, hp, hau, hr, hk1, hk2⟩
    have hm : a ∈ idsOf t i := List.mem_of_getElem? hp
    have hnb := h1 i a hm hau
    rw [idsOf_eq] at hp hm
    have hA : a < H0.length := by
      rw [hi.isAuthored_iff hm] at hau; simpa using hau
    refine ⟨hA, ?_⟩
    have hcs := (hi.authored a hA).2.2.1
    have hrs := (hi.authored a hA).2.2.2.1
    have nC := hs.nCols a hA
    have nR := hs.nRows a hA
    rw [extent_eq] at hr hk2
    by_cases er : r = i
    · subst er
      by_cases ek : k = j
      · subst ek; exact ⟨a, hp, Or.inl rfl⟩
      · have hlt : k - j - 1 < (t.cell a).spansCols.length := by rw [nC, ← hcs]; omega
        have hg := List.getElem?_eq_getElem hlt
        have := hC a r j hA hp (k - j - 1) _ hg
        rw [show j + 1 + (k - j - 1) = k by omega] at this
        exact ⟨_, this, Or.inr (hi.cols a r hA hm _ (List.getElem_mem hlt)).2.2⟩
    · have hlt : r - i - 1 < (t.cell a).spansRows.length := by rw [nR, ← hrs]; omega
      have hg := List.getElem?_eq_getElem hlt
      have := hR a i j hA hp (r - i - 1) _ hg
      rw [show i + 1 + (r - i - 1) = r by omega] at this
      have hkj : k = j := by
        rcases hnb with q | q
        · have : ((t.cell a).colSpan - 1).toNat = 0 := by omega
          omega
        · have : ((t.cell a).rowSpan - 1).toNat = 0 := by omega
          omega
      subst hkj
      exact ⟨_, this, Or.inr (hi.rows a i hA hm _ _ hg).2.2⟩
  intro a b r k ca cb
  obtain ⟨hA, x, hx, hxa⟩ := owner a r k ca
  obtain ⟨hB, y, hy, hyb⟩ := owner b r k cb
  rw [hx] at hy
  simp only [Option.some.injEq] at hy
  subst hy
  rcases hxa with rfl | hxa <;> rcases hyb with e | hyb
  · exact e
  · rw [(hi.authored x hA).2.2.2.2.1] at hyb; simp at hyb
  · subst e; rw [(hi.authored x hB).2.2.2.2.1] at hxa; simp at hxa
  · rw [hxa] at hyb; simpa using hyb

/-- A special case: without rowspans the cells never overlap. -/
theorem C25_colspans (h : transformTable m cs page curr st xrows s = some (t, s'))
    (h1 : ∀ xr ∈ xrows, ∀ c ∈ xr.cells, c.rowSpan ≤ 1) : NoOverlap t := by
  have hrs : ∀ i a, a ∈ idsOf t i → isAuthored t a = true → (t.cell a).rowSpan ≤ 1 := by
    intro i a ha hau
    have hm : ((t.cell a).iss, (t.cell a).colSpan, (t.cell a).rowSpan) ∈ authoredIn t i :=
      List.mem_map.mpr ⟨a, List.mem_filter.mpr ⟨ha, hau⟩, rfl⟩
    rw [C22_authored h i] at hm
    unfold written at hm
    cases hx : xrows[i]? with
    | none => rw [hx] at hm; simp at hm
    | some xr =>
      rw [hx] at hm
      simp only [List.mem_map] at hm
      obtain ⟨c, hc, e⟩ := hm
      have := h1 xr (List.mem_of_getElem? hx) c hc
      simp only [Prod.mk.injEq] at e
      omega
  refine C25_partial h (fun i a ha hau => Or.inr (hrs i a ha hau)) ?_ ?_
  · intro i r a b ha hau _ _ h1 h2
    have := hrs i a ha hau
    unfold extent at h2
    rw [if_pos this] at h2
    omega
  · intro i j i' j' a b ha hau hb hbu _ _ h3
    have := hrs i' b (List.mem_of_getElem? hb) hbu
    omega

/-! ### C26: the width of wide cells -/

/-- C26: an authored cell is as wide as itself and its placeholders in the row are together. -/
theorem C26_span (h : transformTable m cs page curr st xrows s = some (t, s')) {i a : Nat} (ha : a ∈ idsOf t i)
    (hau : isAuthored t a = true) : (t.dim a).1 = (t.cell a).width + ((placeholders t a i).map fun x => (t.cell x).width).sum := by
  obtain ⟨H0, orig, cws, hl, _, _⟩ := table_laid_of h
  have hi := hl.span.inv
  have hm := ha
  rw [idsOf_eq] at hm
  have hA : a < H0.length := by
    rw [hi.isAuthored_iff hm] at hau; simpa using hau
  have hperm : (t.cell a).spansCols.Perm (placeholders t a i) := by
    refine (List.perm_ext_iff_of_nodup (hi.colsNodup a) ?_).mpr fun x => ?_
    · unfold placeholders
      rw [idsOf_eq]
      exact (hi.nod i).filter _
    · unfold placeholders
      rw [idsOf_eq, List.mem_filter, decide_eq_true_eq]
      constructor
      · intro hx
        have := hi.cols a i hA hm x hx
        exact ⟨this.1, this.2.2⟩
      · rintro ⟨h1, h2⟩
        rcases hi.own i x a h1 h2 with h3 | h3
        · exact h3
        · obtain ⟨n, hn⟩ := List.getElem?_of_mem h3
          have := hi.inj _ _ _ h1 (hi.rows a i hA hm n x hn).1
          omega
  unfold Tab.dim
  simp only
  rw [foldl_add_sum, (hperm.map _).sum_eq]

/-- C26: if no row with wide cells is reached from above, and high cells that share a row below are placed from left to right, then an authored cell in
column `j` is as wide as the columns from `j` on that it extends over. -/
theorem C26_wide (h : transformTable m cs page curr st xrows s = some (t, s')) (h2 : RowsClear t) (h3 : Descending t) {i j a : Nat}
    (ha : (idsOf t i)[j]? = some a) (hau : isAuthored t a = true) : ∃ ws : List ℚ, (∀ r k x, (idsOf t r)[k]? = some x → (t.cell x).width = ws.getD k 0) ∧
    j + extent (t.cell a).colSpan ≤ t.columnCount ∧ (t.dim a).1 = ((ws.drop j).take (extent (t.cell a).colSpan)).sum := by
  obtain ⟨ws, hlen, hws, _⟩ := C26_widths h
  obtain ⟨H0, orig, hi, _, hC, hs⟩ := pos_of h h2 h3
  have hp := ha
  rw [idsOf_eq] at hp
  have hm := List.mem_of_getElem? hp
  have hA : a < H0.length := by
    rw [hi.isAuthored_iff hm] at hau; simpa using hau
  have hn : (t.cell a).spansCols.length = ((t.cell a).colSpan - 1).toNat := by rw [hs.nCols a hA, (hi.authored a hA).2.2.1]
  have hcol : ∀ k, k < extent (t.cell a).colSpan → ∃ x, (idsOf t i)[j + k]? = some x ∧ (a :: (t.cell a).spansCols)[k]? = some x := by
    intro k hk
    rw [extent_eq] at hk
    cases k with
    | zero => exact ⟨a, ha, rfl⟩
    | succ k =>
      have hlt : k < (t.cell a).spansCols.length := by omega
      refine ⟨_, ?_, List.getElem?_eq_getElem (by simpa using hlt)⟩
      have := hC a i j hA hp k _ (List.getElem?_eq_getElem hlt)
      rw [idsOf_eq, show j + (k + 1) = j + 1 + k by omega, this]
      rfl
  have hrow : (idsOf t i).length = t.columnCount := by
    unfold idsOf
    cases hr : t.rows[i]? with
    | none => rw [idsOf, hr] at ha; simp at ha
    | some row => exact (C21_shape h).1 row (List.mem_of_getElem? hr)
  have hfit : j + extent (t.cell a).colSpan ≤ t.columnCount := by
    rw [extent_eq]
    obtain ⟨x, hx, _⟩ := hcol ((t.cell a).colSpan - 1).toNat (by rw [extent_eq]; omega)
    have := (List.getElem?_eq_some_iff.mp hx).1
    omega
  refine ⟨ws, hws, hfit, ?_⟩
  have hdim : (t.dim a).1 = ((a :: (t.cell a).spansCols).map fun x => (t.cell x).width).sum := by
    unfold Tab.dim
    simp only
    rw [foldl_add_sum, List.map_cons, List.sum_cons]
  rw [hdim]
  congr 1
  apply List.ext_getElem?
  intro k
  rw [List.getElem?_take, List.getElem?_drop, List.getElem?_map]
  by_cases hk : k < extent (t.cell a).colSpan
  · obtain ⟨x, hx1, hx2⟩ := hcol k hk
    rw [if_pos hk, hx2]
    have := hws i (j + k) x hx1
    have hlt : j + k < ws.length := by rw [hlen]; omega
    rw [List.getElem?_eq_getElem hlt, Option.map_some, this, List.getD_eq_getElem?_getD, List.getElem?_eq_getElem hlt]
    rfl
  · rw [if_neg hk, List.getElem?_eq_none (by rw [extent_eq] at hk; simp only [List.length_cons]; omega)]
    rfl

/-- Two rows; a cell over two rows and two columns, two cells below. -/
def exBlock : List TableRow := [.mk ⟨[], []⟩ [.mk ⟨[], []⟩ 2 2 []], .mk ⟨[], []⟩ [.mk ⟨[], []⟩ 0 0 [], .mk ⟨[], []⟩ 0 0 []]]

/-- Three rows; a cell over three rows in the second column of the first, one over two rows in the first column of the second. -/
def exStairs : List TableRow :=
  [.mk ⟨[], []⟩ [.mk ⟨[], []⟩ 0 0 [], .mk ⟨[], []⟩ 0 3 []], .mk ⟨[], []⟩ [.mk ⟨[], []⟩ 0 2 [], .mk ⟨[], []⟩ 0 0 []],
   .mk ⟨[], []⟩ [.mk ⟨[], []⟩ 0 0 [], .mk ⟨[], []⟩ 0 0 []]]

private def exT (rows : List TableRow) : Tab :=
  ((transformTable exMeasure [] ⟨⟨0, 0, 100, 200⟩⟩ zeroStyles ⟨[], []⟩ rows ()).map (·.1)).getD ⟨[], [], 0⟩

/-- The full claim is false: the cell over two rows and two columns covers the position of the first cell below it. -/
theorem C25_block_overlap : ∃ t s', transformTable exMeasure [] ⟨⟨0, 0, 100, 200⟩⟩ zeroStyles ⟨[], []⟩ exBlock () = some (t, s') ∧
    ¬ NoOverlap t := by
  have hs : (transformTable exMeasure [] ⟨⟨0, 0, 100, 200⟩⟩ zeroStyles ⟨[], []⟩ exBlock ()).isSome := by decide +kernel
  obtain ⟨p, hp⟩ := Option.isSome_iff_exists.mp hs
  refine ⟨p.1, p.2, hp, fun hn => ?_⟩
  have ht : p.1 = exT exBlock := by unfold exT; rw [hp]; rfl
  rw [ht] at hn
  exact absurd (hn 0 1 1 1 ⟨0, 0, by decide +kernel⟩ ⟨1, 1, by decide +kernel⟩) (by decide)

/-- It is false without such cells, too: a lower cell can push the placeholder of an upper one to the right. -/
theorem C25_rows_overlap : ∃ t s', transformTable exMeasure [] ⟨⟨0, 0, 100, 200⟩⟩ zeroStyles ⟨[], []⟩ exStairs () = some (t, s') ∧
    ¬ NoOverlap t := by
  have hs : (transformTable exMeasure [] ⟨⟨0, 0, 100, 200⟩⟩ zeroStyles ⟨[], []⟩ exStairs ()).isSome := by decide +kernel
  obtain ⟨p, hp⟩ := Option.isSome_iff_exists.mp hs
  refine ⟨p.1, p.2, hp, fun hn => ?_⟩
  have ht : p.1 = exT exStairs := by unfold exT; rw [hp]; rfl
  rw [ht] at hn
  exact absurd (hn 1 4 2 1 ⟨0, 1, by decide +kernel⟩ ⟨2, 1, by decide +kernel⟩) (by decide)

/-- The conditions of `C25_partial`, checked row by row. -/
theorem conditions_of (n : Nat) (hn : t.rows.length ≤ n)
    (h1 : ∀ i < n, ∀ a ∈ idsOf t i, isAuthored t a = true → (t.cell a).colSpan ≤ 1 ∨ (t.cell a).rowSpan ≤ 1)
    (h2 : ∀ i < n, ∀ r < n, ∀ a ∈ idsOf t i, ∀ b ∈ idsOf t r, (isAuthored t a && isAuthored t b) = true ∧
      i < r ∧ r < i + extent (t.cell a).rowSpan → (t.cell b).colSpan ≤ 1)
    (h3 : ∀ i < n, ∀ i' < n, ∀ p ∈ (idsOf t i).zipIdx, ∀ q ∈ (idsOf t i').zipIdx,
      (isAuthored t p.1 && isAuthored t q.1) = true ∧ i < i' ∧ i' + 1 < i + extent (t.cell p.1).rowSpan ∧ 1 < (t.cell q.1).rowSpan →
      p.2 < q.2) :
    NoBlocks t ∧ RowsClear t ∧ Descending t := by
  have hlt : ∀ i a, a ∈ idsOf t i → i < n := by
    intro i a ha
    by_contra hc
    unfold idsOf at ha
    rw [List.getElem?_eq_none (by omega)] at ha
    simp at ha
  refine ⟨fun i a ha => h1 i (hlt i a ha) a ha,
    fun i r a b ha hau hb hbu x y => h2 i (hlt i a ha) r (hlt r b hb) a ha b hb ⟨by simp [hau, hbu], x, y⟩, ?_⟩
  intro i j i' j' a b ha hau hb hbu x y z
  exact h3 i (hlt i a (List.mem_of_getElem? ha)) i' (hlt i' b (List.mem_of_getElem? hb)) (a, j) (List.mem_zipIdx_iff_getElem?.mpr ha) (b, j')
    (List.mem_zipIdx_iff_getElem?.mpr hb) ⟨by simp [hau, hbu], x, y, z⟩

/-- The conditions of `C25_partial` hold for a table with a cell over two columns and two overlapping cells over three rows. -/
example : ∃ t s', transformTable exMeasure [] ⟨⟨0, 0, 100, 200⟩⟩ zeroStyles ⟨[], []⟩
    [.mk ⟨[], []⟩ [.mk ⟨[], []⟩ 0 0 [], .mk ⟨[], []⟩ 2 0 []], .mk ⟨[], []⟩ [.mk ⟨[], []⟩ 0 3 [], .mk ⟨[], []⟩ 1 1 []],
     .mk ⟨[], []⟩ [.mk ⟨[], []⟩ 0 3 []]] () = some (t, s') ∧ NoOverlap t := by
  have hs : (transformTable exMeasure [] ⟨⟨0, 0, 100, 200⟩⟩ zeroStyles ⟨[], []⟩
    [.mk ⟨[], []⟩ [.mk ⟨[], []⟩ 0 0 [], .mk ⟨[], []⟩ 2 0 []], .mk ⟨[], []⟩ [.mk ⟨[], []⟩ 0 3 [], .mk ⟨[], []⟩ 1 1 []],
     .mk ⟨[], []⟩ [.mk ⟨[], []⟩ 0 3 []]] ()).isSome := by decide +kernel
  obtain ⟨p, hp⟩ := Option.isSome_iff_exists.mp hs
  have ht : p.1 = exT [.mk ⟨[], []⟩ [.mk ⟨[], []⟩ 0 0 [], .mk ⟨[], []⟩ 2 0 []], .mk ⟨[], []⟩ [.mk ⟨[], []⟩ 0 3 [], .mk ⟨[], []⟩ 1 1 []],
     .mk ⟨[], []⟩ [.mk ⟨[], []⟩ 0 3 []]] := by unfold exT; rw [hp]; rfl
  obtain ⟨h1, h2, h3⟩ := conditions_of (t := p.1) 5 (by rw [ht]; decide +kernel) (by rw [ht]; decide +kernel) (by rw [ht]; decide +kernel)
    (by rw [ht]; decide +kernel)
  exact ⟨p.1, p.2, hp, C25_partial hp h1 h2 h3⟩

/-- The conditions of `C26_wide` hold for a table with a cell over two of three columns of different widths, next to a cell over two rows. -/
example : ∃ t s', transformTable exMeasure [] ⟨⟨0, 0, 100, 200⟩⟩ zeroStyles ⟨[], []⟩
    [.mk ⟨[], []⟩ [.mk ⟨[[([3, 0], .flt 10)]], []⟩ 0 0 [], .mk ⟨[], []⟩ 2 0 []], .mk ⟨[], []⟩ [.mk ⟨[], []⟩ 0 2 [], .mk ⟨[[([3, 0], .flt 30)]], []⟩ 1 1 [], .mk ⟨[[([3, 0], .flt 60)]], []⟩ 1 1 []]] () = some (t, s') ∧
    RowsClear t ∧ Descending t ∧ (idsOf t 0)[1]? = some 1 ∧ isAuthored t 1 = true ∧ (t.dim 1).1 = 90 ∧ (t.dim 0).1 = 10 := by
  have hs : (transformTable exMeasure [] ⟨⟨0, 0, 100, 200⟩⟩ zeroStyles ⟨[], []⟩
    [.mk ⟨[], []⟩ [.mk ⟨[[([3, 0], .flt 10)]], []⟩ 0 0 [], .mk ⟨[], []⟩ 2 0 []], .mk ⟨[], []⟩ [.mk ⟨[], []⟩ 0 2 [], .mk ⟨[[([3, 0], .flt 30)]], []⟩ 1 1 [], .mk ⟨[[([3, 0], .flt 60)]], []⟩ 1 1 []]] ()).isSome := by
    decide +kernel
  obtain ⟨p, hp⟩ := Option.isSome_iff_exists.mp hs
  have ht : p.1 = exT [.mk ⟨[], []⟩ [.mk ⟨[[([3, 0], .flt 10)]], []⟩ 0 0 [], .mk ⟨[], []⟩ 2 0 []], .mk ⟨[], []⟩ [.mk ⟨[], []⟩ 0 2 [], .mk ⟨[[([3, 0], .flt 30)]], []⟩ 1 1 [], .mk ⟨[[([3, 0], .flt 60)]], []⟩ 1 1 []]] := by
    unfold exT; rw [hp]; rfl
  obtain ⟨_, h2, h3⟩ := conditions_of (t := p.1) 3 (by rw [ht]; decide +kernel) (by rw [ht]; decide +kernel) (by rw [ht]; decide +kernel)
    (by rw [ht]; decide +kernel)
  exact ⟨p.1, p.2, hp, h2, h3, by rw [ht]; decide +kernel⟩

end Verif.Props
