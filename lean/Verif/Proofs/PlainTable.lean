import Verif.Proofs.AlikeTable
import Verif.Proofs.TableLaid
import Verif.Proofs.Stacked
import Verif.Proofs.Words
/-
Tables of texts without page numbers are laid out the same in every state.
-/
namespace Verif.Proofs
open Verif.Go Verif.Model Verif.Spec

/-- Words and line breaks, without the page number. -/
def PlainWords (iss : List Instr) : Prop := ∀ i ∈ iss, (∃ t, i = .textBlock t ∧ ¬ b!"{cp}" <:+: t) ∨ i = .lineBreak

variable {p : Paper} {ctx : Ctx}

private theorem pieces_plain {t : Str} (h : ¬ b!"{cp}" <:+: t) (page : Int) : piecesOf page t = piecesOf 1 t := by
  unfold piecesOf
  rw [replaceAll_none (by decide) h, replaceAll_none (by decide) h]

private theorem wordsOn_plain {sty : Styles} : ∀ {iss : List Instr}, PlainWords iss → ∀ page, wordsOn ctx page sty iss = wordsOn ctx 1 sty iss
  | [], _, page => by unfold wordsOn; simp only [tokens, blockTokens]
  | i :: iss, h, page => by
    have ih := wordsOn_plain (sty := sty) (iss := iss) (fun j hj => h j (List.mem_cons_of_mem _ hj)) page
    unfold wordsOn at ih ⊢
    rcases h i (List.mem_cons_self ..) with ⟨t, rfl, ht⟩ | rfl
    · by_cases hb : sty.align.h = b!"block"
      · simp only [if_pos hb] at ih ⊢
        simp only [blockTokens]
        rw [ih, pieces_plain ht page]
      · simp only [if_neg hb] at ih ⊢
        simp only [tokens, wordsOf]
        rw [ih, pieces_plain ht page]
    · by_cases hb : sty.align.h = b!"block"
      · simp only [if_pos hb] at ih ⊢
        simp only [blockTokens]
        rw [ih]
      · simp only [if_neg hb] at ih ⊢
        simp only [tokens]
        rw [ih]

/-- The height of a text of one font, as from C97 and C98: that of its lines. -/
def plainHeight (p : Paper) (ctx : Ctx) (sty : Styles) (iss : List Instr) (W : ℚ) : ℚ :=
  linesHeight (lineCount p ctx W sty (wordsOn ctx 1 sty iss)) (lineHeight sty.font) sty.dim.lineSpacing

theorem height_plain {sty : Styles} {iss : List Instr} {W : ℚ} (h : PlainWords iss) (s : PState Fpdf) :
    (textHeightFnc (Fpdf.engine p) ctx sty iss W s).1 = plainHeight p ctx sty iss W := by
  have hst : ∀ st t, Instr.paragraph st t ∈ iss → (st.mutatedStyles ctx.classes sty).font = sty.font := by
    intro st t hm
    rcases h _ hm with ⟨t, e, -⟩ | e <;> exact nomatch e
  have hP : ∀ (sty' : Styles) (s : PState Fpdf), sty'.font = sty.font → s.eng.font = sty.font → (changeFont (Fpdf.engine p) sty'.font s).eng.font = sty.font :=
    fun _ _ h _ => h
  have hs0 : ({ s with eng := (Fpdf.engine p).changeFont sty.font s.eng } : PState Fpdf).eng.font = sty.font := rfl
  unfold textHeightFnc plainHeight
  rw [← wordsOn_plain h s.eng.page]
  by_cases hb : sty.align.h = b!"block"
  · rw [if_pos hb]
    obtain ⟨_, k3⟩ := textLinesHyph_both (p := p) (ctx := ctx) (K := fun sty' => sty'.font = sty.font) (P := fun s => s.eng.font = sty.font) (W := W) hP rfl hst hs0
    have l3 := textLinesHyph_eq (measures_paper p) (hyph := ctx.hyphenate) (cs := ctx.classes) (width := W) (sty := sty) iss
      { s with eng := (Fpdf.engine p).changeFont sty.font s.eng }
    show linesHeight (textLinesHyphenated _ _ _ _ _ _ _).1.length _ _ = _
    rw [l3, List.length_map]
    unfold lineCount wordsOn
    rw [if_pos hb, if_pos hb]
    exact congrArg (fun x => linesHeight _ x _) (congrArg lineHeight k3)
  · rw [if_neg hb]
    obtain ⟨_, k3⟩ := textLines_both (p := p) (ctx := ctx) (K := fun sty' => sty'.font = sty.font) (P := fun s => s.eng.font = sty.font) (W := W) hP rfl hst hs0
    have l3 := textLines_eq (measures_paper p) (cs := ctx.classes) (width := W) (sty := sty) iss { s with eng := (Fpdf.engine p).changeFont sty.font s.eng }
    show linesHeight (textLines _ _ _ _ _ _).1.length _ _ = _
    rw [l3, List.length_map]
    unfold lineCount wordsOn
    rw [if_neg hb, if_neg hb]
    exact congrArg (fun x => linesHeight _ x _) (congrArg lineHeight k3)

/-! ### The cells of a table -/

private theorem makeCells_iss {P : List Instr → Prop} {cs : Classes} {sty : Styles} {n : Nat} : ∀ (ic : Nat) (xcs : List TableCell) (heap : List TCell),
    (∀ c ∈ xcs, P c.iss) → (∀ c ∈ heap, P c.iss) → ∀ c ∈ (makeCells cs sty n ic xcs heap).1, P c.iss
  | _, [], _, _, h => h
  | ic, xc :: xcs, heap, hx, h => by
    refine makeCells_iss (ic + 1) xcs _ (fun c hc => hx c (List.mem_cons_of_mem _ hc)) fun c hc => ?_
    rcases List.mem_append.mp hc with hc | hc
    · exact h c hc
    · rw [List.mem_singleton.mp hc]
      exact hx xc (List.mem_cons_self ..)

private theorem makeRows_iss {P : List Instr → Prop} {cs : Classes} {sty : Styles} {n : Nat} : ∀ (ir : Nat) (xrs : List TableRow) (heap : List TCell),
    (∀ r ∈ xrs, ∀ c ∈ r.cells, P c.iss) → (∀ c ∈ heap, P c.iss) → ∀ c ∈ (makeRows cs sty n ir xrs heap).1, P c.iss
  | _, [], _, _, h => h
  | ir, xr :: xrs, heap, hx, h => by
    exact makeRows_iss (ir + 1) xrs _ (fun r hr => hx r (List.mem_cons_of_mem _ hr)) (makeCells_iss 0 _ _ (hx xr (List.mem_cons_self ..)) h)

private def Both (P : List Instr → Prop) (a b : List Instr) : Prop := a = b ∧ (P a ∨ a = [])

private instance (P : List Instr → Prop) : Seen Eq (Both P) where
  refl _ := rfl
  nil := ⟨rfl, .inr rfl⟩
  columnWidth h := by rw [h]
  height h := by rw [h]
  padding h := by rw [h]

private theorem both_refl {P : List Instr → Prop} : ∀ (heap : List TCell), (∀ c ∈ heap, P c.iss) → List.Forall₂ (CellLike Eq (Both P)) heap heap
  | [], _ => .nil
  | c :: heap, h => .cons ⟨⟨rfl, .inl (h c (List.mem_cons_self ..))⟩, rfl, rfl⟩ (both_refl heap fun c hc => h c (List.mem_cons_of_mem _ hc))

private theorem cell_eq {P : List Instr → Prop} {c c' : TCell} (h : CellLike Eq (Both P) c c') : c = c' := by
  obtain ⟨⟨h1, -⟩, h2, h3⟩ := h
  cases c; cases c'
  simp only [TCell.mk.injEq, true_and] at h1 h2 h3 ⊢
  simp_all

private theorem tab_eq {P : List Instr → Prop} {t t' : Tab} (h : TabLike Eq (Both P) t t') : t = t' := by
  have : t.heap = t'.heap := by
    have := h.heap
    revert this
    generalize t.heap = l
    generalize t'.heap = l'
    intro h
    induction h with
    | nil => rfl
    | cons h _ ih => rw [cell_eq h, ih]
  obtain ⟨a, b, -⟩ := h
  cases t; cases t'
  simp_all

/-- Measures that agree on the contents of the cells lay out the table in the same way. -/
theorem transformTable_on {σ : Type} {m m' : Measure σ} {P : List Instr → Prop} (hm : ∀ sty iss w s, P iss ∨ iss = [] → m' sty iss w s = m sty iss w s)
    (cs : Classes) (page : Page) (curr : Styles) (st : Styled) (xrows : List TableRow) (h : ∀ r ∈ xrows, ∀ c ∈ r.cells, P c.iss) (s : σ) :
    transformTable m' cs page curr st xrows s = transformTable m cs page curr st xrows s := by
  unfold transformTable
  simp only
  have h0 : TabLike Eq (Both P) (makeTable cs (st.mutatedStyles cs curr) xrows) (makeTable cs (st.mutatedStyles cs curr) xrows) :=
    ⟨rfl, rfl, both_refl _ (makeRows_iss 0 xrows [] h (by simp))⟩
  have h1 := processSpans_like h0
  cases e1 : processSpans (makeTable cs (st.mutatedStyles cs curr) xrows) with
  | none => rfl
  | some t =>
    rw [e1] at h1
    have h2 := assignColumnWidths_like (page.effectiveWidth (st.mutatedStyles cs curr).dim.width) (show TabLike Eq (Both P) t t from h1)
    simp only
    cases e2 : assignColumnWidths (page.effectiveWidth (st.mutatedStyles cs curr).dim.width) t with
    | none => rfl
    | some t' =>
      rw [e2] at h2
      obtain ⟨h3, h4⟩ := assignHeights_like (m := m) (m' := m') (fun sty sty' iss iss' w s hs hi => by
        subst hs
        obtain ⟨rfl, hi⟩ := hi
        exact hm _ _ _ _ hi) (show TabLike Eq (Both P) t' t' from h2) s
      exact congrArg some (Prod.ext (tab_eq h3).symm h4)

/-- A table of texts without page numbers is laid out the same in every state. -/
theorem transformTable_plain {cs : Classes} {page : Page} {curr : Styles} {st : Styled} {rows : List TableRow} (h : ∀ r ∈ rows, ∀ c ∈ r.cells, PlainWords c.iss)
    (s : PState Fpdf) : (transformTable (textHeightFnc (Fpdf.engine p) ctx) cs page curr st rows s).map Prod.fst =
      (transformTable (fun sty iss W (_ : Unit) => (plainHeight p ctx sty iss W, ())) cs page curr st rows ()).map Prod.fst := by
  rw [transformTable_on (m := fun sty iss w s => (plainHeight p ctx sty iss w, (textHeightFnc (Fpdf.engine p) ctx sty iss w s).2)) (P := PlainWords)
    (fun sty iss w s hi => Prod.ext (height_plain (by rcases hi with hi | rfl; exact hi; exact fun _ h => nomatch h) s) rfl) cs page curr st rows h s]
  have := transformTable_nat (m := fun sty iss W (_ : Unit) => (plainHeight p ctx sty iss W, ()))
    (m' := fun sty iss w s => (plainHeight p ctx sty iss w, (textHeightFnc (Fpdf.engine p) ctx sty iss w s).2)) (f := fun _ => ()) (fun _ _ _ _ => rfl)
    cs page curr st rows s
  rw [this, Option.map_map]
  rfl

end Verif.Proofs
