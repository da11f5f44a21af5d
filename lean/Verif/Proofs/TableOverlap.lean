import Verif.Proofs.TableLaid
/-
Positions of placeholders (C25).
-/
namespace Verif.Proofs
open Verif.Go Verif.Model Verif.Spec

theorem getElem?_insertAt_lt {l : List Nat} {p s j : Nat} (hj : j < p) (hp : p ≤ l.length) : (insertAt l p s)[j]? = l[j]? := by
  unfold insertAt
  rw [List.append_assoc, List.getElem?_append_left (by rw [List.length_take]; omega), List.getElem?_take, if_pos hj]

theorem getElem?_insertAt_eq {l : List Nat} {p s : Nat} (hp : p ≤ l.length) : (insertAt l p s)[p]? = some s := by
  unfold insertAt
  rw [List.append_assoc, List.getElem?_append_right (by rw [List.length_take]; omega), List.length_take]
  simp [hp]

/-- Row placeholders are in the column of their cell. -/
def RPos (A : Nat) (t : Tab) : Prop := ∀ (a i j : Nat), a < A → (rowAt t i)[j]? = some a → ∀ (n s : Nat), (t.cell a).spansRows[n]? = some s →
  (rowAt t (i + 1 + n))[j]? = some s

/-- Column placeholders are directly to the right of their cell. -/
def CPos (A : Nat) (t : Tab) : Prop := ∀ (a i j : Nat), a < A → (rowAt t i)[j]? = some a → ∀ (n s : Nat), (t.cell a).spansCols[n]? = some s →
  (rowAt t i)[j + 1 + n]? = some s

theorem nodup_index {l : List Nat} (h : l.Nodup) {i j x : Nat} (hi : l[i]? = some x) (hj : l[j]? = some x) : i = j := by
  have hl : i < l.length := by
    by_contra hc; rw [List.getElem?_eq_none (by omega)] at hi; simp at hi
  exact (List.getElem?_inj hl h).mp (hi.trans hj.symm)

theorem rowShadow_pos {H0 : List TCell} {orig : List (List Nat)} {t t' : Tab} {b ir sr ic : Nat} (hi : Inv H0 orig t)
    (hb : b < H0.length) (hbp : (rowAt t ir)[ic]? = some b) (hsr : sr = ir + 1 + (t.cell b).spansRows.length) (hle : sr ≤ t.rows.length)
    (hlow : ∀ r, ir < r → ∀ x ∈ rowAt t r, x < H0.length → (t.cell x).spansRows = [])
    (hleft : ∀ a i j n s, a < H0.length → a ≠ b → (rowAt t i)[j]? = some a → (t.cell a).spansRows[n]? = some s → i + 1 + n = sr → j < ic)
    (hcol : ∀ x ∈ rowAt t sr, x < H0.length → (t.cell x).spansCols = [])
    (hR : RPos H0.length t) (hC : CPos H0.length t) (h : rowShadow b ic sr t = some t') : RPos H0.length t' ∧ CPos H0.length t' := by
  have hbm := List.mem_of_getElem? hbp
  obtain ⟨t1, s0, zs, p1, p2, p3, p4, p5, p6, p7, p8, p9, p10, p11, p12⟩ := rowShadow_spec ic hi hb hbm hsr hle
  rw [h] at p1
  simp only [Option.some.injEq] at p1
  subst p1
  have hA := hi.len
  have hlen : ic ≤ (rowAt t sr ++ zs).length := by rw [List.length_append, p10]; omega
  -- authored cells of row `sr` were there before
  have hold : ∀ a i, a < H0.length → a ∈ rowAt t' i → a ∈ rowAt t i := by
    intro a i ha hm
    by_cases e : i = sr
    · subst e
      rw [p12, mem_insertAt, List.mem_append] at hm
      rcases hm with (hm | hm) | hm
      · exact hm
      · have := (p11 a hm).1; omega
      · omega
    · rw [p9 i e] at hm; exact hm
  have hbcell : ∀ a, a < H0.length → a ≠ b → t'.cell a = t.cell a := fun a ha hne => p8 a (by omega) hne
  constructor
  · intro a i j ha hp n s hs
    have hm := hold a i ha (List.mem_of_getElem? hp)
    by_cases hab : a = b
    · subst hab
      have hii : i = ir := hi.inj _ _ _ hm hbm
      subst hii
      rw [p9 i (by omega)] at hp
      have hj : j = ic := nodup_index (hi.nod i) hp hbp
      subst hj
      rw [p5] at hs
      simp only at hs
      rcases Nat.lt_or_ge n (t.cell a).spansRows.length with hn | hn
      · rw [List.getElem?_append_left hn] at hs
        rw [p9 _ (by omega)]
        exact hR a i j ha hp n s hs
      · rw [List.getElem?_append_right hn] at hs
        have hn' : n = (t.cell a).spansRows.length := by
          by_contra hne
          rw [List.getElem?_eq_none (by simp; omega)] at hs
          simp at hs
        subst hn'
        simp at hs
        subst hs
        rw [← hsr, p12, getElem?_insertAt_eq hlen]
    · rw [hbcell a ha hab] at hs
      have hne : i ≠ sr := by
        rintro rfl
        rw [hlow i (by omega) a hm ha] at hs
        simp at hs
      rw [p9 i hne] at hp
      have hold' := hR a i j ha hp n s hs
      by_cases e : i + 1 + n = sr
      · have hlt := hleft a i j n s ha hab hp hs e
        rw [e, p12, getElem?_insertAt_lt hlt hlen]
        rw [e] at hold'
        have hjl : j < (rowAt t sr).length := by
          by_contra hc; rw [List.getElem?_eq_none (by omega)] at hold'; simp at hold'
        rw [List.getElem?_append_left hjl]
        exact hold'
      · rw [p9 _ e]; exact hold'
  · intro a i j ha hp n s hs
    have hm := hold a i ha (List.mem_of_getElem? hp)
    have hsc : (t'.cell a).spansCols = (t.cell a).spansCols := by
      by_cases hab : a = b
      · subst hab; rw [p5]
      · rw [hbcell a ha hab]
    rw [hsc] at hs
    have hne : i ≠ sr := by
      rintro rfl
      rw [hcol a hm ha] at hs
      simp at hs
    rw [p9 i hne] at hp ⊢
    exact hC a i j ha hp n s hs

theorem rowShadows_pos {H0 : List TCell} {orig : List (List Nat)} (b ic ir : Nat) (n : Nat) : ∀ (t t' : Tab) (sr : Nat), Inv H0 orig t →
    b < H0.length → (rowAt t ir)[ic]? = some b → sr = ir + 1 + (t.cell b).spansRows.length → sr ≤ t.rows.length →
    (∀ r, ir < r → ∀ x ∈ rowAt t r, x < H0.length → (t.cell x).spansRows = []) →
    (∀ a i j n s, a < H0.length → a ≠ b → (rowAt t i)[j]? = some a → (t.cell a).spansRows[n]? = some s → ir < i + 1 + n → j < ic) →
    (∀ r, sr ≤ r → r < sr + n → ∀ x ∈ rowAt t r, x < H0.length → (t.cell x).spansCols = []) →
    RPos H0.length t → CPos H0.length t → rowShadows b ic n sr t = some t' → RPos H0.length t' ∧ CPos H0.length t' := by
  induction n with
  | zero =>
    intro t t' sr _ _ _ _ _ _ _ _ hR hC h
    simp [rowShadows] at h
    subst h
    exact ⟨hR, hC⟩
  | succ n ih =>
    intro t t' sr hi hb hbp hsr hle hlow hleft hcol hR hC h
    have hbm := List.mem_of_getElem? hbp
    obtain ⟨t1, s0, zs, p1, p2, p3, p4, p5, p6, p7, p8, p9, p10, p11, p12⟩ := rowShadow_spec ic hi hb hbm hsr hle
    have hA := hi.len
    rw [rowShadows, p1] at h
    simp only at h
    obtain ⟨hR1, hC1⟩ := rowShadow_pos hi hb hbp hsr hle hlow
      (fun a i j n s h1 h2 h3 h4 h5 => hleft a i j n s h1 h2 h3 h4 (by omega))
      (fun x hx hxA => hcol sr (le_refl _) (by omega) x hx hxA) hR hC p1
    have hold : ∀ a i, a < H0.length → a ∈ rowAt t1 i → a ∈ rowAt t i := by
      intro a i ha hm
      by_cases e : i = sr
      · subst e
        rw [p12, mem_insertAt, List.mem_append] at hm
        rcases hm with (hm | hm) | hm
        · exact hm
        · have := (p11 a hm).1; omega
        · omega
      · rw [p9 i e] at hm; exact hm
    have hlow1 : ∀ r, ir < r → ∀ x ∈ rowAt t1 r, x < H0.length → (t1.cell x).spansRows = [] := by
      intro r hr x hx hxA
      have hx' := hold x r hxA hx
      have hxb : x ≠ b := by
        rintro rfl
        have := hi.inj _ _ _ hx' hbm
        omega
      rw [p8 x (by omega) hxb]
      exact hlow r hr x hx' hxA
    refine ih t1 t' (sr + 1) p2 hb (by rw [p9 ir (by omega)]; exact hbp) (by rw [p5]; simp; omega) (by rw [p3]; omega) hlow1 ?_ ?_ hR1 hC1 h
    · intro a i j n s ha hab hp hs hlt
      have hm := hold a i ha (List.mem_of_getElem? hp)
      have hne : i ≠ sr := by
        rintro rfl
        rw [hlow1 i (by omega) a (List.mem_of_getElem? hp) ha] at hs
        simp at hs
      rw [p9 i hne] at hp
      rw [p8 a (by omega) hab] at hs
      exact hleft a i j n s ha hab hp hs hlt
    · intro r h1 h2 x hx hxA
      have hx' := hold x r hxA hx
      have hxb : x ≠ b := by
        rintro rfl
        have := hi.inj _ _ _ hx' hbm
        omega
      rw [p8 x (by omega) hxb]
      exact hcol r (by omega) (by omega) x hx' hxA

/-- Rows reached from above hold no cells over several columns. -/
def ColFree (H0 : List TCell) (orig : List (List Nat)) : Prop := ∀ (i k b x : Nat), b ∈ orig.getD i [] → 0 < k →
  (k : Int) < (H0.getD b TCell.new).rowSpan → x ∈ orig.getD (i + k) [] → (H0.getD x TCell.new).colSpan ≤ 1

theorem rowSpanCells_pos {H0 : List TCell} {orig : List (List Nat)} (ir : Nat) (hcf : ColFree H0 orig) : ∀ (ids : List Nat) (ic : Nat) (t t' : Tab),
    Inv H0 orig t → ids = (rowAt t ir).drop ic → ir < t.rows.length →
    (∀ x ∈ ids, x < H0.length → (t.cell x).spansRows = []) →
    (∀ r, ir < r → ∀ x ∈ rowAt t r, x < H0.length → (t.cell x).spansRows = []) →
    (∀ x, x < H0.length → (t.cell x).spansCols.length = ((H0.getD x TCell.new).colSpan - 1).toNat) →
    (∀ (b j' : Nat), b < H0.length → (rowAt t ir)[j']? = some b → 1 < (H0.getD b TCell.new).rowSpan →
      ∀ (a i j n s : Nat), a < H0.length → i < ir → (rowAt t i)[j]? = some a → (t.cell a).spansRows[n]? = some s → ir < i + 1 + n → j < j') →
    (∀ r, orig.length ≤ r → r < t.rows.length → ∃ s ∈ rowAt t r, (t.cell s).spannedBy.isSome) →
    RPos H0.length t → CPos H0.length t → rowSpanCells ir ic ids t = some t' → RPos H0.length t' ∧ CPos H0.length t' := by
  intro ids
  induction ids with
  | nil =>
    intro ic t t' _ _ _ _ _ _ _ _ hR hC h
    simp [rowSpanCells] at h
    subst h
    exact ⟨hR, hC⟩
  | cons id ids ih =>
    intro ic t t' hi hids hir hsr hlow hsc hst hT hR hC h
    have hicl : ic < (rowAt t ir).length := by
      by_contra hc
      rw [List.drop_eq_nil_of_le (by omega)] at hids
      simp at hids
    have hdrop := List.drop_eq_getElem_cons hicl
    rw [hdrop] at hids
    simp only [List.cons.injEq] at hids
    obtain ⟨hid, hids'⟩ := hids
    have hpos : (rowAt t ir)[ic]? = some id := by rw [List.getElem?_eq_getElem hicl, hid]
    have hmem := List.mem_of_getElem? hpos
    have hnod : (id :: ids).Nodup := by
      rw [hid, hids', ← hdrop]
      exact (List.drop_sublist ic _).nodup (hi.nod ir)
    have hidn := (List.nodup_cons.mp hnod).1
    unfold rowSpanCells at h
    simp only at h
    have skip : rowSpanCells ir (ic + 1) ids t = some t' → RPos H0.length t' ∧ CPos H0.length t' := fun h =>
      ih (ic + 1) t t' hi hids' hir (fun x hx => hsr x (by simp [hx])) hlow hsc hst hT hR hC h
    by_cases h1 : (t.cell id).rowSpan ≤ 1
    · rw [if_pos h1] at h; exact skip h
    · rw [if_neg h1] at h
      by_cases h2 : (t.cell id).spannedBy.isSome ∨ (t.cell id).zero = true
      · rw [if_pos h2] at h; exact skip h
      · rw [if_neg h2] at h
        have hA : id < H0.length := by
          by_contra hc
          have hmade := hi.made id (by omega) (hi.bound _ _ hmem)
          apply h2
          rcases hmade.2.2.2.2 with ⟨a, _, h, _⟩ | ⟨_, h⟩
          · left; rw [h]; rfl
          · right; exact h
        have hrs : (t.cell id).rowSpan = (H0.getD id TCell.new).rowSpan := (hi.authored id hA).2.2.2.1
        have hlenA := hi.len
        obtain ⟨t1, p1, p2, p3, p4, p5, p6, p7, p8, p9⟩ := rowShadows_spec id ic ((t.cell id).rowSpan - 1).toNat t ir (ir + 1) hi hA
          hmem (by rw [hsr id (by simp) hA]; rfl) (by omega) hT
        rw [p1] at h
        simp only at h
        obtain ⟨hR1, hC1⟩ := rowShadows_pos id ic ir _ t t1 (ir + 1) hi hA hpos (by rw [hsr id (by simp) hA]; rfl) (by omega) hlow
          (by
            intro a i j n s ha hab hp hs hlt
            rcases Nat.lt_trichotomy i ir with q | q | q
            · exact hst id ic hA hpos (by omega) a i j n s ha q hp hs hlt
            · subst q
              by_contra hc
              have hin : a ∈ id :: ids := by
                rw [hid, hids', ← hdrop]
                have : (List.drop ic (rowAt t i))[j - ic]? = some a := by
                  rw [List.getElem?_drop]
                  rw [show ic + (j - ic) = j by omega]
                  exact hp
                exact List.mem_of_getElem? this
              rw [hsr a hin ha] at hs
              simp at hs
            · rw [hlow i q a (List.mem_of_getElem? hp) ha] at hs
              simp at hs)
          (by
            intro r h1' h2' x hx hxA
            have hx' := (hi.mem_orig r x).mpr ⟨hx, hxA⟩
            have hb' := (hi.mem_orig ir id).mpr ⟨hmem, hA⟩
            have hcs := hcf ir (r - ir) id x hb' (by omega) (by omega) (by rw [show ir + (r - ir) = r by omega]; exact hx')
            have := hsc x hxA
            apply List.length_eq_zero_iff.mp
            omega)
          hR hC p1
        have hrow1 : rowAt t1 ir = rowAt t ir := p9 ir (by omega)
        refine ih (ic + 1) t1 t' p2 (by rw [hrow1]; exact hids') (by omega) ?_ ?_ ?_ ?_ p5 hR1 hC1 h
        · intro x hx hxA
          rw [p8 x (by omega) (by rintro rfl; exact hidn hx)]
          exact hsr x (by simp [hx]) hxA
        · intro r hr x hx hxA
          have hx' : x ∈ rowAt t r := by
            have := (p2.mem_orig r x).mpr ⟨hx, hxA⟩
            exact ((hi.mem_orig r x).mp this).1
          have hxb : x ≠ id := by
            rintro rfl
            have := hi.inj _ _ _ hx' hmem
            omega
          rw [p8 x (by omega) hxb]
          exact hlow r hr x hx' hxA
        · intro x hxA
          by_cases e : x = id
          · subst e; rw [p7]; exact hsc x hxA
          · rw [p8 x (by omega) e]; exact hsc x hxA
        · intro b j' hbA hbp hbr a i j n s ha hlt hp hs hlt'
          rw [hrow1] at hbp
          rw [p9 i (by omega)] at hp
          have hab : a ≠ id := by
            rintro rfl
            have := hi.inj _ _ _ (List.mem_of_getElem? hp) hmem
            omega
          rw [p8 a (by omega) hab] at hs
          exact hst b j' hbA hbp hbr a i j n s ha hlt hp hs hlt'

/-- Of two cells over several rows, the one starting lower is to the right, if the upper one goes on below. -/
def Stairs (H0 : List TCell) (t : Tab) : Prop := ∀ (a i j b i' j' : Nat), a < H0.length → b < H0.length → (rowAt t i)[j]? = some a →
  (rowAt t i')[j']? = some b → i < i' → ((i' + 1 : Nat) : Int) < i + (H0.getD a TCell.new).rowSpan → 1 < (H0.getD b TCell.new).rowSpan → j < j'

theorem rowSpanRows_pos {H0 : List TCell} {orig : List (List Nat)} (hcf : ColFree H0 orig) : ∀ (n ir : Nat) (t t' : Tab), Inv H0 orig t →
    ir + n = orig.length → orig.length ≤ t.rows.length →
    (∀ r, ir ≤ r → ∀ x ∈ orig.getD r [], (t.cell x).spansRows = []) →
    (∀ r, r < ir → ∀ x ∈ orig.getD r [], (t.cell x).spansRows.length = ((H0.getD x TCell.new).rowSpan - 1).toNat) →
    (∀ x, x < H0.length → (t.cell x).spansCols.length = ((H0.getD x TCell.new).colSpan - 1).toNat) →
    (∀ r, orig.length ≤ r → r < t.rows.length → ∃ s ∈ rowAt t r, (t.cell s).spannedBy.isSome) →
    Stairs H0 t' → RPos H0.length t → CPos H0.length t → rowSpanRows n ir t = some t' → RPos H0.length t' ∧ CPos H0.length t' := by
  intro n
  induction n with
  | zero =>
    intro ir t t' _ _ _ _ _ _ _ _ hR hC h
    simp [rowSpanRows] at h
    subst h
    exact ⟨hR, hC⟩
  | succ n ih =>
    intro ir t t' hi hn hle hsr hdone hsc hT hst hR hC h
    have hlt : ir < t.rows.length := by omega
    have hget : t.rows[ir]? = some t.rows[ir] := List.getElem?_eq_getElem hlt
    have hcells : t.rows[ir].cells = rowAt t ir := (rowAt_of_getElem? hget).symm
    obtain ⟨t2, _, _, _, _, _, _, _, s8⟩ := rowSpanRows_spec (n + 1) ir t hi hn hle hsr hT
    rename_i heq _ _ _ _ _ _
    rw [h] at heq
    simp only [Option.some.injEq] at heq
    subst heq
    obtain ⟨t1, p1, p2, p3, p4, p5, p6, p7, p8, p9⟩ := rowSpanCells_spec ir (rowAt t ir) 0 t hi (fun _ h => h) (hi.nod ir)
      (fun x hx hA => hsr ir (le_refl _) x ((hi.mem_orig ir x).mpr ⟨hx, hA⟩)) hlt hT
    rw [rowSpanRows, hget] at h
    simp only [hcells, p1] at h
    have hother : ∀ r, r ≠ ir → ∀ x ∈ orig.getD r [], t1.cell x = t.cell x := by
      intro r h x hx
      rw [hi.mem_orig] at hx
      exact p7 x hx.2 (fun h' => h (hi.inj _ _ _ hx.1 h'))
    obtain ⟨hR1, hC1⟩ := rowSpanCells_pos ir hcf (rowAt t ir) 0 t t1 hi (by simp) hlt
      (fun x hx hA => hsr ir (le_refl _) x ((hi.mem_orig ir x).mpr ⟨hx, hA⟩))
      (fun r hr x hx hA => hsr r (by omega) x ((hi.mem_orig r x).mpr ⟨hx, hA⟩)) hsc
      (by
        intro b j' hbA hbp hbr a i j n s ha hlt' hp hs hlt''
        refine hst a i j b ir j' ha hbA (by rw [s8 i (by omega)]; exact hp) (by rw [s8 ir (le_refl _)]; exact hbp) hlt' ?_ hbr
        have hl := hdone i hlt' a ((hi.mem_orig i a).mpr ⟨List.mem_of_getElem? hp, ha⟩)
        have hnl : n < (t.cell a).spansRows.length := by
          by_contra hc; rw [List.getElem?_eq_none (by omega)] at hs; simp at hs
        omega) hT hR hC p1
    refine ih (ir + 1) t1 t' p2 (by omega) (by omega) ?_ ?_ ?_ p5 hst hR1 hC1 h
    · intro r hr x hx
      rw [hother r (by omega) x hx]; exact hsr r (by omega) x hx
    · intro r hr x hx
      by_cases e : r = ir
      · subst e
        have := (hi.mem_orig r x).mp hx
        exact p6 x this.1 this.2
      · rw [hother r e x hx]; exact hdone r (by omega) x hx
    · intro x hx
      rw [p8 x hx]; exact hsc x hx

theorem colSpans_CPos {H0 : List TCell} {orig : List (List Nat)} {t : Tab} (hi : Inv H0 orig t)
    (hrow : ∀ r, rowAt t r = (orig.getD r []).flatMap (fun x => x :: (t.cell x).spansCols)) : CPos H0.length t := by
  intro a i j ha hp n s hs
  have hmem : a ∈ orig.getD i [] := (hi.mem_orig i a).mpr ⟨List.mem_of_getElem? hp, ha⟩
  obtain ⟨pre, post, hsplit⟩ := List.append_of_mem hmem
  have hr := hrow i
  rw [hsplit, List.flatMap_append, List.flatMap_cons] at hr
  set P := pre.flatMap (fun x => x :: (t.cell x).spansCols) with hP
  set Q := post.flatMap (fun x => x :: (t.cell x).spansCols)
  have hpos : (rowAt t i)[P.length]? = some a := by
    rw [hr, List.getElem?_append_right (le_refl _)]; simp
  have hj := nodup_index (hi.nod i) hp hpos
  subst hj
  have hn : n < (t.cell a).spansCols.length := by
    by_contra hc; rw [List.getElem?_eq_none (by omega)] at hs; simp at hs
  rw [hr, List.getElem?_append_right (by omega), show P.length + 1 + n - P.length = n + 1 by omega, List.cons_append,
    List.getElem?_cons_succ, List.getElem?_append_left hn]
  exact hs

/-- Positions after span processing. -/
theorem processSpans_pos {H0 : List TCell} {orig : List (List Nat)} {t t' : Tab} (h : Fresh H0 orig t) (hcf : ColFree H0 orig)
    (hp : processSpans t = some t') (hst : Stairs H0 t') : RPos H0.length t' ∧ CPos H0.length t' := by
  obtain ⟨c1, c2, c3, c4, c5⟩ := processColumnSpans_spec h
  obtain ⟨t1, q1, q2, q3, q4, q5, _, q7, _⟩ := rowSpanRows_spec orig.length 0 (processColumnSpans t) c1 (by omega) (by omega)
    (fun r _ x hx => c5 x (h.lt hx)) (fun r h1 h2 => by omega)
  obtain ⟨n1, n2, n3, n4, n5, n6, n7⟩ := normalize_spec q2 q4
  have he : t' = normalize t1 := by
    rw [processSpans, processRowSpans, c2, q1] at hp
    simpa using hp.symm
  subst he
  have hlift : ∀ (r j x : Nat), (rowAt t1 r)[j]? = some x → (rowAt (normalize t1) r)[j]? = some x := by
    intro r j x hx
    obtain ⟨zs, hz, _⟩ := n7 r
    have hjl : j < (rowAt t1 r).length := by
      by_contra hc; rw [List.getElem?_eq_none (by omega)] at hx; simp at hx
    rw [hz, List.getElem?_append_left hjl]; exact hx
  have hdown : ∀ (r j a : Nat), a < H0.length → (rowAt (normalize t1) r)[j]? = some a → (rowAt t1 r)[j]? = some a := by
    intro r j a ha hx
    obtain ⟨zs, hz, hzb⟩ := n7 r
    rw [hz] at hx
    rcases Nat.lt_or_ge j (rowAt t1 r).length with hjl | hjl
    · rw [List.getElem?_append_left hjl] at hx; exact hx
    · rw [List.getElem?_append_right hjl] at hx
      have := hzb a (List.mem_of_getElem? hx)
      omega
  have hst1 : Stairs H0 t1 := fun a i j b i' j' h1 h2 h3 h4 => hst a i j b i' j' h1 h2 (hlift i j a h3) (hlift i' j' b h4)
  obtain ⟨hR1, hC1⟩ := rowSpanRows_pos hcf orig.length 0 (processColumnSpans t) t1 c1 (by omega) (by omega)
    (fun r _ x hx => c5 x (h.lt hx)) (fun r hr => by omega) c4 (fun r h1 h2 => by omega) hst1
    (fun a i j ha _ n s hs => by rw [c5 a ha] at hs; simp at hs) (colSpans_CPos c1 c3) q1
  constructor
  · intro a i j ha hpos n s hs
    rw [(n6 a ha).2.2.2.2.2.2.1] at hs
    exact hlift _ _ _ (hR1 a i j ha (hdown i j a ha hpos) n s hs)
  · intro a i j ha hpos n s hs
    rw [(n6 a ha).2.2.2.2.2.1] at hs
    exact hlift _ _ _ (hC1 a i j ha (hdown i j a ha hpos) n s hs)

theorem Shape.pos {t t' : Tab} {A : Nat} (h : Shape t t') (hp : RPos A t ∧ CPos A t) : RPos A t' ∧ CPos A t' := by
  obtain ⟨_, _, _, s4, s5⟩ := h
  constructor
  · intro a i j ha hpos n s hs
    rw [s4] at hpos ⊢
    rw [(s5 a).1.2.2.2.2.2.2.1] at hs
    exact hp.1 a i j ha hpos n s hs
  · intro a i j ha hpos n s hs
    rw [s4] at hpos ⊢
    rw [(s5 a).1.2.2.2.2.2.1] at hs
    exact hp.2 a i j ha hpos n s hs

end Verif.Proofs
