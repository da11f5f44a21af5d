import Verif.Spec.Pictures
import Verif.Proofs.Words
/-
From the images of the XML file to those on the pages (C95).
-/
namespace Verif.Proofs
open Verif.Go Verif.Model Verif.Spec

variable {fl : Floats} {ord : Nat → MapOrder} {m : Means}

theorem picturesAll_append : ∀ a b : List Node, picturesAll (a ++ b) = picturesAll a ++ picturesAll b
  | [], b => by simp [picturesAll]
  | nd :: a, b => by simp [picturesAll, picturesAll_append a b]

/-- Among what is put are the images, in order. -/
def Pics (m : Means) (srcs : List Str) (ps : List Put) : Prop := (srcs.flatMap m.image).Sublist ps

theorem Pics.nil (ps : List Put) : Pics m [] ps := List.nil_sublist _

theorem Pics.append {a b : List Str} {ps qs : List Put} (h : Pics m a ps) (h' : Pics m b qs) : Pics m (a ++ b) (ps ++ qs) := by
  unfold Pics
  rw [List.flatMap_append]
  exact List.Sublist.append h h'

theorem Pics.mono {a : List Str} {ps qs : List Put} (h : Pics m a ps) (hs : ps.Sublist qs) : Pics m a qs := List.Sublist.trans h hs

theorem outcome_image {as : List Attr} {kids : List Node} : outcome fl ord (.elem b!"image" as kids) =
    .of ((newStyled fl ord as).map (.image · (directText kids))) := by
  unfold outcome
  rw [if_neg (by decide), if_pos rfl]

/-- The images of a cell. -/
theorem items_pics : ∀ (kids : List Node) (iss : List Instr) (ps : List Put), (∀ nd ∈ kids, PicItem fl ord nd) →
    leniently fl ord true kids = some iss → InTurn (ItemPuts m) iss ps → Pics m (picturesAll kids) ps
  | [], _, _, _, _, _ => .nil _
  | .chars t :: ns, iss, ps, hl, h, hp => by
    rw [leniently] at h
    obtain ⟨r, hr, rfl⟩ := Option.map_eq_some_iff.mp h
    have hq : ∃ qs, InTurn (ItemPuts m) r qs ∧ qs.Sublist ps := by
      by_cases h0 : t = []
      · subst h0; exact ⟨ps, by simpa using hp, .refl _⟩
      · rw [if_pos ⟨rfl, h0⟩] at hp
        cases hp with
        | cons h1 h2 => exact ⟨_, h2, List.sublist_append_right ..⟩
    obtain ⟨qs, hq, hsub⟩ := hq
    exact (items_pics ns r qs (fun nd hm => hl nd (by simp [hm])) hr hq).mono hsub
  | .other :: ns, iss, ps, hl, h, hp => by
    simp only [leniently] at h
    exact items_pics ns iss ps (fun nd hm => hl nd (by simp [hm])) h hp
  | .elem name as kids :: ns, iss, ps, hl, h, hp => by
    have hn : ∀ nd ∈ ns, PicItem fl ord nd := fun nd hm => hl nd (by simp [hm])
    have h0 : PicItem fl ord (.elem name as kids) := hl _ (List.mem_cons_self ..)
    rw [picturesAll]
    cases h0 with
    | image hs =>
      rw [leniently, outcome_image] at h
      obtain ⟨st, hst⟩ := Option.isSome_iff_exists.mp hs
      simp only [hst, Option.map_some, Outcome.of] at h
      obtain ⟨r, hr, rfl⟩ := Option.map_eq_some_iff.mp h
      cases hp with
      | cons h1 h2 =>
        refine Pics.append ?_ (items_pics ns r _ hn hr h2)
        rw [Node.pictures, if_pos rfl]
        have h1' : _ = m.image (directText kids) := h1
        unfold Pics
        rw [h1']
        simp
    | unknown hu hk =>
      rw [leniently, unknown_opened hu] at h
      simp only at h
      cases hj : leniently fl ord true kids with
      | none => simp [hj] at h
      | some js =>
        simp only [hj] at h
        obtain ⟨r, hr, rfl⟩ := Option.map_eq_some_iff.mp h
        obtain ⟨qs, rs, h1, h2, rfl⟩ := inTurn_append hp
        refine Pics.append ?_ (items_pics ns r rs hn hr h2)
        rw [Node.pictures, if_neg (by rintro rfl; exact hu (by decide))]
        exact items_pics kids js qs hk hj h1
    | without hw =>
      obtain ⟨x, y, hx, hy, rfl⟩ := leniently_append [.elem name as kids] ns iss h
      obtain ⟨qs, rs, _, hr, rfl⟩ := inTurn_append hp
      rw [hw]
      exact (items_pics ns y rs hn hy hr).mono (List.sublist_append_right ..)

/-- The images of a row. -/
theorem cells_pics : ∀ (kids : List Node) (iss : List Instr) (ps : List Put), (∀ nd ∈ kids, PicCell fl ord nd) →
    strictly fl ord false kids = some iss → RowPuts m ((Model.cellsOf iss).map (·.iss)) ps → Pics m (picturesAll kids) ps
  | [], _, _, _, _, _ => .nil _
  | .chars t :: ns, iss, ps, hl, h, hp => by
    simp only [strictly, Bool.false_eq_true, false_and, if_false, Option.map_id'] at h
    exact cells_pics ns iss ps (fun nd hm => hl nd (by simp [hm])) h hp
  | .other :: ns, iss, ps, hl, h, hp => by
    simp only [strictly] at h
    exact cells_pics ns iss ps (fun nd hm => hl nd (by simp [hm])) h hp
  | .elem name as kids :: ns, iss, ps, hl, h, hp => by
    have hn : ∀ nd ∈ ns, PicCell fl ord nd := fun nd hm => hl nd (by simp [hm])
    rw [strictly] at h
    cases ho : outcome fl ord (.elem name as kids) with
    | ok i =>
      simp only [ho] at h
      obtain ⟨r, hr, rfl⟩ := Option.map_eq_some_iff.mp h
      have hsplit : ((Model.cellsOf (i :: r)).map (·.iss)) = ((Model.cellsOf [i]).map (·.iss)) ++ ((Model.cellsOf r).map (·.iss)) := by
        rw [← List.map_append]
        exact congrArg _ (List.filterMap_append (l := [i]) (l' := r))
      rw [hsplit] at hp
      obtain ⟨qs, rs, h1, h2, rfl⟩ := inTurn_append hp
      rw [picturesAll]
      refine Pics.append ?_ (cells_pics ns r rs hn hr h2)
      cases hl _ (List.mem_cons_self ..) with
      | cell hk =>
        rw [outcome_td] at ho
        cases hj : leniently fl ord true kids with
        | none => simp [hj] at ho
        | some js =>
          simp only [hj] at ho
          obtain ⟨x, -, rfl⟩ := Option.map_eq_some_iff.mp (of_ok ho)
          rw [Node.pictures, if_neg (by decide)]
          cases h1 with
          | cons h3 h4 =>
            obtain ⟨ts, us, -, h6, rfl⟩ := h3
            exact (items_pics kids js us hk hj h6).mono ((List.sublist_append_right ..).trans (List.sublist_append_left ..))
      | without hw => rw [hw]; exact .nil _
    | dropped => simp [ho] at h
    | opened => simp [ho] at h
    | fatal => simp [ho] at h

/-- The images of a table. -/
theorem rows_pics : ∀ (kids : List Node) (iss : List Instr) (ps : List Put), (∀ nd ∈ kids, PicRow fl ord nd) →
    strictly fl ord false kids = some iss → InTurn (RowPuts m) ((Model.rowsOf iss).map fun r => r.cells.map (·.iss)) ps →
    Pics m (picturesAll kids) ps
  | [], _, _, _, _, _ => .nil _
  | .chars t :: ns, iss, ps, hl, h, hp => by
    simp only [strictly, Bool.false_eq_true, false_and, if_false, Option.map_id'] at h
    exact rows_pics ns iss ps (fun nd hm => hl nd (by simp [hm])) h hp
  | .other :: ns, iss, ps, hl, h, hp => by
    simp only [strictly] at h
    exact rows_pics ns iss ps (fun nd hm => hl nd (by simp [hm])) h hp
  | .elem name as kids :: ns, iss, ps, hl, h, hp => by
    have hn : ∀ nd ∈ ns, PicRow fl ord nd := fun nd hm => hl nd (by simp [hm])
    rw [strictly] at h
    cases ho : outcome fl ord (.elem name as kids) with
    | ok i =>
      simp only [ho] at h
      obtain ⟨r, hr, rfl⟩ := Option.map_eq_some_iff.mp h
      have hsplit : ((Model.rowsOf (i :: r)).map fun r => r.cells.map (·.iss)) =
          ((Model.rowsOf [i]).map fun r => r.cells.map (·.iss)) ++ ((Model.rowsOf r).map fun r => r.cells.map (·.iss)) := by
        rw [← List.map_append]
        exact congrArg _ (List.filterMap_append (l := [i]) (l' := r))
      rw [hsplit] at hp
      obtain ⟨qs, rs, h1, h2, rfl⟩ := inTurn_append hp
      rw [picturesAll]
      refine Pics.append ?_ (rows_pics ns r rs hn hr h2)
      cases hl _ (List.mem_cons_self ..) with
      | row hk =>
        rw [outcome_tr] at ho
        cases hj : strictly fl ord false kids with
        | none => simp [hj] at ho
        | some js =>
          simp only [hj] at ho
          obtain ⟨x, -, rfl⟩ := Option.map_eq_some_iff.mp (of_ok ho)
          rw [Node.pictures, if_neg (by decide)]
          cases h1 with
          | cons h3 h4 =>
            exact (cells_pics kids js _ hk hj h3).mono (List.sublist_append_left ..)
      | without hw => rw [hw]; exact .nil _
    | dropped => simp [ho] at h
    | opened => simp [ho] at h
    | fatal => simp [ho] at h

/-- The images of a body. -/
theorem body_pics : ∀ (kids : List Node) (iss : List Instr) (ps : List Put), (∀ nd ∈ kids, PicPlace fl ord nd) →
    strictly fl ord true kids = some iss → PartPuts m iss ps → Pics m (picturesAll kids) ps
  | [], _, _, _, _, _ => .nil _
  | .chars t :: ns, iss, ps, hl, h, hp => by
    rw [strictly] at h
    obtain ⟨r, hr, rfl⟩ := Option.map_eq_some_iff.mp h
    have hq : ∃ qs, PartPuts m r qs ∧ qs.Sublist ps := by
      by_cases h0 : t = []
      · subst h0; exact ⟨ps, by simpa using hp, .refl _⟩
      · rw [if_pos ⟨rfl, h0⟩] at hp
        cases hp with
        | cons h1 h2 => exact ⟨_, h2, List.sublist_append_right ..⟩
    obtain ⟨qs, hq, hsub⟩ := hq
    exact (body_pics ns r qs (fun nd hm => hl nd (by simp [hm])) hr hq).mono hsub
  | .other :: ns, iss, ps, hl, h, hp => by
    simp only [strictly] at h
    exact body_pics ns iss ps (fun nd hm => hl nd (by simp [hm])) h hp
  | .elem name as kids :: ns, iss, ps, hl, h, hp => by
    have hn : ∀ nd ∈ ns, PicPlace fl ord nd := fun nd hm => hl nd (by simp [hm])
    rw [strictly] at h
    cases ho : outcome fl ord (.elem name as kids) with
    | ok i =>
      simp only [ho] at h
      obtain ⟨r, hr, rfl⟩ := Option.map_eq_some_iff.mp h
      cases hp with
      | cons h1 h2 =>
        rw [picturesAll]
        refine Pics.append ?_ (body_pics ns r _ hn hr h2)
        cases hl _ (List.mem_cons_self ..) with
        | image =>
          rw [outcome_image] at ho
          obtain ⟨st, -, rfl⟩ := Option.map_eq_some_iff.mp (of_ok ho)
          have h1' : _ = m.image (directText kids) := h1
          rw [Node.pictures, if_pos rfl]
          unfold Pics
          rw [h1']
          simp
        | table hk =>
          rw [outcome_table] at ho
          cases hj : strictly fl ord false kids with
          | none => simp [hj] at ho
          | some js =>
            simp only [hj] at ho
            obtain ⟨x, -, rfl⟩ := Option.map_eq_some_iff.mp (of_ok ho)
            rw [Node.pictures, if_neg (by decide)]
            obtain ⟨extra, qs, hq, hps⟩ := h1
            obtain ⟨q, r', ⟨us, h3, h4⟩, -, rfl⟩ := rowsPut_append hq
            have := (rows_pics kids js us hk hj h3).mono (h4.trans (List.sublist_append_left q r'))
            rcases hps with rfl | rfl
            · exact this
            · exact this.mono (List.sublist_cons_self ..)
        | without hw => rw [hw]; exact .nil _
    | dropped => simp [ho] at h
    | opened => simp [ho] at h
    | fatal => simp [ho] at h

/-- All bodies. -/
theorem bodies_pics : ∀ (kids : List Node) (iss : List Instr) (ps : List Put), (∀ nd ∈ inside b!"body" kids, PicPlace fl ord nd) →
    section_ fl ord b!"body" kids = some iss → PartPuts m iss ps → Pics m (picturesAll (inside b!"body" kids)) ps := by
  intro kids
  unfold inside section_
  generalize (elems kids).filter (·.1 = b!"body") = es
  induction es with
  | nil => exact fun _ _ _ _ _ => .nil _
  | cons e es ih =>
    intro iss ps hv h hp
    obtain ⟨iss', h1, rfl⟩ := Option.map_eq_some_iff.mp h
    rw [List.mapM_cons] at h1
    obtain ⟨x, hx, h1⟩ := Option.bind_eq_some_iff.mp h1
    obtain ⟨r, hr, h1⟩ := Option.bind_eq_some_iff.mp h1
    simp only [Option.pure_def, Option.some.injEq] at h1
    subst h1
    rw [List.flatten_cons] at hp
    obtain ⟨qs, rs, h2, h3, rfl⟩ := inTurn_append hp
    rw [List.flatMap_cons] at hv ⊢
    rw [picturesAll_append]
    unfold contents at hx
    split at hx
    · exact (body_pics e.2.2 x qs (fun nd hm => hv nd (by simp [hm])) hx h2).append
        (ih r.flatten rs (fun nd hm => hv nd (List.mem_append_right _ hm)) (by rw [hr]; rfl) h3)
    · exact absurd hx (by simp)

/-- Header and footer do not take images away. -/
theorem filled_pics {header footer : List Instr} {ps ds : List Put} (h : Filled m header footer ps ds) :
    ∀ fs : List Str, (fs.map Put.image).Sublist ps → (fs.map Put.image).Sublist ds := by
  induction h with
  | nil => exact fun _ h => h
  | @image src ps ds _ ih =>
    intro fs hs
    cases fs with
    | nil => exact List.nil_sublist _
    | cons u us =>
      rw [List.map_cons] at hs ⊢
      cases hs with
      | cons _ h => exact (ih (u :: us) h).cons _
      | cons_cons _ h => exact (ih us h).cons_cons _
  | @text t ps ds _ ih =>
    intro fs hs
    cases fs with
    | nil => exact List.nil_sublist _
    | cons u us =>
      rw [List.map_cons] at hs ⊢
      cases hs with
      | cons _ h => exact (ih (u :: us) h).cons _
  | @page fq fs' hq hs ps ds _ _ _ _ _ _ _ ih =>
    intro fs h
    have h' : (fs.map Put.image).Sublist ds := by
      cases fs with
      | nil => exact List.nil_sublist _
      | cons u us =>
        rw [List.map_cons] at h ⊢
        cases h with
        | cons _ h => exact ih (u :: us) h
    exact (h'.trans (List.sublist_append_right hs ds)).trans ((List.sublist_cons_self ..).trans (List.sublist_append_right ..))
  | @turned fq fs' hq hs t ps ds _ _ _ _ _ _ _ ih =>
    intro fs h
    have h' : (fs.map Put.image).Sublist ds := by
      cases fs with
      | nil => exact List.nil_sublist _
      | cons u us =>
        rw [List.map_cons] at h ⊢
        cases h with
        | cons _ h => exact ih (u :: us) h
    exact ((h'.trans (List.sublist_cons_self ..)).trans (List.sublist_append_right hs _)).trans
      ((List.sublist_cons_self ..).trans (List.sublist_append_right ..))

/-! ### Nothing else -/

mutual
/-- The sources of all images inside an instruction. -/
def pics : Instr → List Str
  | .image _ s => [s]
  | .box _ iss => picsAll iss
  | .text _ iss => picsAll iss
  | .table _ _ rows => picsRows rows
  | .tableRow (.mk _ cells) => picsCells cells
  | .tableCell (.mk _ _ _ iss) => picsAll iss
  | .grid _ _ parts => picsParts parts
  | .gridPart (.mk _ _ iss) => picsAll iss
  | _ => []
def picsAll : List Instr → List Str
  | [] => []
  | i :: is => pics i ++ picsAll is
def picsRows : List TableRow → List Str
  | [] => []
  | .mk _ cells :: rs => picsCells cells ++ picsRows rs
def picsCells : List TableCell → List Str
  | [] => []
  | .mk _ _ _ iss :: cs => picsAll iss ++ picsCells cs
def picsParts : List GridPart → List Str
  | [] => []
  | .mk _ _ iss :: ps => picsAll iss ++ picsParts ps
end

private theorem pics_rowsOf : ∀ (iss : List Instr) (s : Str), s ∈ picsRows (Model.rowsOf iss) → s ∈ picsAll iss
  | [], s, h => by simp [Model.rowsOf, picsRows] at h
  | i :: is, s, h => by
    have ih := pics_rowsOf is s
    have hc : Model.rowsOf (i :: is) = Model.rowsOf [i] ++ Model.rowsOf is := List.filterMap_append (l := [i]) (l' := is)
    rw [picsAll, List.mem_append]
    rw [hc] at h
    cases i with
    | tableRow r =>
      obtain ⟨st, cells⟩ := r
      have h' : s ∈ picsCells cells ++ picsRows (Model.rowsOf is) := h
      exact (List.mem_append.mp h').imp id ih
    | _ => exact .inr (ih h)

private theorem pics_cellsOf : ∀ (iss : List Instr) (s : Str), s ∈ picsCells (Model.cellsOf iss) → s ∈ picsAll iss
  | [], s, h => by simp [Model.cellsOf, picsCells] at h
  | i :: is, s, h => by
    have ih := pics_cellsOf is s
    have hc : Model.cellsOf (i :: is) = Model.cellsOf [i] ++ Model.cellsOf is := List.filterMap_append (l := [i]) (l' := is)
    rw [picsAll, List.mem_append]
    rw [hc] at h
    cases i with
    | tableCell c =>
      obtain ⟨st, a, b, js⟩ := c
      have h' : s ∈ picsAll js ++ picsCells (Model.cellsOf is) := h
      exact (List.mem_append.mp h').imp id ih
    | _ => exact .inr (ih h)

private theorem pics_partsOf : ∀ (iss : List Instr) (s : Str), s ∈ picsParts (Model.partsOf iss) → s ∈ picsAll iss
  | [], s, h => by simp [Model.partsOf, picsParts] at h
  | i :: is, s, h => by
    have ih := pics_partsOf is s
    have hc : Model.partsOf (i :: is) = Model.partsOf [i] ++ Model.partsOf is := List.filterMap_append (l := [i]) (l' := is)
    rw [picsAll, List.mem_append]
    rw [hc] at h
    cases i with
    | gridPart c =>
      obtain ⟨st, a, js⟩ := c
      have h' : s ∈ picsAll js ++ picsParts (Model.partsOf is) := h
      exact (List.mem_append.mp h').imp id ih
    | _ => exact .inr (ih h)

theorem picsAll_append : ∀ a b : List Instr, picsAll (a ++ b) = picsAll a ++ picsAll b
  | [], b => by simp [picsAll]
  | i :: a, b => by simp [picsAll, picsAll_append a b]

private theorem picsAll_text (t : Str) (r : List Instr) (b : Prop) [Decidable b] :
    picsAll (if b then .textBlock t :: r else r) = picsAll r := by
  split <;> simp [picsAll, pics]

mutual
/-- Images of an instruction are images of its element. -/
theorem outcome_pics : ∀ (nd : Node) (i : Instr), outcome fl ord nd = .ok i → ∀ s ∈ pics i, s ∈ nd.pictures
  | .chars _, i, h => by simp [outcome] at h
  | .other, i, h => by simp [outcome] at h
  | .elem name as kids, i, h => by
    unfold outcome at h
    by_cases h1 : name = b!"font"
    · rw [if_pos h1] at h
      obtain ⟨st, -, rfl⟩ := Option.map_eq_some_iff.mp (of_ok h)
      simp [pics]
    rw [if_neg h1] at h
    by_cases h2 : name = b!"image"
    · rw [if_pos h2] at h
      obtain ⟨st, -, rfl⟩ := Option.map_eq_some_iff.mp (of_ok h)
      simp [pics, Node.pictures, h2]
    rw [if_neg h2] at h
    have hp : (Node.elem name as kids).pictures = picturesAll kids := by rw [Node.pictures, if_neg h2]
    rw [hp]
    clear hp
    by_cases k0 : name = b!"p"
    · rw [if_pos k0] at h
      obtain ⟨st, -, rfl⟩ := Option.map_eq_some_iff.mp (of_ok h)
      simp [pics]
    rw [if_neg k0] at h
    by_cases k1 : name = b!"br"
    · rw [if_pos k1] at h
      cases h; simp [pics]
    rw [if_neg k1] at h
    by_cases k2 : name = b!"newpage"
    · rw [if_pos k2] at h
      cases h; simp [pics]
    rw [if_neg k2] at h
    by_cases k3 : name = b!"lf"
    · rw [if_pos k3] at h
      obtain ⟨st, -, rfl⟩ := Option.map_eq_some_iff.mp (ofAttr_ok h)
      simp [pics]
    rw [if_neg k3] at h
    by_cases k4 : name = b!"setx"
    · rw [if_pos k4] at h
      obtain ⟨st, -, rfl⟩ := Option.map_eq_some_iff.mp (ofAttr_ok h)
      simp [pics]
    rw [if_neg k4] at h
    by_cases k5 : name = b!"sety"
    · rw [if_pos k5] at h
      obtain ⟨st, -, rfl⟩ := Option.map_eq_some_iff.mp (ofAttr_ok h)
      simp [pics]
    rw [if_neg k5] at h
    by_cases k6 : name = b!"box"
    · rw [if_pos k6] at h
      split at h
      · rename_i st iss hs hi
        cases h
        exact strictly_pics true kids iss hi
      · exact Outcome.noConfusion h
    rw [if_neg k6] at h
    by_cases k7 : name = b!"text"
    · rw [if_pos k7] at h
      split at h
      · rename_i st iss hs hi
        cases h
        exact strictly_pics true kids iss hi
      · exact Outcome.noConfusion h
    rw [if_neg k7] at h
    by_cases k8 : name = b!"table"
    · rw [if_pos k8] at h
      cases hj : strictly fl ord false kids with
      | none => simp [hj] at h
      | some js =>
        simp only [hj] at h
        obtain ⟨x, -, rfl⟩ := Option.map_eq_some_iff.mp (of_ok h)
        exact fun s hs => strictly_pics false kids js hj s (pics_rowsOf js s hs)
    rw [if_neg k8] at h
    by_cases k9 : name = b!"tr"
    · rw [if_pos k9] at h
      cases hj : strictly fl ord false kids with
      | none => simp [hj] at h
      | some js =>
        simp only [hj] at h
        obtain ⟨x, -, rfl⟩ := Option.map_eq_some_iff.mp (of_ok h)
        exact fun s hs => strictly_pics false kids js hj s (pics_cellsOf js s hs)
    rw [if_neg k9] at h
    by_cases k10 : name = b!"td"
    · rw [if_pos k10] at h
      cases hj : leniently fl ord true kids with
      | none => simp [hj] at h
      | some js =>
        simp only [hj] at h
        obtain ⟨x, -, rfl⟩ := Option.map_eq_some_iff.mp (of_ok h)
        exact leniently_pics true kids js hj
    rw [if_neg k10] at h
    by_cases k11 : name = b!"grid"
    · rw [if_pos k11] at h
      cases hj : leniently fl ord false kids with
      | none => simp [hj] at h
      | some js =>
        simp only [hj] at h
        split at h
        · obtain ⟨x, -, rfl⟩ := Option.map_eq_some_iff.mp (of_ok h)
          exact fun s hs => leniently_pics false kids js hj s (pics_partsOf js s hs)
        · exact Outcome.noConfusion h
    rw [if_neg k11] at h
    by_cases k12 : name = b!"gr"
    · rw [if_pos k12] at h
      split at h
      · exact Outcome.noConfusion h
      · obtain ⟨x, -, rfl⟩ := Option.map_eq_some_iff.mp (of_ok h)
        simp [pics]
    rw [if_neg k12] at h
    by_cases k13 : name = b!"part"
    · rw [if_pos k13] at h
      cases hj : leniently fl ord false kids with
      | none => simp [hj] at h
      | some js =>
        simp only [hj] at h
        obtain ⟨x, -, rfl⟩ := Option.map_eq_some_iff.mp (of_ok h)
        exact leniently_pics false kids js hj
    · rw [if_neg k13] at h
      exact Outcome.noConfusion h

theorem strictly_pics : ∀ (texts : Bool) (kids : List Node) (iss : List Instr), strictly fl ord texts kids = some iss →
    ∀ s ∈ picsAll iss, s ∈ picturesAll kids
  | _, [], iss, h => by
    simp only [strictly, Option.some.injEq] at h
    subst h
    simp [picsAll]
  | texts, .chars t :: ns, iss, h => by
    rw [strictly] at h
    obtain ⟨r, hr, rfl⟩ := Option.map_eq_some_iff.mp h
    rw [picsAll_text]
    intro s hs
    exact List.mem_append_right _ (strictly_pics texts ns r hr s hs)
  | texts, .other :: ns, iss, h => by
    rw [strictly] at h
    intro s hs
    exact List.mem_append_right _ (strictly_pics texts ns iss h s hs)
  | texts, .elem name as kids :: ns, iss, h => by
    rw [strictly] at h
    cases ho : outcome fl ord (.elem name as kids) with
    | ok i =>
      simp only [ho] at h
      obtain ⟨r, hr, rfl⟩ := Option.map_eq_some_iff.mp h
      intro s hs
      rw [picsAll, List.mem_append] at hs
      rw [picturesAll, List.mem_append]
      exact hs.imp (outcome_pics (.elem name as kids) i ho s) (strictly_pics texts ns r hr s)
    | dropped => simp [ho] at h
    | opened => simp [ho] at h
    | fatal => simp [ho] at h

theorem leniently_pics : ∀ (texts : Bool) (kids : List Node) (iss : List Instr), leniently fl ord texts kids = some iss →
    ∀ s ∈ picsAll iss, s ∈ picturesAll kids
  | _, [], iss, h => by
    simp only [leniently, Option.some.injEq] at h
    subst h
    simp [picsAll]
  | texts, .chars t :: ns, iss, h => by
    rw [leniently] at h
    obtain ⟨r, hr, rfl⟩ := Option.map_eq_some_iff.mp h
    rw [picsAll_text]
    intro s hs
    exact List.mem_append_right _ (leniently_pics texts ns r hr s hs)
  | texts, .other :: ns, iss, h => by
    rw [leniently] at h
    intro s hs
    exact List.mem_append_right _ (leniently_pics texts ns iss h s hs)
  | texts, .elem name as kids :: ns, iss, h => by
    rw [leniently] at h
    cases ho : outcome fl ord (.elem name as kids) with
    | ok i =>
      simp only [ho] at h
      obtain ⟨r, hr, rfl⟩ := Option.map_eq_some_iff.mp h
      intro s hs
      rw [picsAll, List.mem_append] at hs
      rw [picturesAll, List.mem_append]
      exact hs.imp (outcome_pics (.elem name as kids) i ho s) (leniently_pics texts ns r hr s)
    | dropped =>
      simp only [ho] at h
      intro s hs
      exact List.mem_append_right _ (leniently_pics texts ns iss h s hs)
    | opened =>
      simp only [ho] at h
      have hi : name ≠ b!"image" := by
        rintro rfl
        rw [outcome_image] at ho
        cases hs : newStyled fl ord as <;> simp [hs, Outcome.of] at ho
      cases hk : leniently fl ord texts kids with
      | none => simp [hk] at h
      | some js =>
        simp only [hk] at h
        obtain ⟨r, hr, rfl⟩ := Option.map_eq_some_iff.mp h
        intro s hs
        rw [picsAll_append, List.mem_append] at hs
        rw [picturesAll, List.mem_append, Node.pictures, if_neg hi]
        exact hs.imp (leniently_pics texts kids js hk s) (leniently_pics texts ns r hr s)
    | fatal => simp [ho] at h
end

/-- Images of a section are images inside its elements. -/
theorem section_pics (name : Str) : ∀ (kids : List Node) (iss : List Instr), section_ fl ord name kids = some iss →
    ∀ s ∈ picsAll iss, s ∈ picturesAll (inside name kids) := by
  intro kids
  unfold inside section_
  generalize (elems kids).filter (·.1 = name) = es
  induction es with
  | nil =>
    intro iss h
    simp at h
    subst h
    simp [picsAll]
  | cons e es ih =>
    intro iss h
    obtain ⟨iss', h1, rfl⟩ := Option.map_eq_some_iff.mp h
    rw [List.mapM_cons] at h1
    obtain ⟨x, hx, h1⟩ := Option.bind_eq_some_iff.mp h1
    obtain ⟨r, hr, h1⟩ := Option.bind_eq_some_iff.mp h1
    simp only [Option.pure_def, Option.some.injEq] at h1
    subst h1
    intro s hs
    rw [List.flatten_cons, picsAll_append, List.mem_append] at hs
    rw [List.flatMap_cons, picturesAll_append, List.mem_append]
    unfold contents at hx
    split at hx
    · exact hs.imp (strictly_pics true e.2.2 x hx s) (ih r.flatten (by rw [hr]; rfl) s)
    · exact absurd hx (by simp)

/-- An image among the things put is that of a source. -/
def From (m : Means) (srcs : List Str) (ps : List Put) : Prop := ∀ f, Put.image f ∈ ps → ∃ s ∈ srcs, Put.image f ∈ m.image s

theorem From.append {a b : List Str} {ps qs : List Put} (h : From m a ps) (h' : From m b qs) : From m (a ++ b) (ps ++ qs) := by
  intro f hf
  rcases List.mem_append.mp hf with hf | hf
  · obtain ⟨s, h1, h2⟩ := h f hf
    exact ⟨s, List.mem_append_left _ h1, h2⟩
  · obtain ⟨s, h1, h2⟩ := h' f hf
    exact ⟨s, List.mem_append_right _ h1, h2⟩

theorem From.mono {a b : List Str} {ps : List Put} (h : From m a ps) (hs : a ⊆ b) : From m b ps := by
  intro f hf
  obtain ⟨s, h1, h2⟩ := h f hf
  exact ⟨s, hs h1, h2⟩

theorem From.nil (a : List Str) : From m a [] := fun f hf => absurd hf (by simp)

private theorem textPuts_from {iss : List Instr} {ps : List Put} (h : TextPuts m iss ps) (a : List Str) : From m a ps := by
  obtain ⟨page, ts, -, rfl⟩ := h
  intro f hf
  simp at hf

private theorem from_page {a : List Str} {ps : List Put} (h : From m a ps) : From m a (.page :: ps) := by
  intro f hf
  exact h f (by simpa using hf)

private theorem boxPuts_from {iss : List Instr} {ps : List Put} (h : BoxPuts m iss ps) (a : List Str) : From m a ps := by
  rcases h with h | ⟨qs, h, rfl⟩
  · exact textPuts_from h a
  · exact from_page (textPuts_from h a)

private theorem items_from : ∀ (iss : List Instr) (ps : List Put), InTurn (ItemPuts m) iss ps → From m (picsAll iss) ps
  | [], _, h => by cases h; exact .nil _
  | i :: is, _, h => by
    cases h with
    | cons h1 h2 =>
      rw [picsAll]
      refine From.append ?_ (items_from is _ h2)
      cases i with
      | image st src =>
        have h1' : _ = m.image src := h1
        subst h1'
        exact fun f hf => ⟨src, by simp [pics], hf⟩
      | box st js => exact boxPuts_from h1 _
      | _ =>
        have h1' : _ = [] := h1
        rw [h1']
        exact .nil _

private theorem row_from : ∀ (cells : List (List Instr)) (ps : List Put), RowPuts m cells ps → From m (cells.flatMap picsAll) ps
  | [], _, h => by cases h; exact .nil _
  | c :: cs, _, h => by
    cases h with
    | cons h1 h2 =>
      rw [List.flatMap_cons]
      refine From.append ?_ (row_from cs _ h2)
      obtain ⟨ts, qs, h3, h4, rfl⟩ := h1
      exact ((textPuts_from h3 []).append (items_from c qs h4)).mono (by simp)

private theorem rows_from : ∀ (rows : List (List (List Instr))) (ps : List Put), InTurn (RowPuts m) rows ps →
    From m (rows.flatMap fun r => r.flatMap picsAll) ps
  | [], _, h => by cases h; exact .nil _
  | c :: cs, _, h => by
    cases h with
    | cons h1 h2 =>
      rw [List.flatMap_cons]
      exact (row_from c _ h1).append (rows_from cs _ h2)

private theorem rowsPut_from {head : List (List (List Instr))} {i : Nat} {rows : List (List (List Instr))} {ps : List Put}
    (h : RowsPut m head i rows ps) : From m ((head.flatMap fun r => r.flatMap picsAll) ++ rows.flatMap fun r => r.flatMap picsAll) ps := by
  induction h with
  | nil => exact .nil _
  | @same i row rows ps qs h1 _ ih =>
    refine ((row_from row ps h1).append ih).mono ?_
    intro s hs
    simp only [List.flatMap_cons, List.mem_append] at hs ⊢
    tauto
  | @page i row rows hs ps qs h0 h1 _ ih =>
    refine from_page ?_
    refine (((rows_from _ hs h0).append (row_from row ps h1)).append ih).mono ?_
    intro s hs
    simp only [List.flatMap_cons, List.mem_append] at hs ⊢
    have hh : s ∈ (if i = 0 then [] else head).flatMap (fun r => r.flatMap picsAll) → s ∈ head.flatMap (fun r => r.flatMap picsAll) := by
      split
      · simp
      · exact id
    tauto

private theorem picsCells_flatMap : ∀ cells : List TableCell, (cells.map (·.iss)).flatMap picsAll = picsCells cells
  | [] => rfl
  | .mk _ _ _ iss :: cs => by
    rw [List.map_cons, List.flatMap_cons, picsCells_flatMap cs]
    rfl

private theorem picsRows_flatMap : ∀ rows : List TableRow,
    (rows.map fun r => r.cells.map (·.iss)).flatMap (fun r => r.flatMap picsAll) = picsRows rows
  | [] => rfl
  | .mk _ cells :: rs => by
    rw [List.map_cons, List.flatMap_cons, picsRows_flatMap rs, picsCells_flatMap]
    rfl

private theorem replicate_pics (n : Nat) : (List.replicate n ([] : List (List Instr))).flatMap (fun r => r.flatMap picsAll) = [] := by
  induction n with
  | zero => rfl
  | succ n ih => rw [List.replicate_succ, List.flatMap_cons, ih]; rfl

private theorem instr_from (i : Instr) (ps : List Put) (h : InstrPuts m i ps) : From m (pics i) ps := by
  cases i with
  | image st src =>
    have h1' : _ = m.image src := h
    subst h1'
    exact fun f hf => ⟨src, by simp [pics], hf⟩
  | box st js => exact boxPuts_from h _
  | text st js => exact textPuts_from h _
  | table st rep rows =>
    obtain ⟨extra, qs, h1, h2⟩ := h
    have h3 := (rowsPut_from h1).mono (b := picsRows rows) (by
      intro s hs
      rw [List.mem_append] at hs
      have hall : s ∈ ((rows.map fun (r : TableRow) => r.cells.map (·.iss)) ++ List.replicate extra ([] : List (List Instr))).flatMap
          (fun r : List (List Instr) => r.flatMap picsAll) := by
        rcases hs with hs | hs
        · obtain ⟨r, h4, h5⟩ := List.mem_flatMap.mp hs
          exact List.mem_flatMap.mpr ⟨r, List.mem_of_mem_take h4, h5⟩
        · exact hs
      rw [List.flatMap_append, picsRows_flatMap, replicate_pics, List.append_nil] at hall
      exact hall)
    rcases h2 with rfl | rfl
    · exact h3
    · exact from_page h3
  | pageBreak =>
    have h1' : ps = [.page] := h
    subst h1'
    exact from_page (.nil _)
  | _ =>
    have h1' : ps = [] := h
    rw [h1']
    exact .nil _

theorem part_from : ∀ (iss : List Instr) (ps : List Put), PartPuts m iss ps → From m (picsAll iss) ps
  | [], _, h => by cases h; exact .nil _
  | i :: is, _, h => by
    cases h with
    | cons h1 h2 => exact (instr_from i _ h1).append (part_from is _ h2)

theorem filled_from {header footer : List Instr} {ps ds : List Put} (h : Filled m header footer ps ds) :
    ∀ a, From m a ps → From m (a ++ picsAll header ++ picsAll footer) ds := by
  induction h with
  | nil => intro a _; exact .nil _
  | @text t ps ds _ ih =>
    intro a ha f hf
    exact ih a (fun g hg => ha g (by simp [hg])) f (by simpa using hf)
  | @image src ps ds _ ih =>
    intro a ha f hf
    rcases List.mem_cons.mp hf with h1 | h1
    · obtain rfl : f = src := Put.image.inj h1
      obtain ⟨s, h2, h3⟩ := ha f (by simp)
      exact ⟨s, by simp [h2], h3⟩
    · exact ih a (fun g hg => ha g (by simp [hg])) f h1
  | @page fq fs hq hs ps ds h1 _ h2 _ _ ih1 ih2 ih3 =>
    intro a ha f hf
    simp only [List.mem_append, List.mem_cons, reduceCtorEq, false_or] at hf
    rcases hf with hf | hf | hf
    · obtain ⟨s, h3, h4⟩ := ih1 _ (part_from _ _ h1) f hf
      exact ⟨s, by simp only [List.mem_append] at h3 ⊢; tauto, h4⟩
    · obtain ⟨s, h3, h4⟩ := ih2 _ (part_from _ _ h2) f hf
      exact ⟨s, by simp only [List.mem_append] at h3 ⊢; tauto, h4⟩
    · exact ih3 a (fun g hg => ha g (by simp [hg])) f hf
  | @turned fq fs hq hs t ps ds h1 _ h2 _ _ ih1 ih2 ih3 =>
    intro a ha f hf
    simp only [List.mem_append, List.mem_cons, reduceCtorEq, false_or] at hf
    rcases hf with hf | hf | hf
    · obtain ⟨s, h3, h4⟩ := ih1 _ (part_from _ _ h1) f hf
      exact ⟨s, by simp only [List.mem_append] at h3 ⊢; tauto, h4⟩
    · obtain ⟨s, h3, h4⟩ := ih2 _ (part_from _ _ h2) f hf
      exact ⟨s, by simp only [List.mem_append] at h3 ⊢; tauto, h4⟩
    · exact ih3 a (fun g hg => ha g (by simp [hg])) f hf

end Verif.Proofs
