import Verif.Props.Draw
import Verif.Props.Pages
import Verif.Spec.Cells
/-
Properties C67-C69: images on the page, images and boxes in table cells (/repo/image.go renderImage, /repo/table.go renderCell).
-/
namespace Verif.Props
open Verif.Go Verif.Model Verif.Proofs Verif.Spec

variable {E : Type} {eng : Engine E} {ctx : Ctx} {s s' : PState E}

theorem placeImage_size (d : ImageDesc) (hw : 0 < d.widthPx) (hh : 0 < d.heightPx) (sty : Styles) (x y : ℚ) (pa : Area)
    (hpw : sty.dim.offsetX < pa.x1 - pa.x0) (hph : sty.dim.offsetY < pa.y1 - pa.y0) :
    ImageSize d sty (pa.x1 - pa.x0) (pa.y1 - pa.y0) (placeImage d sty x y pa).width (placeImage d sty x y pa).height where
  pos := by obtain ⟨h1, h2, _⟩ := C34_fits d hw hh sty x y pa hpw hph; exact ⟨h1, h2⟩
  fits := by obtain ⟨_, _, h3, h4, _⟩ := C34_fits d hw hh sty x y pa hpw hph; exact ⟨h3, h4⟩
  natural := by
    obtain ⟨w1, h1, ha, hw', hh', hn⟩ := imageWanted_cases d hw hh sty
    obtain ⟨k, k0, k1, e, e1, e2, e3⟩ := imageFit_scale (pa.width - sty.dim.offsetX) (pa.height - sty.dim.offsetY) _ _
      (by unfold Area.width; linarith) (by unfold Area.height; linarith) w1 h1
    refine ⟨_, _, ⟨hw', hh', ha, hn⟩, ?_⟩
    simp only [placeImage, e]
    refine ⟨by ring, by nlinarith, by nlinarith, ?_⟩
    rcases e3 with rfl | e3 | e3
    · exact Or.inl ⟨one_mul _, one_mul _⟩
    · exact Or.inr (Or.inl e3)
    · exact Or.inr (Or.inr e3)

/-- The natural size is determined by image and style. -/
theorem natural_unique {d : ImageDesc} (hw : 0 < d.widthPx) (hh : 0 < d.heightPx) {sty : Styles} {w h w' h' : ℚ}
    (k : NaturalSize d sty w h) (k' : NaturalSize d sty w' h') : w' = w ∧ h' = h := by
  have hw' : (0 : ℚ) < d.widthPx := by exact_mod_cast hw
  have hh' : (0 : ℚ) < d.heightPx := by exact_mod_cast hh
  by_cases c1 : 0 < sty.dim.width <;> by_cases c2 : 0 < sty.dim.height
  · exact ⟨by rw [k.width c1, k'.width c1], by rw [k.height c2, k'.height c2]⟩
  · have e := k.width c1
    have e' := k'.width c1
    have r := k.ratio (fun h => c2 h.2)
    have r' := k'.ratio (fun h => c2 h.2)
    refine ⟨by rw [e, e'], mul_right_cancel₀ hw'.ne' (by rw [← r, ← r', e, e'])⟩
  · have e := k.height c2
    have e' := k'.height c2
    have r := k.ratio (fun h => c1 h.1)
    have r' := k'.ratio (fun h => c1 h.1)
    refine ⟨mul_right_cancel₀ hh'.ne' (by rw [r, r', e, e']), by rw [e, e']⟩
  · obtain ⟨e1, e2⟩ := k.plain c1 c2
    obtain ⟨e3, e4⟩ := k'.plain c1 c2
    exact ⟨by rw [e1, e3], by rw [e2, e4]⟩

/-- The size of an image in an area is determined by image, style and area: there is no other size as `ImageSize` says. -/
theorem imageSize_unique {d : ImageDesc} (hw : 0 < d.widthPx) (hh : 0 < d.heightPx) {sty : Styles} {W H w h w' h' : ℚ}
    (k : ImageSize d sty W H w h) (k' : ImageSize d sty W H w' h') : w' = w ∧ h' = h := by
  obtain ⟨w0, h0, n, r, l1, l2, m⟩ := k.natural
  obtain ⟨w0', h0', n', r', l1', l2', m'⟩ := k'.natural
  obtain ⟨e1, e2⟩ := natural_unique hw hh n n'
  rw [e1, e2] at r' m'
  rw [e1] at l1'
  rw [e2] at l2'
  obtain ⟨p1, p2⟩ := k.pos
  obtain ⟨p1', p2'⟩ := k'.pos
  obtain ⟨f1, f2⟩ := k.fits
  obtain ⟨f1', f2'⟩ := k'.fits
  have q1 : 0 < w0 := lt_of_lt_of_le p1 l1
  have q2 : 0 < h0 := lt_of_lt_of_le p2 l2
  have key : ∀ {u v u' v' : ℚ}, u * h0 = v * w0 → u' * h0 = v' * w0 → (u' ≤ u ↔ v' ≤ v) := by
    intro u v u' v' h1 h2
    constructor
    · intro hle
      have : v' * w0 ≤ v * w0 := by rw [← h1, ← h2]; exact mul_le_mul_of_nonneg_right hle q2.le
      exact le_of_mul_le_mul_right this q1
    · intro hle
      have : u' * h0 ≤ u * h0 := by rw [h1, h2]; exact mul_le_mul_of_nonneg_right hle q1.le
      exact le_of_mul_le_mul_right this q2
  have k1 := key r r'
  have k2 := key r' r
  have a1 : w' ≤ w := by
    rcases m with ⟨e, _⟩ | e | e
    · rw [e]; exact l1'
    · rw [e]; exact f1'
    · exact k1.mpr (by rw [e]; exact f2')
  have a2 : w ≤ w' := by
    rcases m' with ⟨e, _⟩ | e | e
    · rw [e]; exact l1
    · rw [e]; exact f1
    · exact k2.mpr (by rw [e]; exact f2)
  exact ⟨le_antisymm a1 a2, le_antisymm (k1.mp a1) (k2.mp a2)⟩

/-- C67: an image instruction puts the image once, at the current position plus its offset; an image that cannot be read is left out.
Nothing else happens, and the position stays. -/
theorem C67_image {c : Calls E} {st : Styled} {source : Str} (hd : ∀ src d, ctx.describe src = some d → 0 < d.widthPx ∧ 0 < d.heightPx)
    (hx : (st.mutatedStyles ctx.classes s.curr).dim.offsetX < (eng.printableArea s.eng).x1 - (eng.printableArea s.eng).x0)
    (hy : (st.mutatedStyles ctx.classes s.curr).dim.offsetY < (eng.printableArea s.eng).y1 - (eng.printableArea s.eng).y0) :
    match (generalizing := false) ctx.describe (ctx.resolve source) with
    | none => processInstr eng ctx c (.image st source) s = some ((), s)
    | some d => ∃ w h, ImageSize d (st.mutatedStyles ctx.classes s.curr) ((eng.printableArea s.eng).x1 - (eng.printableArea s.eng).x0)
          ((eng.printableArea s.eng).y1 - (eng.printableArea s.eng).y0) w h ∧
        processInstr eng ctx c (.image st source) s = some ((), { s with eng := (eng.putImage (ctx.resolve source)
          ((eng.getXY s.eng).1 + (st.mutatedStyles ctx.classes s.curr).dim.offsetX)
          ((eng.getXY s.eng).2 + (st.mutatedStyles ctx.classes s.curr).dim.offsetY) w h s.eng) }) := by
  have run : processInstr eng ctx c (.image st source) s = renderImage eng ctx st source (eng.printableArea s.eng) s := by
    simp only [processInstr, bind_eq, ask, Option.bind_some]
  rw [run]
  unfold renderImage
  cases h : ctx.describe (ctx.resolve source) with
  | none => rfl
  | some d =>
    obtain ⟨h1, h2⟩ := hd _ _ h
    exact ⟨_, _, placeImage_size d h1 h2 _ _ _ _ hx hy, rfl⟩

/-- The images of a cell up to the next box are all at the same place: at the horizontal position `X` of before, and at the upper padding
edge. -/
theorem images_at (hs : Stays eng) {c : Calls E} {v : Str} {padded : Area} {X : ℚ} (hx0 : 0 ≤ X) (hy0 : 0 ≤ padded.y0)
    (hd : ∀ src d, ctx.describe src = some d → 0 < d.widthPx ∧ 0 < d.heightPx) : ∀ (iss : List Instr) (s : PState E),
    (∀ st is, Instr.box st is ∉ iss) →
    (∀ st src, Instr.image st src ∈ iss → (st.mutatedStyles ctx.classes s.curr).dim.offsetX < padded.x1 - padded.x0 ∧
      (st.mutatedStyles ctx.classes s.curr).dim.offsetY < padded.y1 - padded.y0) →
    (eng.getXY s.eng).1 = X →
    ∃ e, renderCellItems eng ctx c v padded iss s = some ((), { s with eng := e }) ∧
      ImagesAt eng ctx s.curr X padded.y0 (padded.x1 - padded.x0) (padded.y1 - padded.y0) iss s.eng e := by
  intro iss
  induction iss with
  | nil => intro s _ _ _; exact ⟨s.eng, rfl, .nil⟩
  | cons i iss ih =>
    intro s hb hi hx
    have rest := fun (s1 : PState E) (h1 : s1.curr = s.curr) => ih s1 (fun st is h => hb st is (by simp [h]))
      (fun st src h => by rw [h1]; exact hi st src (by simp [h]))
    cases i with
    | box st is => exact absurd (by simp) (hb st is)
    | image st src =>
      have hxy : eng.getXY (eng.setY padded.y0 s.eng) = (X, padded.y0) := by rw [hs.setY _ _ hy0 (by rw [hx]; exact hx0), hx]
      cases h : ctx.describe (ctx.resolve src) with
      | none =>
        obtain ⟨e, r1, r2⟩ := rest { s with eng := eng.setY padded.y0 s.eng } rfl (by simp only [hxy])
        refine ⟨e, ?_, .unreadable h r2⟩
        simp only [renderCellItems, bind_eq, upd, Option.bind_some, renderImage, h]
        exact r1
      | some d =>
        obtain ⟨h1, h2⟩ := hd _ _ h
        obtain ⟨o1, o2⟩ := hi st src (by simp)
        have hsz := placeImage_size d h1 h2 (st.mutatedStyles ctx.classes s.curr) X padded.y0 padded o1 o2
        obtain ⟨e, r1, r2⟩ := rest { s with eng := (eng.putImage (ctx.resolve src) (X + (st.mutatedStyles ctx.classes s.curr).dim.offsetX)
          (padded.y0 + (st.mutatedStyles ctx.classes s.curr).dim.offsetY)
          (placeImage d (st.mutatedStyles ctx.classes s.curr) X padded.y0 padded).width
          (placeImage d (st.mutatedStyles ctx.classes s.curr) X padded.y0 padded).height (eng.setY padded.y0 s.eng)) } rfl
          (by simp only [hs.image, hxy])
        refine ⟨e, ?_, .image h hsz r2⟩
        simp only [renderCellItems, bind_eq, upd, Option.bind_some, renderImage, h, hxy]
        exact r1
    | _ =>
      obtain ⟨e, r1, r2⟩ := rest s rfl hx
      exact ⟨e, r1, .other (by simp) r2⟩

/-- C68, as far as it holds: in a cell without boxes all images are at the padding corner, and they fit into the area between the padding
edges. -/
theorem C68_images_partial (hs : Stays eng) {c : Calls E} {v : Str} {padded : Area} (hx0 : 0 ≤ padded.x0) (hy0 : 0 ≤ padded.y0)
    (hd : ∀ src d, ctx.describe src = some d → 0 < d.widthPx ∧ 0 < d.heightPx) (iss : List Instr) (s : PState E)
    (hb : ∀ st is, Instr.box st is ∉ iss)
    (hi : ∀ st src, Instr.image st src ∈ iss → (st.mutatedStyles ctx.classes s.curr).dim.offsetX < padded.x1 - padded.x0 ∧
      (st.mutatedStyles ctx.classes s.curr).dim.offsetY < padded.y1 - padded.y0) (hx : (eng.getXY s.eng).1 = padded.x0) :
    ∃ e, renderCellItems eng ctx c v padded iss s = some ((), { s with eng := e }) ∧
      ImagesAt eng ctx s.curr padded.x0 padded.y0 (padded.x1 - padded.x0) (padded.y1 - padded.y0) iss s.eng e :=
  images_at hs hx0 hy0 hd iss s hb hi hx

/-- C68: the same for a whole cell, after its text. -/
theorem C68_cell_partial (hp : Positions eng) (hs : Stays eng) {n : Nat} (hc : FontOnly s.curr) {pa : Area} {sty : Styles} {iss : List Instr}
    (hi : iss ≠ []) (hx : 0 ≤ pa.x0 + sty.box.padding.left) (hy : 0 ≤ pa.y0 + sty.box.padding.top)
    (hd : ∀ src d, ctx.describe src = some d → 0 < d.widthPx ∧ 0 < d.heightPx) (hb : ∀ st is, Instr.box st is ∉ iss)
    (ho : ∀ st src curr, Instr.image st src ∈ iss → FontOnly curr → (st.mutatedStyles ctx.classes curr).dim.offsetX <
        pa.x1 - sty.box.padding.right - (pa.x0 + sty.box.padding.left) ∧
      (st.mutatedStyles ctx.classes curr).dim.offsetY < pa.y1 - sty.box.padding.bottom - (pa.y0 + sty.box.padding.top))
    (h : renderCell eng ctx (callsAt eng ctx n) pa sty iss s = some ((), s')) :
    ∃ s2 s3 e, writeTextFnc eng ctx (callsAt eng ctx n) iss (pa.width - sty.box.padding.left - sty.box.padding.right) sty s2 = some ((), s3) ∧
      s' = { s3 with eng := e } ∧
      ImagesAt eng ctx s3.curr (pa.x0 + sty.box.padding.left) (pa.y0 + sty.box.padding.top)
        (pa.x1 - sty.box.padding.right - (pa.x0 + sty.box.padding.left)) (pa.y1 - sty.box.padding.bottom - (pa.y0 + sty.box.padding.top)) iss
        (eng.setX (pa.x0 + sty.box.padding.left) s3.eng) e := by
  obtain ⟨s0, s1, _, _, s2, s3, h0, h1, _, h2, _, h3, h4⟩ := C55_start hp hi hx h
  have hR := fontOnly_rel eng ctx n
  have k0 : FontOnly s0.curr := (drawBoxM_le hR _ _ _ _ _ s hc _ _ h0).2
  have k1 : FontOnly s1.curr := by
    have := textHeight_inv hR ctx.classes iss (pa.width - sty.box.padding.left - sty.box.padding.right) sty s0 k0
    rw [h1] at this
    exact this
  have k2 : FontOnly s2.curr := by rw [h2]; exact k1
  have k3 : FontOnly s3.curr := (writeTextFnc_le hR (Texts.all _) _ _ _ s2 k2 _ _ h3).2
  obtain ⟨_, s4, h5, h4⟩ := bind_some h4
  simp only [upd, Option.some.injEq, Prod.mk.injEq, true_and] at h5
  have k4 : FontOnly s4.curr := by rw [← h5]; exact k3
  obtain ⟨e, r1, r2⟩ := C68_images_partial hs (c := callsAt eng ctx n) (v := sty.align.v) (padded := pa.withPadding sty.box.padding) hx hy hd iss s4 hb
    (fun st src hm => ho st src _ hm k4) (by rw [← h5]; simp only [hp.setX _ _ hx]; rfl)
  rw [r1] at h4
  simp only [Option.some.injEq, Prod.mk.injEq, true_and] at h4
  refine ⟨s2, s3, e, h3, ?_, ?_⟩
  · rw [← h4, ← h5]
  · rw [← h5] at r2; exact r2

/-- After the lines of a text the position is at the left margin. -/
theorem writeLines_left {left : ℚ} (hf : FeedsLeft eng left) {c : Calls E} {sty : Styles} {x w : ℚ} : ∀ {lines : List TextLine} {s s' : PState E},
    lines ≠ [] → writeLines eng c sty x w lines s = some ((), s') → (eng.getXY s'.eng).1 = left
  | [], _, _, h, _ => absurd rfl h
  | line :: lines, s, s', _, h => by
    unfold writeLines at h
    obtain ⟨_, s1, _, h⟩ := bind_some h
    obtain ⟨_, s2, _, h⟩ := bind_some h
    obtain ⟨_, s3, h3, h⟩ := bind_some h
    cases lines with
    | nil =>
      simp only [writeLines, Pure.pure, StateT.pure, Option.some.injEq, Prod.mk.injEq, true_and] at h
      simp only [upd, Option.some.injEq, Prod.mk.injEq, true_and] at h3
      rw [← h, ← h3]
      exact hf.lineFeed _ _
    | cons l ls => exact writeLines_left hf (by simp) h

theorem writeHyphLines_left {left : ℚ} (hf : FeedsLeft eng left) {c : Calls E} {sty : Styles} {x w : ℚ} : ∀ {lines : List TextLine} {s s' : PState E},
    lines ≠ [] → writeHyphLines eng c sty x w lines s = some ((), s') → (eng.getXY s'.eng).1 = left
  | [], _, _, h, _ => absurd rfl h
  | line :: lines, s, s', _, h => by
    unfold writeHyphLines at h
    obtain ⟨_, s1, _, h⟩ := bind_some h
    obtain ⟨_, s2, _, h⟩ := bind_some h
    obtain ⟨_, s3, h3, h⟩ := bind_some h
    cases lines with
    | nil =>
      simp only [writeHyphLines, Pure.pure, StateT.pure, Option.some.injEq, Prod.mk.injEq, true_and] at h
      simp only [upd, Option.some.injEq, Prod.mk.injEq, true_and] at h3
      rw [← h, ← h3]
      exact hf.lineFeed _ _
    | cons l ls => exact writeHyphLines_left hf (by simp) h

/-- After a text with a word the position is at the left margin. -/
theorem writeTextFnc_left {left : ℚ} (hf : FeedsLeft eng left) {mt : Font → Str → ℚ} (hm : Measures eng mt)
    (hh : ∀ w, (ctx.hyphenate w).flatten = w) {c : Calls E} {iss : List Instr} {w : ℚ} {sty : Styles}
    (hw : ∀ page, ∃ x, some x ∈ tokens ctx.classes page sty iss) (h : writeTextFnc eng ctx c iss w sty s = some ((), s')) :
    (eng.getXY s'.eng).1 = left := by
  unfold writeTextFnc at h
  split at h
  · unfold writeTextHyphenated at h
    obtain ⟨_, s1, _, h⟩ := bind_some h
    obtain ⟨_, s2, _, h⟩ := bind_some h
    obtain ⟨lines, s3, h3, h⟩ := bind_some h
    obtain ⟨_, s4, _, h⟩ := bind_some h
    simp only [total, Option.some.injEq] at h3
    obtain ⟨x, hx⟩ := hw (eng.currentPage s2.eng)
    obtain ⟨ls, ws, e1, _, e2, e3⟩ := C38_spells (cs := ctx.classes) (iss := iss) (width := w) (sty := sty) (s := s2) hm hh
    refine writeHyphLines_left hf (fun hn => ?_) h
    rw [h3, hn] at e1
    rw [List.map_eq_nil_iff.mp e1.symm] at e2
    have hn : ws = [] := by
      generalize hL : (List.flatten [] : List WPiece) = L at e2
      cases e2 with
      | nil => rfl
      | whole _ => simp at hL
      | broken _ => simp at hL
    rw [hn] at e3
    have : x ∈ (tokens ctx.classes (eng.currentPage s2.eng) sty iss).filterMap id := List.mem_filterMap.mpr ⟨_, hx, rfl⟩
    rw [← e3] at this
    simp at this
  · unfold writeText at h
    obtain ⟨_, s1, _, h⟩ := bind_some h
    obtain ⟨_, s2, _, h⟩ := bind_some h
    obtain ⟨lines, s3, h3, h⟩ := bind_some h
    obtain ⟨_, s4, _, h⟩ := bind_some h
    simp only [total, Option.some.injEq] at h3
    obtain ⟨x, hx⟩ := hw (eng.currentPage s2.eng)
    obtain ⟨ls, e1, e3⟩ := C35_words (cs := ctx.classes) (iss := iss) (width := w) (sty := sty) (s := s2) hm
    refine writeLines_left hf (fun hn => ?_) h
    rw [h3, hn] at e1
    rw [List.map_eq_nil_iff.mp e1.symm] at e3
    have : x ∈ (tokens ctx.classes (eng.currentPage s2.eng) sty iss).filterMap id := List.mem_filterMap.mpr ⟨_, hx, rfl⟩
    rw [← e3] at this
    simp at this

/-- C68, what happens otherwise: after a box with a word the images of the cell, up to the next box, are not in the cell but at the left margin
of the page (at the height of the upper padding edge, and in the size that would fit into the cell). -/
theorem C68_margin (hp : Positions eng) (hs : Stays eng) {left : ℚ} (hf : FeedsLeft eng left) (hl : 0 ≤ left) {mt : Font → Str → ℚ}
    (hm : Measures eng mt) (hh : ∀ w, (ctx.hyphenate w).flatten = w) {n : Nat} (hc : FontOnly s.curr) {v : Str} {padded : Area} (hy0 : 0 ≤ padded.y0)
    (hd : ∀ src d, ctx.describe src = some d → 0 < d.widthPx ∧ 0 < d.heightPx) {st : Styled} {b iss : List Instr}
    (hw : ∀ page sty, ∃ x, some x ∈ tokens ctx.classes page sty b) (hb : ∀ st is, Instr.box st is ∉ iss)
    (ho : ∀ st src curr, Instr.image st src ∈ iss → FontOnly curr → (st.mutatedStyles ctx.classes curr).dim.offsetX < padded.x1 - padded.x0 ∧
      (st.mutatedStyles ctx.classes curr).dim.offsetY < padded.y1 - padded.y0)
    (h : renderCellItems eng ctx (callsAt eng ctx n) v padded (.box st b :: iss) s = some ((), s')) :
    ∃ s1 s2 e, renderTextBox eng ctx (callsAt eng ctx n) st b padded s1 = some ((), s2) ∧ s' = { s2 with eng := e } ∧
      ImagesAt eng ctx s2.curr left padded.y0 (padded.x1 - padded.x0) (padded.y1 - padded.y0) iss s2.eng e := by
  unfold renderCellItems at h
  obtain ⟨height, s0, h0, h⟩ := bind_some h
  obtain ⟨_, s1, h1, h⟩ := bind_some h
  obtain ⟨_, s2, h2, h⟩ := bind_some h
  have hR := fontOnly_rel eng ctx n
  have k0 : FontOnly s0.curr := (textBoxHeight_le hR _ _ _ s hc _ _ h0).2
  have k1 : FontOnly s1.curr := by
    simp only [upd, Option.some.injEq, Prod.mk.injEq, true_and] at h1
    rw [← h1]; exact k0
  have k2 : FontOnly s2.curr := (renderTextBox_le hR (Texts.all _) _ _ _ s1 k1 _ _ h2).2
  obtain ⟨_, _, _, _, _, _, y1, _, s4, _, _, _, _, _, _, _, _, _, g1, g2, _⟩ := C56_geometry_partial hp h2
  have hne : b ≠ [] := by
    rintro rfl
    obtain ⟨x, hx⟩ := hw 0 zeroStyles
    simp [tokens] at hx
  have hx4 := writeTextFnc_left hf hm hh (fun page => hw page _) (g1 hne)
  have hx2 : (eng.getXY s2.eng).1 = left := by
    rw [g2, hp.setTextColor, hp.changeFont, hf.setY _ _ (by rw [hx4]; exact hl), hx4]
  obtain ⟨e, r1, r2⟩ := images_at hs (c := callsAt eng ctx n) (v := v) hl hy0 hd iss s2 hb (fun st src hm => ho st src _ hm k2) hx2
  rw [r1] at h
  simp only [Option.some.injEq, Prod.mk.injEq, true_and] at h
  exact ⟨s1, s2, e, h2, h.symm, r2⟩

/-- Measuring a text does not move. -/
theorem textHeightFnc_xy (hp : Positions eng) (sty : Styles) (iss : List Instr) (w : ℚ) (s : PState E) :
    eng.getXY (textHeightFnc eng ctx sty iss w s).2.eng = eng.getXY s.eng := by
  have loop : ∀ (iss : List Instr) acc (s : PState E), eng.getXY (linesLoop eng ctx.classes w sty iss acc s).2.eng = eng.getXY s.eng := by
    intro iss
    induction iss with
    | nil => intro acc s; rfl
    | cons i iss ih =>
      intro acc s
      cases i with
      | textBlock t =>
        simp only [linesLoop, textOf]
        split
        · exact ih _ _
        · exact (ih _ _).trans (hp.changeFont _ _)
      | paragraph st t =>
        simp only [linesLoop, textOf]
        split
        · exact ih _ _
        · exact (ih _ _).trans (hp.changeFont _ _)
      | _ => exact ih _ _
  have loopH : ∀ (iss : List Instr) acc (s : PState E),
      eng.getXY (linesLoopHyph eng ctx.hyphenate ctx.classes w sty iss acc s).2.eng = eng.getXY s.eng := by
    intro iss
    induction iss with
    | nil => intro acc s; rfl
    | cons i iss ih =>
      intro acc s
      cases i with
      | textBlock t => exact (ih _ _).trans (hp.changeFont _ _)
      | paragraph st t => exact (ih _ _).trans (hp.changeFont _ _)
      | _ => exact ih _ _
  unfold textHeightFnc
  split
  · unfold textHeightHyphenated textLinesHyphenated
    simp only [loopH, hp.changeFont]
  · unfold textHeight textLines
    simp only [loop, hp.changeFont]

/-- Measuring a box does not move. -/
theorem textBoxHeight_xy (hp : Positions eng) {st : Styled} {iss : List Instr} {pa : Area} {h : ℚ} (h0 : textBoxHeight eng ctx st iss pa s = some (h, s')) :
    eng.getXY s'.eng = eng.getXY s.eng := by
  unfold textBoxHeight at h0
  obtain ⟨c0, s3, h3, h0⟩ := bind_some h0
  simp only [MonadState.get, getThe, MonadStateOf.get, StateT.get, Pure.pure, Option.some.injEq, Prod.mk.injEq] at h3
  obtain ⟨rfl, rfl⟩ := h3
  obtain ⟨hh, s4, h4, h0⟩ := bind_some h0
  obtain ⟨_, s5, h5, h0⟩ := bind_some h0
  simp only [resetStyles, Pure.pure, StateT.pure, Option.some.injEq, Prod.mk.injEq, true_and] at h5 h0
  rw [← h0.2, ← h5]
  simp only [hp.setTextColor, hp.changeFont]
  unfold boxHeight at h4
  split at h4
  · split at h4
    · simp only [total, Option.some.injEq] at h4
      have := congrArg Prod.snd h4
      simp only at this
      rw [← this, textHeightFnc_xy hp]
    · simp only [ask, Option.some.injEq, Prod.mk.injEq] at h4
      rw [← h4.2]
  · simp only [Pure.pure, StateT.pure, Option.some.injEq, Prod.mk.injEq] at h4
    rw [← h4.2]

/-- C69: where the first box of a cell starts, for all alignments. -/
theorem C69_start (hp : Positions eng) (hs : Stays eng) {c : Calls E} {v : Str} {padded : Area}
    (hx0 : 0 ≤ padded.x0) {st : Styled} {iss is : List Instr} (hx : (eng.getXY s.eng).1 = padded.x0)
    (h : renderCellItems eng ctx c v padded (.box st iss :: is) s = some ((), s')) :
    ∃ height s0 s1 s2 y, textBoxHeight eng ctx st iss padded s = some (height, s0) ∧
      y = (if v = b!"middle" then padded.y0 + height / 2 else if v = b!"bottom" then padded.y0 + height else padded.y0) ∧
      (0 ≤ y → eng.getXY s1.eng = (padded.x0, y)) ∧ renderTextBox eng ctx c st iss padded s1 = some ((), s2) ∧
      renderCellItems eng ctx c v padded is s2 = some ((), s') := by
  unfold renderCellItems at h
  obtain ⟨height, s0, h0, h⟩ := bind_some h
  obtain ⟨_, s1, h1, h⟩ := bind_some h
  obtain ⟨_, s2, h2, h⟩ := bind_some h
  simp only [upd, Option.some.injEq, Prod.mk.injEq, true_and] at h1
  refine ⟨height, s0, s1, s2, _, h0, rfl, fun hy => ?_, h2, h⟩
  have hxy := textBoxHeight_xy hp h0
  rw [← h1]
  simp only [boxTop]
  rw [hs.setY _ _ hy (by rw [hxy, hx]; exact hx0), hxy, hx]

/-- C69, as far as it holds: the first box of a cell with vertical alignment `top` starts at the padding corner. -/
theorem C69_top_partial (hp : Positions eng) (hs : Stays eng) {c : Calls E} {v : Str} (hv : v ≠ b!"middle" ∧ v ≠ b!"bottom") {padded : Area}
    (hx0 : 0 ≤ padded.x0) (hy0 : 0 ≤ padded.y0) {st : Styled} {iss is : List Instr} (hx : (eng.getXY s.eng).1 = padded.x0)
    (h : renderCellItems eng ctx c v padded (.box st iss :: is) s = some ((), s')) :
    ∃ s1 s2, eng.getXY s1.eng = (padded.x0, padded.y0) ∧ renderTextBox eng ctx c st iss padded s1 = some ((), s2) ∧
      renderCellItems eng ctx c v padded is s2 = some ((), s') := by
  obtain ⟨_, _, s1, s2, y, _, hy, h1, h2, h3⟩ := C69_start hp hs hx0 hx h
  rw [if_neg hv.1, if_neg hv.2] at hy
  exact ⟨s1, s2, by rw [h1 (by rw [hy]; exact hy0), hy], h2, h3⟩

/-- C69 is false of the code: with vertical alignment `middle` or `bottom` a box of a cell is where it should be only if the area between
the padding edges happens to be twice as high as the box. -/
theorem C69_aligned_iff {v : Str} (hv : v = b!"middle" ∨ v = b!"bottom") (padded : Area) (h : ℚ) :
    Aligned v padded.y0 padded.y1 h (boxTop v padded h) ↔ padded.y1 - padded.y0 = 2 * h := by
  rcases hv with rfl | rfl
  · simp only [Aligned, boxTop, if_true]
    constructor <;> intro h <;> linarith
  · have : (b!"bottom" : Str) ≠ b!"middle" := by decide
    simp only [Aligned, boxTop, if_neg this, if_true]
    constructor <;> intro h <;> linarith

/-- C70, as far as it holds: an image is put where it stays within the printable area if it is at the top left corner of the area, or if it
has room at its natural size. -/
theorem C70_inside_partial {c : Calls E} {st : Styled} {source : Str} {d : ImageDesc} {sty : Styles} {pa : Area} {x y w0 h0 : ℚ}
    (hsty : sty = st.mutatedStyles ctx.classes s.curr) (hpa : pa = eng.printableArea s.eng) (hxy : eng.getXY s.eng = (x, y))
    (hd : ctx.describe (ctx.resolve source) = some d) (hd' : 0 < d.widthPx ∧ 0 < d.heightPx) (hn : NaturalSize d sty w0 h0)
    (hx0 : pa.x0 ≤ x) (hy0 : pa.y0 ≤ y) (hox : 0 ≤ sty.dim.offsetX) (hoy : 0 ≤ sty.dim.offsetY)
    (h : x = pa.x0 ∧ y = pa.y0 ∧ sty.dim.offsetX < pa.x1 - pa.x0 ∧ sty.dim.offsetY < pa.y1 - pa.y0 ∨
      0 < w0 ∧ 0 < h0 ∧ x + sty.dim.offsetX + w0 ≤ pa.x1 ∧ y + sty.dim.offsetY + h0 ≤ pa.y1) :
    ∃ X Y w h, processInstr eng ctx c (.image st source) s = some ((), { s with eng := eng.putImage (ctx.resolve source) X Y w h s.eng }) ∧
      pa.x0 ≤ X ∧ pa.y0 ≤ Y ∧ X + w ≤ pa.x1 ∧ Y + h ≤ pa.y1 := by
  subst hsty hpa
  have h12 : (st.mutatedStyles ctx.classes s.curr).dim.offsetX < (eng.printableArea s.eng).x1 - (eng.printableArea s.eng).x0 ∧
      (st.mutatedStyles ctx.classes s.curr).dim.offsetY < (eng.printableArea s.eng).y1 - (eng.printableArea s.eng).y0 := by
    rcases h with ⟨_, _, a, b⟩ | ⟨a1, a2, a3, a4⟩
    · exact ⟨a, b⟩
    · constructor <;> linarith
  have run : processInstr eng ctx c (.image st source) s = renderImage eng ctx st source (eng.printableArea s.eng) s := by
    simp only [processInstr, bind_eq, ask, Option.bind_some]
  have hs := placeImage_size d hd'.1 hd'.2 (st.mutatedStyles ctx.classes s.curr) x y (eng.printableArea s.eng) h12.1 h12.2
  refine ⟨x + _, y + _, _, _, by rw [run]; simp only [renderImage, hd, hxy]; rfl, by linarith, by linarith, ?_⟩
  obtain ⟨f1, f2⟩ := hs.fits
  obtain ⟨w1, h1, n, _, l1, l2, _⟩ := hs.natural
  obtain ⟨e1, e2⟩ := natural_unique hd'.1 hd'.2 hn n
  rcases h with ⟨a, b, _⟩ | ⟨_, _, a3, a4⟩
  · subst a b; constructor <;> linarith
  · constructor <;> linarith

/-- C70: what is true in any case. An image is put at the position plus its offset; it reaches beyond the area at most as far as the position
is away from the corner; and if at its natural size it fits into the area, but not into what is left of it, then it reaches beyond the area. -/
theorem C70_beyond {c : Calls E} {st : Styled} {source : Str} {d : ImageDesc} {sty : Styles} {pa : Area} {x y w0 h0 : ℚ}
    (hsty : sty = st.mutatedStyles ctx.classes s.curr) (hpa : pa = eng.printableArea s.eng) (hxy : eng.getXY s.eng = (x, y))
    (hd : ctx.describe (ctx.resolve source) = some d) (hd' : 0 < d.widthPx ∧ 0 < d.heightPx) (hn : NaturalSize d sty w0 h0)
    (hox : sty.dim.offsetX < pa.x1 - pa.x0) (hoy : sty.dim.offsetY < pa.y1 - pa.y0) :
    ∃ w h, processInstr eng ctx c (.image st source) s = some ((), { s with
        eng := eng.putImage (ctx.resolve source) (x + sty.dim.offsetX) (y + sty.dim.offsetY) w h s.eng }) ∧
      x + sty.dim.offsetX + w ≤ pa.x1 + (x - pa.x0) ∧ y + sty.dim.offsetY + h ≤ pa.y1 + (y - pa.y0) ∧
      (sty.dim.offsetX + w0 ≤ pa.x1 - pa.x0 → sty.dim.offsetY + h0 ≤ pa.y1 - pa.y0 →
        (x + sty.dim.offsetX + w ≤ pa.x1 ∧ y + sty.dim.offsetY + h ≤ pa.y1 ↔
          x + sty.dim.offsetX + w0 ≤ pa.x1 ∧ y + sty.dim.offsetY + h0 ≤ pa.y1)) := by
  subst hsty hpa
  have run : processInstr eng ctx c (.image st source) s = renderImage eng ctx st source (eng.printableArea s.eng) s := by
    simp only [processInstr, bind_eq, ask, Option.bind_some]
  have hs := placeImage_size d hd'.1 hd'.2 (st.mutatedStyles ctx.classes s.curr) x y (eng.printableArea s.eng) hox hoy
  refine ⟨_, _, by rw [run]; simp only [renderImage, hd, hxy]; rfl, ?_⟩
  obtain ⟨f1, f2⟩ := hs.fits
  refine ⟨by linarith, by linarith, fun g1 g2 => ?_⟩
  obtain ⟨w1, h1, n, r, l1, l2, m⟩ := hs.natural
  obtain ⟨e1, e2⟩ := natural_unique hd'.1 hd'.2 hn n
  rw [e1, e2] at r m
  rw [e1] at l1
  rw [e2] at l2
  have p1 := lt_of_lt_of_le hs.pos.1 l1
  have p2 := lt_of_lt_of_le hs.pos.2 l2
  have hb : (placeImage d (st.mutatedStyles ctx.classes s.curr) x y (eng.printableArea s.eng)).width = w0 ∧
      (placeImage d (st.mutatedStyles ctx.classes s.curr) x y (eng.printableArea s.eng)).height = h0 := by
    rcases m with m | m | m
    · exact m
    · have e : (placeImage d (st.mutatedStyles ctx.classes s.curr) x y (eng.printableArea s.eng)).width = w0 := le_antisymm l1 (by linarith)
      exact ⟨e, mul_right_cancel₀ p1.ne' (by rw [← r, e]; ring)⟩
    · have e : (placeImage d (st.mutatedStyles ctx.classes s.curr) x y (eng.printableArea s.eng)).height = h0 := le_antisymm l2 (by linarith)
      exact ⟨mul_right_cancel₀ p2.ne' (by rw [r, e]; ring), e⟩
  rw [hb.1, hb.2]

/-! ### The engine of the program meets the assumptions; examples -/

theorem stays_fpdf (p : Paper) : Stays (Fpdf.engine p) where
  setY y e hy hx := by
    have hx' : 0 ≤ e.x := hx
    simp [Fpdf.engine, Fpdf.setY, Fpdf.setX, hy, hx']
  image src x y w h e := rfl

theorem feedsLeft_fpdf (p : Paper) : FeedsLeft (Fpdf.engine p) p.margins.left where
  lineFeed n e := rfl
  setY y e hx := by
    have hx' : 0 ≤ e.x := hx
    simp [Fpdf.engine, Fpdf.setY, Fpdf.setX, hx']

private def exCtx : Ctx :=
  { classes := [], header := [], footer := [], body := [], hyphenate := exHyph, resolve := fun s => b!"/dir/" ++ s,
    describe := fun s => if s = b!"/dir/a.png" then some ⟨96, 48⟩ else none }

private def exStart : PState Fpdf := newProcessor { Fpdf.new exPaper with page := 1, y := 60 }

/-- The texts and images. -/
private def things (e : Fpdf) : List (Str × ℚ × ℚ × ℚ × ℚ) := e.out.filterMap fun
  | .text _ x y _ _ t => some (t, x, y, 0, 0)
  | .image _ src x y w h => some (src, x, y, w, h)
  | .draw _ (.fillRect x y w h) => some (b!"box", x, y, w, h)
  | _ => none

private def exCell (v : Str) (iss : List Instr) : Option (List (Str × ℚ × ℚ × ℚ × ℚ)) :=
  (renderCell (Fpdf.engine exPaper) exCtx (callsAt (Fpdf.engine exPaper) exCtx 1) ⟨30, 20, 60, 50⟩
    { defaultStyle with align := ⟨b!"left", v⟩, lineWidth := 0, box := { defaultStyle.box with padding := ⟨1, 2, 3, 4⟩ } } iss exStart).map
    fun r => things r.2.eng

/-- A cell from (30, 20) to (60, 50) with padding: its images are at (31, 22); the one that cannot be read is left out. -/
example : exCell b!"top" [.textBlock b!"t", .image ⟨[], []⟩ b!"a.png", .image ⟨[], []⟩ b!"b.png", .image ⟨[[([2, 0], .flt 10)]], []⟩ b!"a.png"] =
    some [(b!"box", 30, 20, 30, 30), (b!"t", 31, 22, 0, 0), (b!"/dir/a.png", 31, 22, 127 / 5, 127 / 10), (b!"/dir/a.png", 31, 22, 10, 5)] := by
  decide +kernel

/-- C68 is false of the code: an image that comes after a box is at the left margin of the page, outside the cell. -/
theorem C68_after_box : exCell b!"top" [.box ⟨[[([6, 0], .flt 0)]], []⟩ [.textBlock b!"t"], .image ⟨[], []⟩ b!"a.png"] =
    some [(b!"box", 30, 20, 30, 30), (b!"box", 31, 22, 26, 127 / 30), (b!"t", 31, 22, 0, 0), (b!"/dir/a.png", 10, 22, 127 / 5, 127 / 10)] := by
  decide +kernel

/-- C69 is false of the code: a box of height 20 at the bottom of the cell begins at 42 and reaches out of the cell, which ends at 50. -/
theorem C69_bottom : exCell b!"bottom" [.box ⟨[[([6, 0], .flt 0), ([2, 1], .flt 20)]], []⟩ [.textBlock b!"t"]] =
    some [(b!"box", 30, 20, 30, 30), (b!"box", 31, 42, 26, 20), (b!"t", 31, 42, 0, 0)] := by
  decide +kernel

/-- C70 is false of the code: an image near the bottom of the page (whose printable area ends at 90) reaches beyond it. -/
theorem C70_overflow : (processInstr (Fpdf.engine exPaper) exCtx (callsAt (Fpdf.engine exPaper) exCtx 1) (.image ⟨[], []⟩ b!"a.png")
      { exStart with eng := { exStart.eng with y := 80 } }).map (fun r => things r.2.eng) =
    some [(b!"/dir/a.png", 10, 80, 127 / 5, 127 / 10)] := by
  decide +kernel

/-- The natural size of the image is 25.4 mm by 12.7 mm. -/
private theorem exNatural (sty : Styles) (h1 : ¬ 0 < sty.dim.width) (h2 : ¬ 0 < sty.dim.height) : NaturalSize ⟨96, 48⟩ sty (127 / 5) (127 / 10) where
  width h := absurd h h1
  height h := absurd h h2
  ratio _ := by norm_num
  plain _ _ := by norm_num

private def exLow : PState Fpdf := { exStart with eng := { exStart.eng with y := 80 } }

/-- `C70_inside_partial` for an image with an offset that has room where it is. -/
example : ∃ X Y w h, processInstr (Fpdf.engine exPaper) exCtx (callsAt (Fpdf.engine exPaper) exCtx 1) (.image ⟨[[([2, 3], .flt 5)]], []⟩ b!"a.png")
      exStart = some ((), { exStart with eng := (Fpdf.engine exPaper).putImage (exCtx.resolve b!"a.png") X Y w h exStart.eng }) ∧
    10 ≤ X ∧ 10 ≤ Y ∧ X + w ≤ 88 ∧ Y + h ≤ 90 :=
  C70_inside_partial (pa := ⟨10, 10, 88, 90⟩) (x := 10) (y := 60) (d := ⟨96, 48⟩) rfl (by decide +kernel) (by decide +kernel) (by decide +kernel)
    (by decide) (exNatural _ (by decide +kernel) (by decide +kernel)) (by norm_num) (by norm_num) (by decide +kernel) (by decide +kernel)
    (Or.inr (by decide +kernel))

/-- `C70_beyond` for the image of `C70_overflow`: at its natural size it would fit into the area, but not from 80 on, so it is outside. -/
example : ∃ w h, processInstr (Fpdf.engine exPaper) exCtx (callsAt (Fpdf.engine exPaper) exCtx 1) (.image ⟨[], []⟩ b!"a.png") exLow =
      some ((), { exLow with eng := (Fpdf.engine exPaper).putImage (exCtx.resolve b!"a.png") (10 + 0) (80 + 0) w h exLow.eng }) ∧
    ¬ (10 + 0 + w ≤ 88 ∧ 80 + 0 + h ≤ 90) := by
  obtain ⟨w, h, h1, _, _, h4⟩ := C70_beyond (eng := Fpdf.engine exPaper) (ctx := exCtx) (c := callsAt (Fpdf.engine exPaper) exCtx 1) (st := ⟨[], []⟩)
    (source := b!"a.png") (s := exLow) (sty := defaultStyle) (pa := ⟨10, 10, 88, 90⟩) (x := 10) (y := 80) (d := ⟨96, 48⟩) rfl
    (by decide +kernel) (by decide +kernel) (by decide +kernel) (by decide) (exNatural _ (by decide +kernel) (by decide +kernel))
    (by decide +kernel) (by decide +kernel)
  exact ⟨w, h, h1, fun hn => absurd ((h4 (by decide +kernel) (by decide +kernel)).mp hn) (by decide +kernel)⟩

/-- `C68_margin` for the cell of `C68_after_box`. -/
example {s s' : PState Fpdf} (hs : FontOnly s.curr) (h : renderCellItems (Fpdf.engine exPaper) exCtx (callsAt (Fpdf.engine exPaper) exCtx 1)
      b!"top" ⟨31, 22, 57, 46⟩ [.box ⟨[[([6, 0], .flt 0)]], []⟩ [.textBlock b!"t"], .image ⟨[], []⟩ b!"a.png"] s = some ((), s')) :
    ∃ s1 s2 e, renderTextBox (Fpdf.engine exPaper) exCtx (callsAt (Fpdf.engine exPaper) exCtx 1) ⟨[[([6, 0], .flt 0)]], []⟩ [.textBlock b!"t"]
        ⟨31, 22, 57, 46⟩ s1 = some ((), s2) ∧ s' = { s2 with eng := e } ∧
      ImagesAt (Fpdf.engine exPaper) exCtx s2.curr 10 22 (57 - 31) (46 - 22) [.image ⟨[], []⟩ b!"a.png"] s2.eng e := by
  refine C68_margin (mt := exPaper.metric) (positions_fpdf _) (stays_fpdf _) (feedsLeft_fpdf exPaper) (by decide +kernel) (measures_fpdf _) ?_
    hs (by norm_num) ?_ ?_ (by simp) ?_ h
  · intro w
    show (exHyph w).flatten = w
    unfold exHyph; split
    · rename_i h; rw [h]; decide
    · simp
  · intro src d hd
    simp only [exCtx] at hd
    split at hd <;> simp at hd
    subst hd; decide
  · intro page sty
    have h1 : replaceAll b!"{cp}" (itoa page) b!"t" = b!"t" := by simp [replaceAll, replaceAux]
    have h2 : wordsOf page b!"t" = [b!"t"] := by unfold wordsOf piecesOf; rw [h1]; decide +kernel
    exact ⟨(sty, b!"t"), by simp [tokens, h2]⟩
  · rintro st src curr hm ⟨f, rfl⟩
    simp only [List.mem_singleton, Instr.image.injEq] at hm
    rw [hm.1]
    show (0 : ℚ) < 57 - 31 ∧ (0 : ℚ) < 46 - 22
    norm_num

end Verif.Props
