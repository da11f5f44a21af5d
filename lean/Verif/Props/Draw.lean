import Verif.Model.Draw
import Verif.Model.Image
import Verif.Spec.Draw
import Mathlib.Tactic.Linarith
import Mathlib.Tactic.FieldSimp
import Mathlib.Tactic.Positivity
import Mathlib.Tactic.Ring
import Mathlib.Algebra.Order.Field.Rat
/-
Properties C34 (image.go), C45 (dim.go), C46 (draw.go).
-/
namespace Verif.Props
open Verif.Go Verif.Model Verif.Spec

/-! ### C45 -/

/-- C45: a width within the area is kept. -/
theorem C45_kept (a : Area) (w : ℚ) (h0 : 0 ≤ w) (h1 : w ≤ a.x1 - a.x0) :
    a.effectiveWidth w = w ∧ (Page.mk a).effectiveWidth w = w := by
  have h : ¬ (w < 0 ∨ w > a.x1 - a.x0) := by rintro (h | h) <;> linarith
  simp [Area.effectiveWidth, Page.effectiveWidth, Area.width, h]

/-- C45: any other width becomes the width of the area. -/
theorem C45_clamped (a : Area) (w : ℚ) (h : ¬ (0 ≤ w ∧ w ≤ a.x1 - a.x0)) :
    a.effectiveWidth w = a.x1 - a.x0 ∧ (Page.mk a).effectiveWidth w = a.x1 - a.x0 := by
  have h : w < 0 ∨ w > a.x1 - a.x0 := by
    by_contra hc; push Not at hc; exact h hc
  simp [Area.effectiveWidth, Page.effectiveWidth, Area.width, h]

/-- C45: the effective width never exceeds the width of the area. -/
theorem C45_at_most (a : Area) (w : ℚ) : a.effectiveWidth w ≤ a.x1 - a.x0 ∧ (Page.mk a).effectiveWidth w ≤ a.x1 - a.x0 := by
  by_cases h : 0 ≤ w ∧ w ≤ a.x1 - a.x0
  · rw [(C45_kept a w h.1 h.2).1, (C45_kept a w h.1 h.2).2]; exact ⟨h.2, h.2⟩
  · rw [(C45_clamped a w h).1, (C45_clamped a w h).2]; exact ⟨le_rfl, le_rfl⟩

/-- C45 (boundary): also for an empty or inverted area the result is its width, whatever is asked for. -/
theorem C45_inverted (a : Area) (w : ℚ) (h : a.x1 < a.x0) : a.effectiveWidth w = a.x1 - a.x0 :=
  (C45_clamped a w (by rintro ⟨h1, h2⟩; linarith)).1

example : (⟨10, 0, 110, 50⟩ : Area).effectiveWidth 30 = 30 ∧ (⟨10, 0, 110, 50⟩ : Area).effectiveWidth (-1) = 100 ∧
    (⟨10, 0, 110, 50⟩ : Area).effectiveWidth 101 = 100 := by decide +kernel

/-! ### C46 -/

/-- The four edges of a rectangle with their border values, in drawing order; the top edge starts at `x0 - half`. -/
def boxEdges (x0 y0 x1 y1 half : ℚ) (b : Quad Int) : List (Int × Seg) :=
  [(b.top, ⟨x0 - half, y0, x1, y0⟩), (b.right, ⟨x1, y0, x1, y1⟩), (b.bottom, ⟨x1, y1, x0, y1⟩), (b.left, ⟨x0, y1, x0, y0⟩)]

/-- C46: executed by any pen with nothing pending, drawBox leaves exactly: one filled rectangle in the background color,
the box inset by half a line on each side; then, in the foreground color and the style's line width, exactly the edges
whose border value is positive. -/
theorem C46_ink (p : Pen) (hp : p.path = []) (x0 y0 x1 y1 : ℚ) (sty : Styles) :
    p.ink (drawBox x0 y0 x1 y1 sty) =
      .fill sty.color.background (x0 + sty.lineWidth / 2) (y0 + sty.lineWidth / 2)
        (x1 - x0 - sty.lineWidth) (y1 - y0 - sty.lineWidth) ::
      ((boxEdges x0 y0 x1 y1 (sty.lineWidth / 2) sty.box.border).filter (fun e => e.1 > 0)).map
        (fun e => .stroke sty.color.foreground sty.lineWidth e.2) := by
  have e1 : x0 + (x1 - x0) = x1 := by ring
  have e2 : x1 - x0 - 2 * (sty.lineWidth / 2) = x1 - x0 - sty.lineWidth := by ring
  have e3 : y1 - y0 - 2 * (sty.lineWidth / 2) = y1 - y0 - sty.lineWidth := by ring
  by_cases ht : sty.box.border.top > 0 <;> by_cases hr : sty.box.border.right > 0 <;>
    by_cases hb : sty.box.border.bottom > 0 <;> by_cases hl : sty.box.border.left > 0 <;>
    simp [drawBox, edge, Pen.ink, Pen.exec, boxEdges, hp, ht, hr, hb, hl, e1, e2, e3]

/-- C46: a box without positive border strokes nothing, a box with all four strokes four segments. -/
theorem C46_count (p : Pen) (hp : p.path = []) (x0 y0 x1 y1 : ℚ) (sty : Styles) :
    (p.ink (drawBox x0 y0 x1 y1 sty)).length = 1 +
      (if sty.box.border.top > 0 then 1 else 0) + (if sty.box.border.right > 0 then 1 else 0) +
      (if sty.box.border.bottom > 0 then 1 else 0) + (if sty.box.border.left > 0 then 1 else 0) := by
  rw [C46_ink p hp]
  by_cases ht : sty.box.border.top > 0 <;> by_cases hr : sty.box.border.right > 0 <;>
    by_cases hb : sty.box.border.bottom > 0 <;> by_cases hl : sty.box.border.left > 0 <;>
    simp [boxEdges, ht, hr, hb, hl]

private theorem ink_append (cs ds : List DrawCmd) : ∀ p : Pen, p.ink (cs ++ ds) = p.ink cs ++ (p.run cs).ink ds := by
  induction cs with
  | nil => intro p; rfl
  | cons c cs ih => intro p; simp [Pen.ink, Pen.run, ih]

/-- C46: the box leaves no path pending, so drawing boxes one after the other draws each as if alone. -/
theorem C46_compose (p : Pen) (cs : List DrawCmd) (x0 y0 x1 y1 : ℚ) (sty : Styles) :
    (p.run (drawBox x0 y0 x1 y1 sty)).path = [] ∧
    p.ink (drawBox x0 y0 x1 y1 sty ++ cs) = p.ink (drawBox x0 y0 x1 y1 sty) ++ (p.run (drawBox x0 y0 x1 y1 sty)).ink cs := by
  refine ⟨?_, ink_append _ _ _⟩
  simp [drawBox, Pen.run, Pen.exec]

example : (⟨0, 0, 1, black, black, []⟩ : Pen).ink (drawBox 10 20 40 30
    { defaultStyle with box := { defaultStyle.box with border := ⟨1, 0, -1, 2⟩ }, lineWidth := 2 }) =
    [.fill white 11 21 28 8, .stroke black 2 ⟨40, 30, 10, 30⟩, .stroke black 2 ⟨10, 30, 10, 20⟩] := by
  decide +kernel

/-! ### C34 -/

theorem imageFit_scale (pw ph w h : ℚ) (hpw : 0 < pw) (hph : 0 < ph) (hw : 0 < w) (hh : 0 < h) :
    ∃ k, 0 < k ∧ k ≤ 1 ∧ imageFit pw ph w h = (k * w, k * h) ∧ k * w ≤ pw ∧ k * h ≤ ph ∧
      (k = 1 ∨ k * w = pw ∨ k * h = ph) := by
  unfold imageFit
  by_cases c1 : w > pw
  · have hk1 : pw / w ≤ 1 := by rw [div_le_one hw]; exact le_of_lt c1
    have hw1 : pw / w * w = pw := by field_simp
    by_cases c2 : h * pw / w > ph
    · have hpos : 0 < h * pw / w := by positivity
      refine ⟨ph / h, by positivity, ?_, ?_, ?_, ?_, Or.inr (Or.inr (by field_simp))⟩
      · rw [div_le_one hh]
        have : h * pw / w ≤ h := by rw [div_le_iff₀ hw]; nlinarith
        linarith
      · simp only [c1, c2, if_true]
        refine Prod.ext ?_ ?_ <;> simp <;> field_simp
      · rw [gt_iff_lt, lt_div_iff₀ hw] at c2
        rw [div_mul_eq_mul_div, div_le_iff₀ hh]; nlinarith
      · field_simp; exact le_rfl
    · refine ⟨pw / w, by positivity, hk1, ?_, by rw [hw1], ?_, Or.inr (Or.inl hw1)⟩
      · simp only [c1, c2, if_true, if_false]
        refine Prod.ext ?_ ?_ <;> simp <;> field_simp
      · push Not at c2; calc pw / w * h = h * pw / w := by ring
          _ ≤ ph := c2
  · by_cases c2 : h > ph
    · push Not at c1
      refine ⟨ph / h, by positivity, ?_, ?_, ?_, ?_, Or.inr (Or.inr (by field_simp))⟩
      · rw [div_le_one hh]; exact le_of_lt c2
      · have c1' : ¬ w > pw := by push Not; exact c1
        simp only [c1', c2, if_true, if_false]
        refine Prod.ext ?_ ?_ <;> simp <;> field_simp
      · rw [div_mul_eq_mul_div, div_le_iff₀ hh]; nlinarith
      · field_simp; exact le_rfl
    · refine ⟨1, one_pos, le_rfl, ?_, ?_, ?_, Or.inl rfl⟩
      · simp [c1, c2]
      · push Not at c1; linarith
      · push Not at c2; linarith

/-- The size asked for, by cases on the size styles: `r` is the pixel aspect ratio width/height. -/
theorem imageWanted_cases (d : ImageDesc) (hw : 0 < d.widthPx) (hh : 0 < d.heightPx) (sty : Styles) :
    0 < (imageWanted d sty).1 ∧ 0 < (imageWanted d sty).2 ∧
    (¬ (0 < sty.dim.width ∧ 0 < sty.dim.height) →
      (imageWanted d sty).1 * d.heightPx = (imageWanted d sty).2 * d.widthPx) ∧
    (0 < sty.dim.width → (imageWanted d sty).1 = sty.dim.width) ∧
    (0 < sty.dim.height → (imageWanted d sty).2 = sty.dim.height) ∧
    (¬ 0 < sty.dim.width → ¬ 0 < sty.dim.height →
      (imageWanted d sty).1 = d.widthPx * 254 / 960 ∧ (imageWanted d sty).2 = d.heightPx * 254 / 960) := by
  have hw' : (0 : ℚ) < d.widthPx := by exact_mod_cast hw
  have hh' : (0 : ℚ) < d.heightPx := by exact_mod_cast hh
  unfold imageWanted ImageDesc.widthMm ImageDesc.heightMm dpi96
  by_cases c1 : 0 < sty.dim.width <;> by_cases c2 : 0 < sty.dim.height
  · simp [c1, c2]
  · have c2' : sty.dim.height ≤ 0 := by push Not at c2; exact c2
    simp only [gt_iff_lt, c1, c2, c2', and_true, and_false, if_false, if_true, not_true, not_false_iff, true_implies,
      false_implies, and_self, true_and, implies_true]
    refine ⟨by positivity, ?_⟩
    field_simp
  · have c1' : sty.dim.width ≤ 0 := by push Not at c1; exact c1
    simp only [gt_iff_lt, c1, c2, c1', and_true, false_and, if_false, if_true, not_true, not_false_iff, true_implies,
      false_implies, and_self, true_and, implies_true]
    refine ⟨by positivity, ?_⟩
    field_simp
  · simp only [gt_iff_lt, c1, c2, and_false, and_true, false_and, if_false, not_false_iff, true_implies, false_implies,
      true_and]
    refine ⟨by positivity, by positivity, ?_, ?_⟩
    · field_simp
    · constructor <;> ring

/-- C34: the image never exceeds the area (after the offset), and it is the wanted size scaled by one factor `k ≤ 1`
in both directions, as large as possible: either unscaled or touching the area in one direction. -/
theorem C34_fits (d : ImageDesc) (hw : 0 < d.widthPx) (hh : 0 < d.heightPx) (sty : Styles) (x y : ℚ) (pa : Area)
    (hpw : sty.dim.offsetX < pa.x1 - pa.x0) (hph : sty.dim.offsetY < pa.y1 - pa.y0) :
    let r := placeImage d sty x y pa
    0 < r.width ∧ 0 < r.height ∧ r.width ≤ pa.x1 - pa.x0 - sty.dim.offsetX ∧ r.height ≤ pa.y1 - pa.y0 - sty.dim.offsetY ∧
    r.x = x + sty.dim.offsetX ∧ r.y = y + sty.dim.offsetY := by
  obtain ⟨w1, h1, -⟩ := imageWanted_cases d hw hh sty
  obtain ⟨k, k0, k1, e, e1, e2, -⟩ := imageFit_scale (pa.width - sty.dim.offsetX) (pa.height - sty.dim.offsetY) _ _
    (by unfold Area.width; linarith) (by unfold Area.height; linarith) w1 h1
  simp only [placeImage, e]
  exact ⟨by positivity, by positivity, e1, e2, trivial, trivial⟩

/-- C34: unless both width and height are set by style, width : height is the pixel aspect ratio. -/
theorem C34_aspect (d : ImageDesc) (hw : 0 < d.widthPx) (hh : 0 < d.heightPx) (sty : Styles) (x y : ℚ) (pa : Area)
    (hpw : sty.dim.offsetX < pa.x1 - pa.x0) (hph : sty.dim.offsetY < pa.y1 - pa.y0)
    (hs : ¬ (0 < sty.dim.width ∧ 0 < sty.dim.height)) :
    (placeImage d sty x y pa).width * d.heightPx = (placeImage d sty x y pa).height * d.widthPx := by
  obtain ⟨w1, h1, ha, -⟩ := imageWanted_cases d hw hh sty
  obtain ⟨k, k0, k1, e, -⟩ := imageFit_scale (pa.width - sty.dim.offsetX) (pa.height - sty.dim.offsetY) _ _
    (by unfold Area.width; linarith) (by unfold Area.height; linarith) w1 h1
  simp only [placeImage, e]
  rw [mul_assoc, ha hs, mul_assoc]

/-- C34: if both are set by style, the ratio of the styles is kept. -/
theorem C34_style_aspect (d : ImageDesc) (hw : 0 < d.widthPx) (hh : 0 < d.heightPx) (sty : Styles) (x y : ℚ) (pa : Area)
    (hpw : sty.dim.offsetX < pa.x1 - pa.x0) (hph : sty.dim.offsetY < pa.y1 - pa.y0)
    (hs : 0 < sty.dim.width) (hs' : 0 < sty.dim.height) :
    (placeImage d sty x y pa).width * sty.dim.height = (placeImage d sty x y pa).height * sty.dim.width := by
  obtain ⟨w1, h1, -, hw', hh', -⟩ := imageWanted_cases d hw hh sty
  obtain ⟨k, k0, k1, e, -⟩ := imageFit_scale (pa.width - sty.dim.offsetX) (pa.height - sty.dim.offsetY) _ _
    (by unfold Area.width; linarith) (by unfold Area.height; linarith) w1 h1
  simp only [placeImage, e]
  rw [hw' hs, hh' hs']; ring

/-- C34: the image is not shrunk more than needed: it has the wanted size, or it touches the area in one direction. -/
theorem C34_largest (d : ImageDesc) (hw : 0 < d.widthPx) (hh : 0 < d.heightPx) (sty : Styles) (x y : ℚ) (pa : Area)
    (hpw : sty.dim.offsetX < pa.x1 - pa.x0) (hph : sty.dim.offsetY < pa.y1 - pa.y0) :
    let r := placeImage d sty x y pa
    (0 < sty.dim.width → r.width ≤ sty.dim.width) ∧ (0 < sty.dim.height → r.height ≤ sty.dim.height) ∧
    ((0 < sty.dim.width → r.width = sty.dim.width) ∧ (0 < sty.dim.height → r.height = sty.dim.height) ∧
      (¬ 0 < sty.dim.width → ¬ 0 < sty.dim.height →
        r.width = d.widthPx * 254 / 960 ∧ r.height = d.heightPx * 254 / 960) ∨
     r.width = pa.x1 - pa.x0 - sty.dim.offsetX ∨ r.height = pa.y1 - pa.y0 - sty.dim.offsetY) := by
  obtain ⟨w1, h1, -, hw', hh', hn⟩ := imageWanted_cases d hw hh sty
  obtain ⟨k, k0, k1, e, e1, e2, e3⟩ := imageFit_scale (pa.width - sty.dim.offsetX) (pa.height - sty.dim.offsetY) _ _
    (by unfold Area.width; linarith) (by unfold Area.height; linarith) w1 h1
  simp only [placeImage, e]
  refine ⟨fun h => ?_, fun h => ?_, ?_⟩
  · rw [hw' h]; nlinarith
  · rw [hh' h]; nlinarith
  · rcases e3 with rfl | e3 | e3
    · left; simp only [one_mul]; exact ⟨hw', hh', hn⟩
    · exact .inr (.inl e3)
    · exact .inr (.inr e3)

/-- C34: an image that fits and has no size style keeps its natural size (1 px = 25.4/96 mm). -/
theorem C34_natural (d : ImageDesc) (sty : Styles) (x y : ℚ) (pa : Area)
    (h1 : ¬ 0 < sty.dim.width) (h2 : ¬ 0 < sty.dim.height)
    (hpw : d.widthPx * 254 / 960 ≤ pa.x1 - pa.x0 - sty.dim.offsetX) (hph : d.heightPx * 254 / 960 ≤ pa.y1 - pa.y0 - sty.dim.offsetY) :
    (placeImage d sty x y pa).width = d.widthPx * 254 / 960 ∧ (placeImage d sty x y pa).height = d.heightPx * 254 / 960 := by
  have hw : imageWanted d sty = ((d.widthPx : ℚ) * 254 / 960, (d.heightPx : ℚ) * 254 / 960) := by
    unfold imageWanted ImageDesc.widthMm ImageDesc.heightMm dpi96
    simp only [gt_iff_lt, h1, h2, and_false, and_true, false_and, if_false]
    refine Prod.ext ?_ ?_ <;> ring
  have c1 : ¬ ((d.widthPx : ℚ) * 254 / 960 > pa.width - sty.dim.offsetX) := by unfold Area.width; push Not; exact hpw
  have c2 : ¬ ((d.heightPx : ℚ) * 254 / 960 > pa.height - sty.dim.offsetY) := by unfold Area.height; push Not; exact hph
  simp [placeImage, hw, imageFit, c1, c2]

/-- C34, exactly: the size that the styles and the pixels ask for, scaled down as little as needed. -/
theorem C34_exact (d : ImageDesc) (hw : 0 < d.widthPx) (hh : 0 < d.heightPx) (sty : Styles) (x y : ℚ) (pa : Area)
    (hpw : sty.dim.offsetX < pa.x1 - pa.x0) (hph : sty.dim.offsetY < pa.y1 - pa.y0) :
    let w : ℚ := if 0 < sty.dim.width then sty.dim.width else if 0 < sty.dim.height then sty.dim.height * d.widthPx / d.heightPx else d.widthPx * 254 / 960
    let h : ℚ := if 0 < sty.dim.height then sty.dim.height else if 0 < sty.dim.width then sty.dim.width * d.heightPx / d.widthPx else d.heightPx * 254 / 960
    let k := min 1 (min ((pa.x1 - pa.x0 - sty.dim.offsetX) / w) ((pa.y1 - pa.y0 - sty.dim.offsetY) / h))
    placeImage d sty x y pa = ⟨x + sty.dim.offsetX, y + sty.dim.offsetY, k * w, k * h⟩ := by
  intro w h k
  have hw' : (0 : ℚ) < d.widthPx := by exact_mod_cast hw
  have hh' : (0 : ℚ) < d.heightPx := by exact_mod_cast hh
  obtain ⟨w1, h1, ha, hsw, hsh, hn⟩ := imageWanted_cases d hw hh sty
  obtain ⟨k', k0, k1, e, e1, e2, e3⟩ := imageFit_scale (pa.width - sty.dim.offsetX) (pa.height - sty.dim.offsetY) _ _
    (by unfold Area.width; linarith) (by unfold Area.height; linarith) w1 h1
  have ew : (imageWanted d sty).1 = w := by
    by_cases c1 : 0 < sty.dim.width
    · rw [hsw c1]; exact (if_pos c1).symm
    · by_cases c2 : 0 < sty.dim.height
      · have := ha (fun c => c1 c.1)
        rw [hsh c2] at this
        rw [show w = sty.dim.height * d.widthPx / d.heightPx from (if_neg c1).trans (if_pos c2), eq_div_iff hh'.ne']
        exact this
      · rw [(hn c1 c2).1]; exact ((if_neg c1).trans (if_neg c2)).symm
  have eh : (imageWanted d sty).2 = h := by
    by_cases c2 : 0 < sty.dim.height
    · rw [hsh c2]; exact (if_pos c2).symm
    · by_cases c1 : 0 < sty.dim.width
      · have := ha (fun c => c2 c.2)
        rw [hsw c1] at this
        rw [show h = sty.dim.width * d.heightPx / d.widthPx from (if_neg c2).trans (if_pos c1), eq_div_iff hw'.ne']
        exact this.symm
      · rw [(hn c1 c2).2]; exact ((if_neg c2).trans (if_neg c1)).symm
  rw [ew] at w1
  rw [eh] at h1
  rw [ew, eh] at e
  rw [ew] at e1 e3
  rw [eh] at e2 e3
  have ek : k' = k := by
    refine le_antisymm (le_min k1 (le_min ((le_div_iff₀ w1).mpr e1) ((le_div_iff₀ h1).mpr e2))) ?_
    rcases e3 with e3 | e3 | e3
    · rw [e3]; exact min_le_left _ _
    · rw [show k' = (pa.x1 - pa.x0 - sty.dim.offsetX) / w from (eq_div_iff w1.ne').mpr e3]
      exact le_trans (min_le_right _ _) (min_le_left _ _)
    · rw [show k' = (pa.y1 - pa.y0 - sty.dim.offsetY) / h from (eq_div_iff h1.ne').mpr e3]
      exact le_trans (min_le_right _ _) (min_le_right _ _)
  unfold placeImage
  rw [← ek]
  simp only [ew, eh, e]

-- A 960 x 480 px image (254 x 127 mm) in an area of 100 x 80, with a width style, an offset, and both size styles.
example : placeImage ⟨960, 480⟩ defaultStyle 10 20 ⟨0, 0, 100, 80⟩ = ⟨10, 20, 100, 50⟩ := by decide +kernel
example : placeImage ⟨960, 480⟩ { defaultStyle with dim := { defaultStyle.dim with height := 60, offsetX := 20, offsetY := 50 } }
    10 20 ⟨0, 0, 100, 80⟩ = ⟨30, 70, 60, 30⟩ := by decide +kernel
example : placeImage ⟨960, 480⟩ { defaultStyle with dim := { defaultStyle.dim with width := 50, height := 160 } }
    10 20 ⟨0, 0, 100, 80⟩ = ⟨10, 20, 25, 80⟩ := by decide +kernel

end Verif.Props
