import Verif.Proofs.PageNumber
import Verif.Props.Process
import Verif.Props.Hyphen
import Verif.Props.RenderTable
import Verif.Props.TextLines
import Mathlib.Tactic.Ring
import Mathlib.Tactic.Linarith
/-
Properties C53-C56: page numbers, instructions, cells and boxes (/repo/process.go, renderCell in /repo/table.go).  Also C29, C30 and
C47 for the processor and its engine.
-/
namespace Verif.Props
open Verif.Go Verif.Model Verif.Proofs Verif.Spec

variable {E : Type} {eng : Engine E} {ctx : Ctx} {n : Nat} {s s' : PState E}

/-! ### C53: page numbers -/

/-- A text with the placeholder in it: without the placeholders it is a list of pieces. -/
theorem C53_pieces (s : Str) : ∃ pieces : List Str, pieces ≠ [] ∧ s = join pieces b!"{cp}" ∧ ∀ x ∈ pieces, ¬ b!"{cp}" <:+: x := by
  have key : ∀ (k : Nat) (s : Str), s.length ≤ k → ∃ pieces : List Str, pieces ≠ [] ∧ s = join pieces cp ∧ ∀ x ∈ pieces, ¬ cp <:+: x := by
    intro k
    induction k with
    | zero =>
      intro s hs
      obtain rfl : s = [] := List.length_eq_zero_iff.mp (by omega)
      exact ⟨[[]], by simp, rfl, by simp [cp]⟩
    | succ k ih =>
      intro s hs
      by_cases h : cp <:+: s
      · -- the last occurrence has no placeholder behind it; the first one is found by taking the shortest front part
        have hex : ∃ m, ∃ a r, a.length = m ∧ s = a ++ cp ++ r := by
          obtain ⟨a, r, e⟩ := h
          exact ⟨_, a, r, rfl, e.symm⟩
        classical
        obtain ⟨a, r, ha, e⟩ := Nat.find_spec hex
        have hmin := @Nat.find_min _ _ hex
        obtain ⟨ps, h1, h2, h3⟩ := ih r (by rw [e] at hs; simp [cp] at hs; omega)
        refine ⟨a :: ps, by simp, ?_, ?_⟩
        · cases ps with
          | nil => exact absurd rfl h1
          | cons q ps => rw [e, h2]; rfl
        · intro x hx
          rcases List.mem_cons.mp hx with rfl | hx
          · rintro ⟨a', r', e'⟩
            refine hmin (m := a'.length) ?_ ⟨a', r' ++ cp ++ r, rfl, ?_⟩
            · rw [← ha, ← e']; simp [cp]
            · rw [e, ← e']; simp [List.append_assoc]
          · exact h3 x hx
      · exact ⟨[s], by simp, rfl, by simpa using h⟩
  exact key s.length s (Nat.le_refl _)

private theorem replace_piece (new r : Str) : ∀ (x : Str), ¬ cp <:+: x → replaceAux cp new 0 (x ++ cp ++ r) = x ++ new ++ replaceAux cp new 0 r := by
  intro x
  induction x with
  | nil => intro _; simpa using replaceAux_prefix (old := cp) (new := new) (by simp [cp]) r
  | cons c x ih =>
    intro h
    have hx : ¬ cp <:+: x := fun hi => h (List.infix_cons_iff.mpr (Or.inr hi))
    have hp : ¬ cp <+: (c :: x) ++ cp ++ r := by
      intro hp
      apply h
      have h4 : ∀ (l : Str), l.length ≥ 4 → cp <+: l ++ cp ++ r → cp <:+: l := by
        intro l hl hp
        rw [List.append_assoc] at hp
        exact (List.prefix_of_prefix_length_le hp (List.prefix_append _ _) (by simpa [cp] using hl)).isInfix
      match x, hp with
      | [], hp => simp [cp] at hp
      | [a], hp => simp [cp] at hp
      | [a, b], hp => simp [cp] at hp
      | a :: b :: d :: x, hp => exact h4 _ (by simp) hp
    rw [List.cons_append, List.cons_append] at hp ⊢
    rw [replaceAux_not_prefix hp, ih hx]
    simp

/-- C53: `tr` (process.go:91-93) puts the page number in the place of each placeholder, and changes nothing else. -/
theorem C53_replaced (e : E) (pieces : List Str) (hp : ∀ x ∈ pieces, ¬ b!"{cp}" <:+: x) :
    tr eng e (join pieces b!"{cp}") = join pieces (itoa (eng.currentPage e)) := by
  show replaceAll cp _ _ = _
  have hr : ∀ t, replaceAll cp (itoa (eng.currentPage e)) t = replaceAux cp (itoa (eng.currentPage e)) 0 t := fun t => by simp [replaceAll, cp]
  rw [hr]
  have last : ∀ (x : Str), ¬ cp <:+: x → replaceAux cp (itoa (eng.currentPage e)) 0 x = x := by
    intro x
    induction x with
    | nil => intro _; rfl
    | cons c x ih =>
      intro h
      rw [replaceAux_not_prefix (fun hi => h hi.isInfix), ih (fun hi => h (List.infix_cons_iff.mpr (Or.inr hi)))]
  induction pieces with
  | nil => rfl
  | cons x ps ih =>
    cases ps with
    | nil => exact last x (hp x (by simp))
    | cons y ps =>
      show replaceAux cp _ 0 (x ++ cp ++ join (y :: ps) cp) = _
      rw [replace_piece _ _ x (hp x (by simp)), ih fun z hz => hp z (List.mem_cons_of_mem _ hz)]
      rfl

/-- C53: the page number is written in decimal digits, without zeros in front. -/
theorem C53_decimal (n : Nat) : Decimal (itoa n) ∧ decimalValue (itoa n) = n := by
  have h : itoa n = natDigits n := by
    unfold itoa
    rw [if_neg (by omega), Int.natAbs_natCast]
  rw [h]
  exact ⟨⟨(natDigits_digit n).1, (natDigits_digit n).2, (natDigits_value n).2⟩, (natDigits_value n).1⟩

/-- C53: whatever the engine does with texts in which the placeholder stands, it does not matter: no such text is written. -/
theorem C53_never_written (hc : ∀ w, (ctx.hyphenate w).flatten <:+: w) (c c' : Calls E) (ha : c.addPage = c'.addPage)
    (hw : ∀ t, ¬ b!"{cp}" <:+: t → c.writeText t = c'.writeText t) (iss : List Instr) (s : PState E) :
    processInstrs eng ctx c iss s = processInstrs eng ctx c' iss s := by
  have rel : ∀ {c c' : Calls E}, c.addPage = c'.addPage → (∀ t, ¬ cp <:+: t → c.writeText t = c'.writeText t) →
      Le (fun _ => True) (processInstrs eng ctx c iss) (processInstrs eng ctx c' iss) := by
    intro c c' ha hw
    have ha' : Le (fun _ => True) c.addPage c'.addPage := fun s _ a s' h => ⟨by rw [← ha]; exact h, trivial⟩
    have hr : Rel eng (fun _ => True) (fun t => ¬ cp <:+: t) c c' :=
      ⟨fun _ _ _ => trivial, fun _ _ _ => trivial, fun _ _ _ => trivial, fun _ _ _ => trivial, fun _ _ _ => trivial, fun _ _ _ => trivial,
        fun _ _ _ _ _ _ _ => trivial, fun _ _ _ => trivial, fun t ht s _ a s' h => ⟨by rw [← hw t ht]; exact h, trivial⟩, Or.inr ha'⟩
    exact processInstrs_le hr (texts_cp hc) iss (Or.inl ha')
  cases h : processInstrs eng ctx c iss s with
  | some q => exact ((rel ha hw) s trivial q.1 q.2 h).1.symm
  | none =>
    cases h' : processInstrs eng ctx c' iss s with
    | none => rfl
    | some q =>
      have := (rel ha.symm (fun t ht => (hw t ht).symm) s trivial q.1 q.2 h').1
      rw [h] at this
      exact absurd this (by simp)

/-- The hyphenator of the repository meets the assumption. -/
theorem hyphenator_cuts {nd : Nat → Bool} {lower : Nat → Nat} {text : Str} {pl : Lookup} (h : parsePatterns nd text = some pl) (w : Str) :
    ((hyphenate lower pl w).getD []).flatten <:+: w := by
  cases hp : hyphenate lower pl w with
  | none => simp
  | some parts =>
    rcases C05_lossless_partial nd lower text pl h w parts hp with h | h
    · rw [Option.getD_some, h]; exact List.infix_refl _
    · rw [Option.getD_some, h.2]; exact (List.dropLast_prefix w).isInfix

/-- The texts on the pages. -/
def textsOn (e : Fpdf) : List Str := e.out.filterMap fun
  | .text _ _ _ _ _ t => some t
  | _ => none

/-- C53: no text on any page - in body, header, footer, cells and boxes - has the placeholder in it. -/
theorem C53_no_placeholder {p : Paper} {s s' : PState Fpdf} {r : PdfResult} (hc : ∀ w, (ctx.hyphenate w).flatten <:+: w)
    (hs : ∀ t ∈ textsOn s.eng, ¬ b!"{cp}" <:+: t) (h : process (Fpdf.engine p) ctx n s = some (r, s')) :
    ∀ t ∈ textsOn s'.eng, ¬ b!"{cp}" <:+: t := by
  have hl : Lasting (fun e => ∀ t ∈ textsOn e, ¬ cp <:+: t) (fun t => ¬ cp <:+: t) := by
    refine ⟨?_, ?_, ?_, ?_, ?_, ?_⟩
    · intro e e' he ho _ _ t ht
      refine he t ?_
      simpa [textsOn, ho] using ht
    · intro e _ _ _ _ t ht he u hu
      simp only [textsOn, List.filterMap_append, List.mem_append] at hu
      rcases hu with hu | hu
      · exact he u hu
      · simp at hu; rw [hu]; exact ht
    all_goals
      intros
      rename_i he u hu
      simp only [textsOn, List.filterMap_append, List.mem_append] at hu
      rcases hu with hu | hu
      · exact he u hu
      · simp at hu
  exact (hl.process (p := p) (texts_cp hc) n s hs r s' h).2

/-! ### C47: errors last -/

/-- C47: once the engine of the repository failed, nothing is written and an error is returned. -/
theorem C47_error_lasts {p : Paper} {s s' : PState Fpdf} {r : PdfResult} (hs : s.eng.failed = true)
    (h : process (Fpdf.engine p) ctx n s = some (r, s')) : r = { written := [], failed := true } ∧ s'.eng.failed = true := by
  have hl : Lasting (fun e => e.failed = true) (fun _ => True) :=
    ⟨fun e e' he _ _ hf => hf he, fun _ _ _ _ _ _ _ h => h, fun _ _ _ _ _ _ h => h, fun _ _ h => h, fun _ h => h, fun _ h => h⟩
  have h2 := (hl.process (p := p) (Texts.all _) n s hs r s' h).2
  obtain ⟨s1, h3, _, h5⟩ := C47_written h
  obtain ⟨hw, ha, _⟩ := hl.calls (p := p) (Texts.all ctx.hyphenate) n
  obtain ⟨q, hq1, hq2⟩ := Option.bind_eq_some_iff.mp h5
  have f1 := (ha _ (show ((changeFont (Fpdf.engine p) s.curr.font _).eng.failed = true) from by simp [changeFont, Fpdf.engine, Fpdf.changeFont, hs]) q.1 q.2 hq1).2
  have f2 := (processInstrs_le (hl.rel (p := p) hw ha) (Texts.all _) ctx.body (Or.inl ha) q.2 f1 _ _ hq2).2
  exact ⟨(h3 f2).1, h2⟩

/-! ### C54: instructions -/

/-- C54: instructions are processed in the order of the document. -/
theorem C54_in_order (c : Calls E) (a b : List Instr) : processInstrs eng ctx c (a ++ b) =
    (do processInstrs eng ctx c a; processInstrs eng ctx c b : M E Unit) := by
  funext s
  induction a generalizing s with
  | nil => rfl
  | cons i a ih =>
    rw [List.cons_append, bind_eq]
    show (processInstr eng ctx c i >>= fun _ => processInstrs eng ctx c (a ++ b)) s =
      ((processInstr eng ctx c i >>= fun _ => processInstrs eng ctx c a) s).bind _
    rw [bind_eq, bind_eq]
    cases processInstr eng ctx c i s with
    | none => rfl
    | some q => simp only [Option.bind_some]; rw [ih, bind_eq]

/-- C54: instructions that are not acting have no effect: they can be left out. -/
theorem C54_only_acting (c : Calls E) (iss : List Instr) : processInstrs eng ctx c iss = processInstrs eng ctx c (iss.filter fun i => Acting i) := by
  funext s
  induction iss generalizing s with
  | nil => rfl
  | cons i iss ih =>
    by_cases hi : Acting i
    · rw [List.filter_cons_of_pos (by simpa using hi)]
      unfold processInstrs
      rw [bind_eq, bind_eq]
      cases processInstr eng ctx c i s with
      | none => rfl
      | some q => simp only [Option.bind_some]; rw [ih]
    · rw [List.filter_cons_of_neg (by simpa using hi), ← ih]
      show (processInstr eng ctx c i >>= fun _ => processInstrs eng ctx c iss) s = _
      rw [bind_eq]
      have : processInstr eng ctx c i s = some ((), s) := by
        cases i <;> first | rfl | exact absurd trivial hi
      rw [this]
      rfl

/-! ### C55: cells -/

/-- C55: the text of a cell is aligned between its padding edges, by its height as it was measured. -/
theorem C55_aligned (v : Str) (pa : Area) (padding : Quad ℚ) (h : ℚ) :
    Aligned v (pa.y0 + padding.top) (pa.y1 - padding.bottom) h (textTop v (pa.withPadding padding) h) := by
  unfold Aligned textTop Area.withPadding Area.height
  by_cases h1 : v = b!"middle"
  · rw [if_pos h1, if_pos h1]; ring
  · rw [if_neg h1, if_neg h1]
    by_cases h2 : v = b!"bottom"
    · rw [if_pos h2, if_pos h2]; ring
    · rw [if_neg h2, if_neg h2]

/-- C55: rendering a cell with contents is drawing its box, measuring, and then writing its text from the left padding edge and from
the height on at which it is aligned, in the width between the padding edges; then come its boxes and images. -/
theorem C55_start (hp : Positions eng) {c : Calls E} {pa : Area} {sty : Styles} {iss : List Instr} (hi : iss ≠ [])
    (hx : 0 ≤ pa.x0 + sty.box.padding.left) (h : renderCell eng ctx c pa sty iss s = some ((), s')) :
    ∃ s0 s1 h1 start s2 s3,
      drawBoxM eng pa.x0 pa.y0 pa.x1 pa.y1 sty s = some ((), s0) ∧
      textHeight eng ctx.classes iss (pa.width - sty.box.padding.left - sty.box.padding.right) sty s0 = (h1, s1) ∧
      Aligned sty.align.v (pa.y0 + sty.box.padding.top) (pa.y1 - sty.box.padding.bottom) h1 start ∧
      s2 = { s1 with eng := eng.setX (pa.x0 + sty.box.padding.left) (eng.setY start s1.eng) } ∧
      (0 ≤ start → eng.getXY s2.eng = (pa.x0 + sty.box.padding.left, start)) ∧
      writeTextFnc eng ctx c iss (pa.width - sty.box.padding.left - sty.box.padding.right) sty s2 = some ((), s3) ∧
      (do upd (eng.setX (pa.x0 + sty.box.padding.left)); renderCellItems eng ctx c sty.align.v (pa.withPadding sty.box.padding) iss : M E Unit) s3 =
        some ((), s') := by
  unfold renderCell at h
  obtain ⟨_, s0, h0, h⟩ := bind_some h
  have hlen : iss.length > 0 := List.length_pos_iff.mpr hi
  simp only [hlen, if_true] at h
  obtain ⟨_, s3, h3, h⟩ := bind_some h
  unfold renderCellText at h3
  obtain ⟨h1, s1, ht, h3⟩ := bind_some h3
  obtain ⟨_, sy, hy, h3⟩ := bind_some h3
  obtain ⟨_, sx, hx', h3⟩ := bind_some h3
  simp only [total, Option.some.injEq] at ht
  simp only [upd, Option.some.injEq, Prod.mk.injEq, true_and] at hy hx'
  have hw : (pa.withPadding sty.box.padding).width = pa.width - sty.box.padding.left - sty.box.padding.right := by
    simp only [Area.withPadding, Area.width]; ring
  rw [hw] at ht
  refine ⟨s0, s1, h1, _, sx, s3, h0, ht, C55_aligned _ _ _ _, ?_, ?_, h3, h⟩
  · rw [← hx', ← hy]; rfl
  · intro hs
    rw [← hx', ← hy]
    show eng.getXY (eng.setX (pa.x0 + sty.box.padding.left) (eng.setY _ s1.eng)) = _
    rw [hp.setX _ _ hx, hp.setY _ _ hs]

/-! ### C56: boxes -/

/-- The height of the contents of a box: the one asked for, or that of the text, or, without text, that of a line. -/
def HeightOf (eng : Engine E) (ctx : Ctx) (sty : Styles) (iss : List Instr) (width : ℚ) (s : PState E) (h : ℚ) (s1 : PState E) : Prop :=
  (0 < sty.dim.height ∧ h = sty.dim.height ∧ s1 = s) ∨
  (sty.dim.height ≤ 0 ∧ iss ≠ [] ∧ textHeightFnc eng ctx sty iss width s = (h, s1)) ∨
  (sty.dim.height ≤ 0 ∧ iss = [] ∧ h = eng.fontHeight s.eng ∧ s1 = s)

/-- C56: a box is drawn at the current position plus its offset, as wide as its effective width and as tall as its contents plus
vertical padding; its text starts at the padding corner; the write position ends up at its bottom.  A new page is started first iff page
breaks are allowed and the contents, without offset and padding, would reach the bottom margin.  Missing: that it is the box that must
not reach the bottom margin (false, see `C56_padding`). -/
theorem C56_geometry_partial (hp : Positions eng) {c : Calls E} {st : Styled} {iss : List Instr} {pa : Area}
    (h : renderTextBox eng ctx c st iss pa s = some ((), s')) :
    let sty := st.mutatedStyles ctx.classes s.curr
    let pad := sty.box.padding
    ∃ height s1 s2 x0 y0 x1 y1 s3 s4,
      HeightOf eng ctx sty iss (pa.effectiveWidth sty.dim.width - pad.left - pad.right) s height s1 ∧
      -- a new page
      (s1.prevent = false ∧ (eng.getXY s1.eng).2 + height ≥ eng.pageHeight s1.eng - (eng.margins s1.eng).bottom → c.addPage s1 = some ((), s2)) ∧
      (¬ (s1.prevent = false ∧ (eng.getXY s1.eng).2 + height ≥ eng.pageHeight s1.eng - (eng.margins s1.eng).bottom) → s2 = s1) ∧
      -- the box
      (x0, y0) = ((eng.getXY s2.eng).1 + sty.dim.offsetX, (eng.getXY s2.eng).2 + sty.dim.offsetY) ∧
      x1 - x0 = pa.effectiveWidth sty.dim.width ∧ y1 - y0 = height + pad.top + pad.bottom ∧
      s3 = { s2 with eng := eng.setX (x0 + pad.left) (eng.setY (y0 + pad.top) ((drawBox x0 y0 x1 y1 sty).foldl (fun e c => eng.draw c e) s2.eng)) } ∧
      -- the text
      (0 ≤ x0 + pad.left → 0 ≤ y0 + pad.top → eng.getXY s3.eng = (x0 + pad.left, y0 + pad.top)) ∧
      (iss = [] → s4 = s3) ∧
      (iss ≠ [] → writeTextFnc eng ctx c iss (pa.effectiveWidth sty.dim.width - pad.left - pad.right) sty s3 = some ((), s4)) ∧
      -- the end: below the box, in the current font and color
      s' = { s4 with eng := eng.setTextColor s4.curr.color.text (eng.changeFont s4.curr.font (eng.setY y1 s4.eng)) } ∧ (0 ≤ y1 → (eng.getXY s'.eng).2 = y1) := by
  intro sty pad
  unfold renderTextBox at h
  obtain ⟨c0, s0, h0, h⟩ := bind_some h
  simp only [MonadState.get, getThe, MonadStateOf.get, StateT.get, Pure.pure, Option.some.injEq, Prod.mk.injEq] at h0
  obtain ⟨rfl, rfl⟩ := h0
  obtain ⟨height, s1, h1, h⟩ := bind_some h
  obtain ⟨xy, s2, h2, h⟩ := bind_some h
  obtain ⟨_, sd, hd, h⟩ := bind_some h
  obtain ⟨_, sy, hy, h⟩ := bind_some h
  obtain ⟨_, sx, hx, h⟩ := bind_some h
  simp only [drawBoxM, upd, Option.some.injEq, Prod.mk.injEq, true_and] at hd hy hx
  have hh : HeightOf eng ctx sty iss (pa.effectiveWidth sty.dim.width - pad.left - pad.right) s height s1 := by
    unfold boxHeight at h1
    by_cases hd : sty.dim.height ≤ 0
    · rw [if_pos hd] at h1
      by_cases hi : iss = []
      · rw [if_neg (by simp [hi])] at h1
        simp only [ask, Option.some.injEq, Prod.mk.injEq] at h1
        exact Or.inr (Or.inr ⟨hd, hi, h1.1.symm, h1.2.symm⟩)
      · rw [if_pos (List.length_pos_iff.mpr hi)] at h1
        simp only [total, Option.some.injEq] at h1
        exact Or.inr (Or.inl ⟨hd, hi, h1⟩)
    · rw [if_neg hd] at h1
      simp only [Pure.pure, StateT.pure, Option.some.injEq, Prod.mk.injEq] at h1
      exact Or.inl ⟨not_le.mp hd, h1.1.symm, h1.2.symm⟩
  have hb : xy = eng.getXY s2.eng ∧
      (s1.prevent = false ∧ (eng.getXY s1.eng).2 + height ≥ eng.pageHeight s1.eng - (eng.margins s1.eng).bottom → c.addPage s1 = some ((), s2)) ∧
      (¬ (s1.prevent = false ∧ (eng.getXY s1.eng).2 + height ≥ eng.pageHeight s1.eng - (eng.margins s1.eng).bottom) → s2 = s1) := by
    unfold boxStart at h2
    obtain ⟨c0, s0, h0, h2⟩ := bind_some h2
    simp only [MonadState.get, getThe, MonadStateOf.get, StateT.get, Pure.pure, Option.some.injEq, Prod.mk.injEq] at h0
    obtain ⟨rfl, rfl⟩ := h0
    by_cases hc : s1.prevent = false ∧ (eng.getXY s1.eng).2 + height ≥ eng.pageHeight s1.eng - (eng.margins s1.eng).bottom
    · rw [if_pos (by simpa using hc)] at h2
      obtain ⟨_, sa, ha, h2⟩ := bind_some h2
      simp only [ask, Option.some.injEq, Prod.mk.injEq] at h2
      obtain ⟨e1, rfl⟩ := h2
      exact ⟨e1.symm, fun _ => ha, fun hn => absurd hc hn⟩
    · rw [if_neg (by simpa using hc)] at h2
      simp only [Pure.pure, StateT.pure, Option.some.injEq, Prod.mk.injEq] at h2
      obtain ⟨e1, rfl⟩ := h2
      exact ⟨e1.symm, fun h => absurd h hc, fun _ => rfl⟩
  obtain ⟨rfl, hb1, hb2⟩ := hb
  have fin : ∀ s4, (do upd (eng.setY ((eng.getXY s2.eng).2 + sty.dim.offsetY + height + pad.top + pad.bottom)); resetStyles eng : M E Unit) s4 = some ((), s') →
      s' = { s4 with eng := eng.setTextColor s4.curr.color.text (eng.changeFont s4.curr.font
        (eng.setY ((eng.getXY s2.eng).2 + sty.dim.offsetY + height + pad.top + pad.bottom) s4.eng)) } ∧ (0 ≤ (eng.getXY s2.eng).2 + sty.dim.offsetY + height + pad.top + pad.bottom →
        (eng.getXY s'.eng).2 = (eng.getXY s2.eng).2 + sty.dim.offsetY + height + pad.top + pad.bottom) := by
    intro s4 h4
    obtain ⟨_, s5, h5, h6⟩ := bind_some h4
    simp only [upd, resetStyles, Option.some.injEq, Prod.mk.injEq, true_and] at h5 h6
    rw [← h6, ← h5]
    refine ⟨rfl, fun h0 => ?_⟩
    show (eng.getXY (eng.setTextColor _ (eng.changeFont _ (eng.setY _ _)))).2 = _
    rw [hp.setTextColor, hp.changeFont, hp.setY _ _ h0]
  have e3 : sx = { s2 with eng := eng.setX ((eng.getXY s2.eng).1 + sty.dim.offsetX + pad.left) (eng.setY ((eng.getXY s2.eng).2 + sty.dim.offsetY + pad.top)
      ((drawBox ((eng.getXY s2.eng).1 + sty.dim.offsetX) ((eng.getXY s2.eng).2 + sty.dim.offsetY)
        ((eng.getXY s2.eng).1 + sty.dim.offsetX + boxWidth sty pa + pad.left + pad.right)
        ((eng.getXY s2.eng).2 + sty.dim.offsetY + height + pad.top + pad.bottom) sty).foldl (fun e c => eng.draw c e) s2.eng)) } := by
    rw [← hx, ← hy, ← hd]
  have e4 : ∃ s4, (iss = [] → s4 = sx) ∧ (iss ≠ [] → writeTextFnc eng ctx c iss (boxWidth sty pa) sty sx = some ((), s4)) ∧
      (do upd (eng.setY ((eng.getXY s2.eng).2 + sty.dim.offsetY + height + pad.top + pad.bottom)); resetStyles eng : M E Unit) s4 = some ((), s') := by
    by_cases hi : iss = []
    · simp only [hi, List.length_nil, gt_iff_lt, Nat.lt_irrefl, if_false] at h
      exact ⟨sx, fun _ => rfl, fun hn => absurd hi hn, h⟩
    · have hl : iss.length > 0 := List.length_pos_iff.mpr hi
      simp only [hl, if_true] at h
      obtain ⟨_, s4, h4, h⟩ := bind_some h
      exact ⟨s4, fun hn => absurd hn hi, fun _ => h4, h⟩
  obtain ⟨s4, a1, a2, a3⟩ := e4
  refine ⟨height, s1, s2, _, _, (eng.getXY s2.eng).1 + sty.dim.offsetX + boxWidth sty pa + pad.left + pad.right,
    (eng.getXY s2.eng).2 + sty.dim.offsetY + height + pad.top + pad.bottom, sx, s4, hh, hb1, hb2, rfl, ?_, ?_, e3, ?_, a1, a2, (fin s4 a3).1, (fin s4 a3).2⟩
  · simp only [boxWidth]; ring
  · ring
  · intro g1 g2
    rw [e3]
    show eng.getXY (eng.setX _ (eng.setY _ _)) = _
    rw [hp.setX _ _ g1, hp.setY _ _ g2]

/-- The engine of the repository meets the assumption. -/
theorem positions_fpdf (p : Paper) : Positions (Fpdf.engine p) where
  setX x e h := by simp [Fpdf.engine, Fpdf.setX, h]
  setY y e h := by simp [Fpdf.engine, Fpdf.setY, Fpdf.setX, h]
  changeFont f e := rfl
  setTextColor c e := rfl

/-! ### C29 and C30: tables in the processor -/

private theorem free_rel {c : Calls E} (hw : ∀ t, Le (fun s => s.prevent = false) (c.writeText t) (c.writeText t))
    (ha : Le (fun s => s.prevent = false) c.addPage c.addPage) : Rel eng (fun s => s.prevent = false) (fun _ => True) c c where
  setX x s h := h
  setY x s h := h
  lineFeed x s h := h
  font f s h := h
  changeFont f s h := h
  color c s h := h
  image src x y w h s hs := hs
  draw c s h := h
  write t _ := hw t
  add := Or.inr ha

private theorem free_calls (eng : Engine E) (ctx : Ctx) : ∀ n,
    (∀ t, Le (fun s => s.prevent = false) ((callsAt eng ctx n).writeText t) ((callsAt eng ctx n).writeText t)) ∧
    Le (fun s => s.prevent = false) (callsAt eng ctx n).addPage (callsAt eng ctx n).addPage := by
  have run : ∀ n {α : Type} (op : E → Prog E α),
      Le (fun s => s.prevent = false) (runWith eng ctx (callsAt eng ctx n) op) (runWith eng ctx (callsAt eng ctx n) op) := by
    intro n α op s hs a s' hr
    have hcb : ∀ iss, LeT (Body (fun _ => True) fun _ b => b = false) (Body (fun _ => True) fun _ b => b = false)
        (callback eng ctx (callsAt eng ctx n) iss) (callback eng ctx (callsAt eng ctx n) iss) := by
      intro iss s _ a s' h
      refine ⟨h, trivial, ?_⟩
      rw [callback_eq] at h
      obtain ⟨q, _, he⟩ := Option.map_eq_some_iff.mp h
      simp only [Prod.mk.injEq, true_and] at he
      rw [← he]
    have hp : ∀ {α : Type} (pr : Prog E α), ProgOk (fun _ => True) (fun _ => True) (fun _ => True) pr := by
      intro α pr
      induction pr with
      | done _ _ => trivial
      | header _ _ ih => exact ⟨trivial, fun e' _ => ih e'⟩
      | footer _ _ ih => exact ⟨trivial, fun e' _ => ih e'⟩
    obtain ⟨h1, h2⟩ := runProg_le (hcb _) (hcb _) (op s.eng) (hp _) s hs a s' hr
    exact ⟨h1, h2.2⟩
  intro n
  cases n with
  | zero => exact ⟨fun t => Le.none, Le.none⟩
  | succ n => exact ⟨fun t => run n (eng.writeText t), run n eng.addPage⟩

/-- C29, C30: in the body, where page breaks are allowed, they stay allowed while a table is rendered, with any engine: `C29_fits` and
`C30_headers` hold for the tables of the body. -/
theorem C29_body (t : Tab) (n : Nat) : Keeps (tableOps eng ctx (callsAt eng ctx n) t) false (fun s => s.prevent = false) := by
  obtain ⟨hw, ha⟩ := free_calls eng ctx n
  refine ⟨fun s h => h, fun x s h => h, fun pa id s s' hs h => ?_, fun _ s s' hs h => ?_⟩
  · obtain ⟨q, hq, rfl⟩ := Option.map_eq_some_iff.mp h
    exact (renderCell_le (free_rel hw ha) (Texts.all _) _ _ _ s hs q.1 q.2 hq).2
  · obtain ⟨q, hq, rfl⟩ := Option.map_eq_some_iff.mp h
    exact (ha s hs q.1 q.2 hq).2

/-- C29, C30: and page breaks are allowed all through the body, whatever pages, headers and footers come in between. -/
theorem C29_allowed (iss : List Instr) (n : Nat) (hs : s.prevent = false) (h : processInstrs eng ctx (callsAt eng ctx n) iss s = some ((), s')) :
    s'.prevent = false := by
  obtain ⟨hw, ha⟩ := free_calls eng ctx n
  exact (processInstrs_le (free_rel hw ha) (Texts.all _) iss (Or.inl ha) s hs _ _ h).2

/-- C30: in header and footer page breaks stay forbidden while a table is rendered: `C30_prevented` holds for their tables. -/
theorem C30_header {Q : E → Prop} (hq : Quiet eng Q) (t : Tab) (n : Nat) :
    Keeps (tableOps eng ctx (callsAt eng ctx (n + 1)) t) true (fun s => Q s.eng ∧ s.prevent = true) := by
  refine ⟨fun s h => h.2, fun x s h => ⟨hq.setX x _ h.1, h.2⟩, fun pa id s s' hs h => ?_, fun hf => absurd hf (by simp)⟩
  obtain ⟨q, hq', rfl⟩ := Option.map_eq_some_iff.mp h
  exact (renderCell_le (within_rel hq n n) (Texts.all _) _ _ _ s hs q.1 q.2 hq').2

/-! ### Examples -/

private def plain : Styled := ⟨[], []⟩

/-- Page number in the header, a rule in the footer; two pages in the body. -/
private def exDoc (header footer body : List Instr) : Ctx :=
  { classes := [], header := header, footer := footer, body := body, hyphenate := exHyph, resolve := id, describe := fun _ => none }

private def run (p : Paper) (ctx : Ctx) : Option (PdfResult × PState Fpdf) := process (Fpdf.engine p) ctx 2 (newProcessor (Fpdf.new p))

/-- A text, where and in which size it is written. -/
structure ExText where
  page : Nat
  x : ℚ
  y : ℚ
  size : ℚ
  text : Str
deriving DecidableEq

/-- What is written where. -/
private def written (e : Fpdf) : List ExText := e.out.filterMap fun
  | .text page x y font _ t => some ⟨page, x, y, font.pointSize, t⟩
  | _ => none

private def exHead : List Instr := [.setY 2, .text plain [.textBlock b!"page\n{cp}"]]
private def exFoot : List Instr := [.setX 50, .setY 95, .box plain []]
private def exBody : List Instr :=
  [.textBlock b!"lost", .text plain [.textBlock b!"a  b {cp}{cp}"], .pageBreak, .lineBreak, .text plain [.paragraph plain b!"c"]]

/-- C42, C43, C53, C54: the header of each page with its number, the body at the top of the page, no trace of the bare text. -/
example : (run exPaper (exDoc exHead exFoot exBody)).map (fun r => (r.1, written r.2.eng)) =
    some (⟨[], false⟩, [⟨1, 10, 2, 12, b!"page"⟩, ⟨1, 18, 2, 12, b!" 1"⟩, ⟨1, 10, 10, 12, b!"a"⟩, ⟨1, 12, 10, 12, b!" b"⟩, ⟨1, 16, 10, 12, b!" 11"⟩,
      ⟨2, 10, 2, 12, b!"page"⟩, ⟨2, 18, 2, 12, b!" 2"⟩, ⟨2, 10, 10, 12, b!"c"⟩]) := by
  decide +kernel

/-- The hypotheses of C43 and of C53 hold for it. -/
example : Instr.pageBreak ∉ exHead ∧ Instr.pageBreak ∉ exFoot ∧ ∀ w, ((exDoc exHead exFoot exBody).hyphenate w).flatten <:+: w := by
  refine ⟨by simp [exHead], by simp [exFoot], fun w => ?_⟩
  show (exHyph w).flatten <:+: w
  unfold exHyph
  split
  · rename_i h; rw [h]; decide
  · simp

/-- C42 needs margins that are not negative: here the position is taken for a distance from the right edge. -/
example : let p : Paper := { exPaper with margins := ⟨-10, 10, 10, 10⟩ }
    ((callsAt (Fpdf.engine p) (exDoc [] [] []) 1).addPage (newProcessor (Fpdf.new p))).map (fun r => r.2.eng.x) = some 90 := by
  decide +kernel

/-- C44 as stated is false: the font of a text element outlives it.  The second text is written in the font size of the first. -/
theorem C44_font_outlives : (run exPaper (exDoc [] [] [.text ⟨[[([0, 1], .flt 20)]], []⟩ [.textBlock b!"a"], .text plain [.textBlock b!"b"]])).map
    (fun r => (written r.2.eng).map fun t => (t.size, t.text)) = some [(20, b!"a"), (20, b!"b")] := by
  decide +kernel

/-- C44: so does a font set in the header; it becomes that of the body. -/
theorem C44_header_font : (run exPaper (exDoc [.font ⟨[[([0, 1], .flt 20)]], []⟩] [] [.text plain [.textBlock b!"b"]])).map
    (fun r => (written r.2.eng).map fun t => (t.size, t.text)) = some [(20, b!"b")] := by
  decide +kernel

/-- C47: with a font that is not known nothing is written. -/
example : (run { exPaper with known := fun f => f.pointSize ≤ 12 }
      (exDoc [] [] [.text ⟨[[([0, 1], .flt 20)]], []⟩ [.textBlock b!"a"]])).map (·.1) = some ⟨[], true⟩ := by
  decide +kernel

/-- The engine in error, as C47 has it. -/
example : ((run { exPaper with known := fun _ => false } (exDoc [] [] [])).map fun r => (r.1, r.2.eng.failed)) = some (⟨[], true⟩, true) := by
  decide +kernel

/-- C55: a text of height 127/30 in a cell of height 40 with paddings 3 (top) and 5 (bottom). -/
example : ((renderCell (Fpdf.engine exPaper) (exDoc [] [] []) (callsAt (Fpdf.engine exPaper) (exDoc [] [] []) 1) ⟨20, 20, 60, 60⟩
      { defaultStyle with align := ⟨b!"left", b!"bottom"⟩, box := { defaultStyle.box with padding := ⟨2, 3, 4, 5⟩ } } [.textBlock b!"a b"]
      (newProcessor (Fpdf.new exPaper))).map fun r => (written r.2.eng).map fun t => (t.x, t.y)) =
    some [(22, 60 - 5 - 127 / 30), (24, 60 - 5 - 127 / 30)] := by
  decide +kernel

/-- A rectangle that is filled. -/
structure ExRect where
  page : Nat
  x : ℚ
  y : ℚ
  width : ℚ
  height : ℚ
deriving DecidableEq

private def rects (e : Fpdf) : List ExRect := e.out.filterMap fun
  | .draw page (.fillRect x y w h) => some ⟨page, x, y, w, h⟩
  | _ => none

/-- Line width 0, padding 1 2 3 4, offset 5 6, width 40, height 20. -/
private def exBox (height padding : ℚ) : Styled :=
  ⟨[[([6, 0], .flt 0), ([1, 1], .quad ⟨1, padding, 3, 4⟩), ([2, 3], .flt 5), ([2, 4], .flt 6),
     ([2, 0], .flt 40), ([2, 1], .flt height)]], []⟩

/-- C56: the box, its text, and the position behind it. -/
example : ((renderTextBox (Fpdf.engine exPaper) (exDoc [] [] []) (callsAt (Fpdf.engine exPaper) (exDoc [] [] []) 1) (exBox 20 2) [.textBlock b!"a"]
      ⟨10, 10, 90, 90⟩ (newProcessor (Fpdf.new exPaper))).map fun r => (rects r.2.eng, written r.2.eng, r.2.eng.y)) =
    some ([⟨0, 15, 16, 40, 26⟩], [⟨0, 16, 18, 12, b!"a"⟩], 42) := by
  decide +kernel

/-- C56 as stated is false: this box of height 114 is not put on a new page, though it reaches far below the bottom of the page, because
only its contents (of height 20) are looked at. -/
theorem C56_padding : ((renderTextBox (Fpdf.engine exPaper) (exDoc [] [] []) (callsAt (Fpdf.engine exPaper) (exDoc [] [] []) 1) (exBox 20 90) []
      ⟨10, 10, 90, 90⟩ (newProcessor (Fpdf.new exPaper))).map fun r => (rects r.2.eng, r.2.eng.page)) =
    some ([⟨0, 15, 16, 40, 114⟩], 0) := by
  decide +kernel

/-- And a box that reaches the bottom margin with its contents is put on a new page. -/
example : ((renderTextBox (Fpdf.engine exPaper) (exDoc [] [] []) (callsAt (Fpdf.engine exPaper) (exDoc [] [] []) 1) (exBox 80 2) []
      ⟨10, 10, 90, 90⟩ (newProcessor (Fpdf.new exPaper))).map fun r => (rects r.2.eng, r.2.eng.page)) =
    some ([⟨1, 15, 16, 40, 86⟩], 1) := by
  decide +kernel

end Verif.Props
