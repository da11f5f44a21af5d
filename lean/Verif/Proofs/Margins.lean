import Verif.Proofs.PageNumber
import Verif.Proofs.Origin
import Verif.Proofs.TableLaid
import Verif.Spec.Margins
import Verif.Proofs.Laying
/-
Texts between the margins.
-/
namespace Verif.Proofs
open Verif.Go Verif.Model Verif.Spec

/-- The same with a left margin on the page. -/
structure Even (p : Paper) (δ : ℚ) : Prop extends Spaces p δ where
  delta : 0 ≤ δ
  left : 0 ≤ p.margins.left

variable {p : Paper} {ctx : Ctx} {N : Nat} {δ : ℚ} {F : Font → Prop}

/-- Unless `δ` is 0, the text is something to write, without line breaks. -/
def Whole (δ : ℚ) (t : Str) : Prop := δ ≠ 0 → t ≠ [] ∧ t ≠ [32] ∧ 10 ∉ t ∧ 13 ∉ t

/-- What holds for the marks. -/
def Sound (p : Paper) (δ : ℚ) (m : Mark) : Prop :=
  InWidth p δ m ∧ match m with
    | .text _ _ _ _ _ t => Whole δ t
    | _ => True

/-- All texts are between the margins, and the current styles are the default ones up to the font. -/
def Kept (p : Paper) (δ : ℚ) (F : Font → Prop) (s : PState Fpdf) : Prop :=
  (∀ m ∈ s.eng.out, Sound p δ m) ∧ ∃ f, F f ∧ s.curr = { defaultStyle with font := f }

/-- Not before page `k`. -/
def SincePage (k : Nat) (s : PState Fpdf) : Prop := (fun e : Fpdf => k ≤ e.page) s.eng ∧ (fun _ => True) s.curr

/-- The calls keep the condition on the page. -/
abbrev Pages (p : Paper) (k : Nat) (c : Calls Fpdf) : Prop := Tracks (Fpdf.engine p) (fun _ => True) (SincePage k) c

/-- What the engine calls do, as long as there are no more than `N` pages. -/
structure Holds (p : Paper) (N : Nat) (δ : ℚ) (F : Font → Prop) (c : Calls Fpdf) : Prop where
  write : ∀ t s a s', c.writeText t s = some (a, s') → s'.eng.page ≤ N → Whole δ t → Kept p δ F s → p.margins.left ≤ s.eng.x →
    s.eng.x + p.metric s.eng.font t ≤ p.width - p.margins.right - 2 - δ →
    Kept p δ F s' ∧ s'.eng.x = s.eng.x + p.metric s.eng.font t
  add : ∀ s a s', c.addPage s = some (a, s') → s'.eng.page ≤ N → Kept p δ F s → Kept p δ F s' ∧ s'.eng.x = p.margins.left
  pages : ∀ k, Pages p k c

theorem pages_le {α : Type} {m : M Fpdf α} (h : ∀ k, Keep (SincePage k) m) {s s' : PState Fpdf} {a : α} (hr : m s = some (a, s')) : s.eng.page ≤ s'.eng.page :=
  (h s.eng.page s ⟨le_refl _, trivial⟩ a s' hr).2.1

theorem any_style (cs : Classes) : Closed cs (fun _ => True) (fun _ => True) := ⟨fun _ _ _ _ => trivial, fun _ _ _ _ _ => trivial, fun _ _ _ _ => trivial⟩

theorem any_instr (iss : List Instr) : Known (fun _ => True) iss := fun _ _ _ _ => trivial

section
variable {c : Calls Fpdf}

theorem kept_changeFont {s : PState Fpdf} (hs : Kept p δ F s) {f : Font} (hf : F f) : Kept p δ F (changeFont (Fpdf.engine p) f s) := by
  obtain ⟨h1, g, _, h3⟩ := hs
  refine ⟨h1, f, hf, ?_⟩
  show { s.curr with font := f } = _
  rw [h3]

theorem kept_eng {s : PState Fpdf} (hs : Kept p δ F s) {e : Fpdf} (he : ∀ m ∈ e.out, m ∈ s.eng.out ∨ Sound p δ m) :
    Kept p δ F { s with eng := e } := by
  refine ⟨fun m hm => ?_, hs.2⟩
  rcases he m hm with h | h
  · exact hs.1 m h
  · exact h

theorem kept_same {s : PState Fpdf} (hs : Kept p δ F s) {e : Fpdf} (he : e.out = s.eng.out) : Kept p δ F { s with eng := e } :=
  kept_eng hs fun m hm => Or.inl (he ▸ hm)

/-! ### Lines -/

theorem writeItems_within (he : Even p δ) (hc : Holds p N δ F c) : ∀ (items : List TextItem) (s : PState Fpdf) (a : Unit) (s' : PState Fpdf),
    writeItems (Fpdf.engine p) c items s = some (a, s') → s'.eng.page ≤ N → Kept p δ F s → p.margins.left ≤ s.eng.x → (∀ i ∈ items, F i.sty.font ∧ Whole δ i.text) →
    (items = [] ∨ s.eng.x + naturalWidth p.metric items ≤ p.width - p.margins.right - 2 - δ) → Kept p δ F s' ∧ p.margins.left ≤ s'.eng.x
  | [], s, a, s', hr, _, hs, hx, _, _ => by
    simp only [writeItems, Pure.pure, StateT.pure, Option.some.injEq, Prod.mk.injEq] at hr
    rw [← hr.2]
    exact ⟨hs, hx⟩
  | i :: is, s, a, s', hr, hN, hs, hx, hF, hw => by
    unfold writeItems at hr
    obtain ⟨_, s1, h1, hr⟩ := bind_some hr
    obtain ⟨_, s2, h2, hr⟩ := bind_some hr
    simp only [changeFontM, Option.some.injEq, Prod.mk.injEq] at h1
    have hs1 := kept_changeFont hs (hF i (by simp)).1
    rw [h1.2] at hs1
    have hx1 : s1.eng.x = s.eng.x := by rw [← h1.2]; rfl
    have hf1 : s1.eng.font = i.sty.font := by rw [← h1.2]; rfl
    rcases hw with hw | hw
    · exact absurd hw (by simp)
    · have hrest : 0 ≤ naturalWidth p.metric is :=
        List.sum_nonneg (by intro x hx; obtain ⟨y, _, rfl⟩ := List.mem_map.mp hx; exact he.nonneg _ _)
      have hsum : naturalWidth p.metric (i :: is) = p.metric i.sty.font i.text + naturalWidth p.metric is := by simp [naturalWidth]
      rw [hsum] at hw
      obtain ⟨hs2, hx2⟩ := hc.write i.text s1 _ s2 h2 (le_trans (pages_le (fun k => writeItems_K (hc.pages k) is fun _ _ => trivial) hr) hN) (hF i (by simp)).2 hs1 (by rw [hx1]; exact hx) (by rw [hx1, hf1]; linarith)
      rw [hx1, hf1] at hx2
      have hm := he.nonneg i.sty.font i.text
      exact writeItems_within he hc is s2 a s' hr hN hs2 (by linarith) (fun j hj => hF j (List.mem_cons_of_mem _ hj)) (Or.inr (by linarith))

theorem writeSpaced_within (he : Even p δ) (h0 : δ = 0) (hc : Holds p N δ F c) {gap : ℚ} (hg : 0 ≤ gap) : ∀ (items : List TextItem) (s : PState Fpdf) (a : Unit)
    (s' : PState Fpdf), writeSpaced (Fpdf.engine p) c gap items s = some (a, s') → s'.eng.page ≤ N → Kept p δ F s → p.margins.left ≤ s.eng.x →
    (∀ i ∈ items, F i.sty.font) → (items = [] ∨ s.eng.x + pureWidth p.metric items + gap * (items.length - 1 : ℚ) ≤ p.width - p.margins.right - 2 - δ) →
    Kept p δ F s' ∧ p.margins.left ≤ s'.eng.x
  | [], s, a, s', hr, _, hs, hx, _, _ => by
    simp only [writeSpaced, Pure.pure, StateT.pure, Option.some.injEq, Prod.mk.injEq] at hr
    rw [← hr.2]
    exact ⟨hs, hx⟩
  | i :: is, s, a, s', hr, hN, hs, hx, hF, hw => by
    unfold writeSpaced at hr
    obtain ⟨_, s1, h1, hr⟩ := bind_some hr
    obtain ⟨_, s2, h2, hr⟩ := bind_some hr
    obtain ⟨xy, s3, h3, hr⟩ := bind_some hr
    obtain ⟨_, s4, h4, hr⟩ := bind_some hr
    simp only [changeFontM, ask, upd, Option.some.injEq, Prod.mk.injEq] at h1 h3 h4
    have hs1 := kept_changeFont hs (hF i (by simp))
    rw [h1.2] at hs1
    have hx1 : s1.eng.x = s.eng.x := by rw [← h1.2]; rfl
    have hf1 : s1.eng.font = i.sty.font := by rw [← h1.2]; rfl
    rcases hw with hw | hw
    · exact absurd hw (by simp)
    · have hrest : 0 ≤ pureWidth p.metric is :=
        List.sum_nonneg (by intro x hx; obtain ⟨y, _, rfl⟩ := List.mem_map.mp hx; exact he.nonneg _ _)
      have hsum : pureWidth p.metric (i :: is) = p.metric i.sty.font (trimSpace i.text) + pureWidth p.metric is := by simp [pureWidth]
      rw [hsum] at hw
      have hlen : (((i :: is).length : ℕ) : ℚ) - 1 = (is.length : ℚ) := by simp
      rw [hlen] at hw
      have hgl : 0 ≤ gap * (is.length : ℚ) := mul_nonneg hg (by positivity)
      have hpg : s2.eng.page ≤ N := by
        have := pages_le (fun k => writeSpaced_K (hc.pages k) gap is fun _ _ => trivial) hr
        rw [← h4.2, ← h3.2] at this
        exact le_trans this hN
      obtain ⟨hs2, hx2⟩ := hc.write (trimSpace i.text) s1 _ s2 h2 hpg (fun h => absurd h0 h) hs1 (by rw [hx1]; exact hx) (by rw [hx1, hf1]; linarith)
      rw [hx1, hf1] at hx2
      have hm := he.nonneg i.sty.font (trimSpace i.text)
      have hl := he.left
      have hxy : xy.1 = s2.eng.x := by rw [← h3.1]; rfl
      have hs4 : Kept p δ F s4 := by
        rw [← h4.2, ← h3.2]
        exact kept_same hs2 rfl
      have hx4 : s4.eng.x = s2.eng.x + gap := by
        rw [← h4.2, hxy]
        show (if s2.eng.x + gap ≥ 0 then s2.eng.x + gap else p.width + (s2.eng.x + gap)) = _
        rw [if_pos (by linarith)]
      refine writeSpaced_within he h0 hc hg is s4 a s' hr hN hs4 (by linarith) (fun j hj => hF j (List.mem_cons_of_mem _ hj)) ?_
      by_cases hn : is = []
      · exact Or.inl hn
      · refine Or.inr ?_
        rw [hx4, hx2]
        have : gap * ((is.length : ℚ) - 1) = gap * (is.length : ℚ) - gap := by ring
        rw [this]
        linarith

/-- A line with room: its texts take less than its width, which is at most `W`. -/
def LineRoom (p : Paper) (δ : ℚ) (F : Font → Prop) (W : ℚ) (l : TextLine) : Prop :=
  (∀ i ∈ l.items, F i.sty.font ∧ Whole δ i.text) ∧ (l.items = [] ∨ (naturalWidth p.metric l.items + δ ≤ l.width ∧ l.width ≤ W))

theorem alignLine_x {h : Str} {x W : ℚ} {l : TextLine} {s s' : PState Fpdf} {a : Unit}
    (hr : alignLine (Fpdf.engine p) h x W l s = some (a, s')) : s'.curr = s.curr ∧ s'.eng.out = s.eng.out ∧
    (∃ z, (z = 0 ∨ z = (W - l.width) / 2 ∨ z = W - l.width) ∧ s'.eng.x = (if x + z ≥ 0 then x + z else p.width + (x + z))) ∨ s' = s := by
  have key : ∀ z, (upd ((Fpdf.engine p).setX (x + z)) : M Fpdf Unit) s = some (a, s') → s'.curr = s.curr ∧ s'.eng.out = s.eng.out ∧
      s'.eng.x = (if x + z ≥ 0 then x + z else p.width + (x + z)) := by
    intro z hz
    simp only [upd, Option.some.injEq, Prod.mk.injEq] at hz
    rw [← hz.2]
    exact ⟨rfl, rfl, rfl⟩
  unfold alignLine at hr
  split at hr
  · obtain ⟨h1, h2, h3⟩ := key 0 (by rw [add_zero]; exact hr)
    exact Or.inl ⟨h1, h2, 0, Or.inl rfl, h3⟩
  · split at hr
    · obtain ⟨h1, h2, h3⟩ := key _ hr
      exact Or.inl ⟨h1, h2, _, Or.inr (Or.inl rfl), h3⟩
    · split at hr
      · obtain ⟨h1, h2, h3⟩ := key (W - l.width) (by rw [← add_sub_assoc]; exact hr)
        exact Or.inl ⟨h1, h2, _, Or.inr (Or.inr rfl), h3⟩
      · simp only [Pure.pure, StateT.pure, Option.some.injEq, Prod.mk.injEq] at hr
        exact Or.inr hr.2.symm

theorem writeLines_within (he : Even p δ) (hc : Holds p N δ F c) {sty : Styles} {x W : ℚ} (hx : p.margins.left ≤ x)
    (hW : x + W ≤ p.width - p.margins.right - 2) : ∀ (lines : List TextLine) (s : PState Fpdf) (a : Unit) (s' : PState Fpdf),
    writeLines (Fpdf.engine p) c sty x W lines s = some (a, s') → s'.eng.page ≤ N → Kept p δ F s → p.margins.left ≤ s.eng.x → s.eng.x ≤ x →
    (∀ l ∈ lines, LineRoom p δ F W l) → Kept p δ F s' ∧ (if lines = [] then s'.eng.x = s.eng.x else s'.eng.x = p.margins.left)
  | [], s, a, s', hr, _, hs, _, _, _ => by
    simp only [writeLines, Pure.pure, StateT.pure, Option.some.injEq, Prod.mk.injEq] at hr
    rw [← hr.2]
    exact ⟨hs, by simp⟩
  | l :: ls, s, a, s', hr, hN, hs, hx1, hx2, hl => by
    unfold writeLines at hr
    obtain ⟨_, s1, h1, hr⟩ := bind_some hr
    obtain ⟨_, s2, h2, hr⟩ := bind_some hr
    obtain ⟨_, s3, h3, hr⟩ := bind_some hr
    obtain ⟨hf, hl1⟩ := hl l (by simp)
    have hpg : s2.eng.page ≤ N := by
      have := pages_le (fun k => writeLines_K (hc.pages k) sty x W ls fun _ _ _ _ => trivial) hr
      simp only [upd, Option.some.injEq, Prod.mk.injEq] at h3
      rw [← h3.2] at this
      exact le_trans this hN
    have hleft := he.left
    have hgood : Kept p δ F s2 := by
      rcases hl1 with hnil | ⟨hn, hw⟩
      · have h12 : s2 = s1 := by
          rw [hnil] at h2
          simp only [writeItems, Pure.pure, StateT.pure, Option.some.injEq, Prod.mk.injEq] at h2
          exact h2.2.symm
        rcases alignLine_x h1 with ⟨g1, g2, _⟩ | g
        · rw [h12]
          exact ⟨fun m hm => hs.1 m (g2 ▸ hm), g1 ▸ hs.2⟩
        · rw [h12, g]; exact hs
      · have hnn : 0 ≤ naturalWidth p.metric l.items :=
          List.sum_nonneg (by intro x hx; obtain ⟨y, _, rfl⟩ := List.mem_map.mp hx; exact he.nonneg _ _)
        have hd := he.delta
        have key : Kept p δ F s1 ∧ p.margins.left ≤ s1.eng.x ∧ s1.eng.x + naturalWidth p.metric l.items ≤ p.width - p.margins.right - 2 - δ := by
          rcases alignLine_x h1 with ⟨g1, g2, z, hz, g3⟩ | g
          · have hz0 : 0 ≤ z ∧ z + l.width ≤ W := by
              rcases hz with rfl | rfl | rfl
              · exact ⟨le_refl _, by linarith⟩
              · constructor <;> linarith
              · constructor <;> linarith
            rw [if_pos (by linarith [hz0.1])] at g3
            refine ⟨⟨fun m hm => hs.1 m (g2 ▸ hm), g1 ▸ hs.2⟩, by rw [g3]; linarith [hz0.1], by rw [g3]; linarith [hz0.2]⟩
          · rw [g]
            exact ⟨hs, hx1, by linarith⟩
        exact (writeItems_within he hc _ _ _ _ h2 hpg key.1 key.2.1 hf (Or.inr key.2.2)).1
    simp only [upd, Option.some.injEq, Prod.mk.injEq] at h3
    have hs3 : Kept p δ F s3 := by
      rw [← h3.2]
      refine kept_eng hgood fun m hm => ?_
      rcases List.mem_append.mp hm with hm | hm
      · exact Or.inl hm
      · simp at hm; rw [hm]; exact Or.inr ⟨trivial, trivial⟩
    have hx3 : s3.eng.x = p.margins.left := by rw [← h3.2]; rfl
    obtain ⟨r1, r2⟩ := writeLines_within he hc hx hW ls s3 a s' hr hN hs3 (le_of_eq hx3.symm) (by rw [hx3]; exact hx) fun m hm => hl m (List.mem_cons_of_mem _ hm)
    refine ⟨r1, ?_⟩
    rw [if_neg (by simp)]
    by_cases hn : ls = []
    · rw [if_pos hn] at r2
      rw [r2, hx3]
    · rw [if_neg hn] at r2
      exact r2

/-- A line of block text with room. -/
def HyphRoom (p : Paper) (F : Font → Prop) (W : ℚ) (l : TextLine) : Prop :=
  (∀ i ∈ l.items, F i.sty.font) ∧ (l.items = [] ∨ naturalWidth p.metric l.items ≤ W) ∧
  (2 ≤ l.items.length → l.pureTextWidth = pureWidth p.metric l.items ∧ l.pureTextWidth ≤ W - 1 / 10)

theorem writeHyphLines_within (he : Even p δ) (h0 : δ = 0) (hc : Holds p N δ F c) {sty : Styles} {x W : ℚ} (hx : p.margins.left ≤ x)
    (hW : x + W ≤ p.width - p.margins.right - 2) : ∀ (lines : List TextLine) (s : PState Fpdf) (a : Unit) (s' : PState Fpdf),
    writeHyphLines (Fpdf.engine p) c sty x W lines s = some (a, s') → s'.eng.page ≤ N → Kept p δ F s →
    (∀ l ∈ lines, HyphRoom p F W l) → Kept p δ F s' ∧ (if lines = [] then s'.eng.x = s.eng.x else s'.eng.x = p.margins.left)
  | [], s, a, s', hr, _, hs, _ => by
    simp only [writeHyphLines, Pure.pure, StateT.pure, Option.some.injEq, Prod.mk.injEq] at hr
    rw [← hr.2]
    exact ⟨hs, by simp⟩
  | l :: ls, s, a, s', hr, hN, hs, hl => by
    unfold writeHyphLines at hr
    obtain ⟨_, s1, h1, hr⟩ := bind_some hr
    obtain ⟨_, s2, h2, hr⟩ := bind_some hr
    obtain ⟨_, s3, h3, hr⟩ := bind_some hr
    obtain ⟨hf, hl1, hl2⟩ := hl l (by simp)
    have hpg : s2.eng.page ≤ N := by
      have := pages_le (fun k => writeHyphLines_K (hc.pages k) sty x W ls fun _ _ _ _ => trivial) hr
      simp only [upd, Option.some.injEq, Prod.mk.injEq] at h3
      rw [← h3.2] at this
      exact le_trans this hN
    have hleft := he.left
    simp only [upd, Option.some.injEq, Prod.mk.injEq] at h1 h3
    have hs1 : Kept p δ F s1 := by rw [← h1.2]; exact kept_same hs rfl
    have hx1 : s1.eng.x = x := by
      rw [← h1.2]
      show (if x ≥ 0 then x else p.width + x) = x
      rw [if_pos (by linarith)]
    have hgood : Kept p δ F s2 := by
      unfold writeHyphLine at h2
      split at h2
      · refine (writeItems_within he hc _ _ _ _ h2 hpg hs1 (by rw [hx1]; exact hx) (fun i hi => ⟨hf i hi, fun h => absurd h0 h⟩) ?_).1
        rcases hl1 with h | h
        · exact Or.inl h
        · exact Or.inr (by rw [hx1, h0]; linarith)
      · rename_i hcnt
        push Not at hcnt
        have h2' : 2 ≤ l.items.length := by have := hcnt.1; omega
        obtain ⟨g1, g2⟩ := hl2 h2'
        have hcq : (0 : ℚ) < ((l.items.length : Int) - 1 : Int) := Int.cast_pos.mpr (by omega)
        have hgap : 0 ≤ (W - 1 / 10 - l.pureTextWidth) / (((l.items.length : Int) - 1 : Int) : ℚ) :=
          div_nonneg (by linarith) (le_of_lt hcq)
        have hsum : (W - 1 / 10 - l.pureTextWidth) / (((l.items.length : Int) - 1 : Int) : ℚ) * (l.items.length - 1 : ℚ) =
            W - 1 / 10 - pureWidth p.metric l.items := by
          rw [← g1]
          have e : (l.items.length - 1 : ℚ) = (((l.items.length : Int) - 1 : Int) : ℚ) := by push_cast; ring
          rw [e]
          exact div_mul_cancel₀ _ (ne_of_gt hcq)
        refine (writeSpaced_within he h0 hc hgap _ _ _ _ h2 hpg hs1 (by rw [hx1]; exact hx) hf (Or.inr ?_)).1
        rw [hx1, hsum, h0]
        linarith
    have hs3 : Kept p δ F s3 := by
      rw [← h3.2]
      refine kept_eng hgood fun m hm => ?_
      rcases List.mem_append.mp hm with hm | hm
      · exact Or.inl hm
      · simp at hm; rw [hm]; exact Or.inr ⟨trivial, trivial⟩
    have hx3 : s3.eng.x = p.margins.left := by rw [← h3.2]; rfl
    obtain ⟨r1, r2⟩ := writeHyphLines_within he h0 hc hx hW ls s3 a s' hr hN hs3 fun m hm => hl m (List.mem_cons_of_mem _ hm)
    refine ⟨r1, ?_⟩
    rw [if_neg (by simp)]
    by_cases hn : ls = []
    · rw [if_pos hn] at r2
      rw [r2, hx3]
    · rw [if_neg hn] at r2
      exact r2

/-! ### The lines have room -/

/-- The fonts of the styles in a text are in the set. -/
def StepsIn (ctx : Ctx) (F : Font → Prop) (iss : List Instr) : Prop :=
  ∀ st t, .paragraph st t ∈ iss → ∀ sty, F sty.font → F (st.mutatedStyles ctx.classes sty).font

theorem StepsIn.tail {i : Instr} {iss : List Instr} (h : StepsIn ctx F (i :: iss)) : StepsIn ctx F iss :=
  fun st t hm => h st t (List.mem_cons_of_mem _ hm)

theorem tokens_fontIn {page : Int} {sty : Styles} (hs : F sty.font) : ∀ (iss : List Instr), StepsIn ctx F iss →
    ∀ w, some w ∈ tokens ctx.classes page sty iss → F w.1.font
  | [], _, w, hw => by simp [tokens] at hw
  | i :: iss, hst, w, hw => by
    have ih := tokens_fontIn (page := page) hs iss hst.tail w
    cases i with
    | textBlock t =>
      simp only [tokens, List.mem_append, List.mem_map] at hw
      rcases hw with ⟨v, _, e⟩ | hw
      · simp only [Option.some.injEq] at e
        rw [← e]; exact hs
      · exact ih hw
    | paragraph st t =>
      simp only [tokens, List.mem_append, List.mem_map] at hw
      rcases hw with ⟨v, _, e⟩ | hw
      · simp only [Option.some.injEq] at e
        rw [← e]; exact hst st t (by simp) sty hs
      · exact ih hw
    | lineBreak =>
      simp only [tokens, List.mem_cons] at hw
      rcases hw with hw | hw
      · exact absurd hw (by simp)
      · exact ih hw
    | _ => exact ih hw

theorem blockTokens_fontIn {page : Int} {sty : Styles} (hs : F sty.font) : ∀ (iss : List Instr), StepsIn ctx F iss →
    ∀ w, some w ∈ blockTokens ctx.classes page sty iss → F w.1.font
  | [], _, w, hw => by simp [blockTokens] at hw
  | i :: iss, hst, w, hw => by
    have ih := blockTokens_fontIn (page := page) hs iss hst.tail w
    cases i with
    | textBlock t =>
      simp only [blockTokens, List.mem_append, List.mem_map] at hw
      rcases hw with ⟨v, _, e⟩ | hw
      · simp only [Option.some.injEq] at e
        rw [← e]; exact hs
      · exact ih hw
    | paragraph st t =>
      simp only [blockTokens, List.mem_append, List.mem_map] at hw
      rcases hw with ⟨v, _, e⟩ | hw
      · simp only [Option.some.injEq] at e
        rw [← e]; exact hst st t (by simp) sty hs
      · exact ih hw
    | lineBreak =>
      simp only [blockTokens, List.mem_cons] at hw
      rcases hw with hw | hw
      · exact absurd hw (by simp)
      · exact ih hw
    | _ => exact ih hw

theorem rectified_bytes : ∀ (s : Str) (prev : Option UInt8) (gap : Bool), ∀ c ∈ rectified prev gap s, c = 32 ∨ blank c = false
  | [], _, _, c, h => by simp [rectified] at h
  | b :: s, prev, gap, c, h => by
    have ih := fun prev gap => rectified_bytes s prev gap c
    unfold rectified at h
    split at h
    · exact ih _ _ h
    · rename_i hb
      have hb' : blank b = false := by simpa using hb
      cases prev with
      | none =>
        simp only [List.mem_cons] at h
        rcases h with rfl | h
        · exact Or.inr hb'
        · exact ih _ _ h
      | some q =>
        simp only at h
        split at h
        · simp only [List.mem_cons] at h
          rcases h with rfl | rfl | h
          · exact Or.inl rfl
          · exact Or.inr hb'
          · exact ih _ _ h
        · simp only [List.mem_cons] at h
          rcases h with rfl | h
          · exact Or.inr hb'
          · exact ih _ _ h

theorem wordsOf_whole {page : Int} {t w : Str} (h : w ∈ wordsOf page t) : w ≠ [] ∧ w ≠ [32] ∧ 10 ∉ w ∧ 13 ∉ w := by
  simp only [wordsOf, piecesOf, List.mem_filter, decide_eq_true_eq] at h
  have hb : ∀ c ∈ w, c = 32 ∨ blank c = false := fun c hc => rectified_bytes _ _ _ c ((mem_split_infix h.1).subset hc)
  have hs := split_no_sep 32 _ w h.1
  refine ⟨h.2, fun e => hs (by rw [e]; simp), fun hc => ?_, fun hc => ?_⟩
  · rcases hb _ hc with e | e
    · exact absurd e (by decide)
    · exact absurd e (by decide)
  · rcases hb _ hc with e | e
    · exact absurd e (by decide)
    · exact absurd e (by decide)

theorem tokens_whole {cs : Classes} {page : Int} {sty : Styles} : ∀ (iss : List Instr), ∀ w, some w ∈ tokens cs page sty iss →
    w.2 ≠ [] ∧ w.2 ≠ [32] ∧ 10 ∉ w.2 ∧ 13 ∉ w.2
  | [], w, hw => by simp [tokens] at hw
  | i :: iss, w, hw => by
    have ih := tokens_whole (cs := cs) (page := page) (sty := sty) iss w
    cases i with
    | textBlock t =>
      simp only [tokens, List.mem_append, List.mem_map] at hw
      rcases hw with ⟨v, hv, e⟩ | hw
      · simp only [Option.some.injEq] at e
        rw [← e]; exact wordsOf_whole hv
      · exact ih hw
    | paragraph st t =>
      simp only [tokens, List.mem_append, List.mem_map] at hw
      rcases hw with ⟨v, hv, e⟩ | hw
      · simp only [Option.some.injEq] at e
        rw [← e]; exact wordsOf_whole hv
      · exact ih hw
    | lineBreak =>
      simp only [tokens, List.mem_cons] at hw
      rcases hw with hw | hw
      · exact absurd hw (by simp)
      · exact ih hw
    | _ => exact ih hw

theorem natural_delta (he : Even p δ) (ws : List Word) (hne : ws ≠ []) : naturalWidth p.metric (setWords ws) + δ ≤ spacedSum p.metric ws := by
  cases ws with
  | nil => exact absurd rfl hne
  | cons w ws =>
    simp only [setWords, naturalWidth, spacedSum, List.map_cons, List.sum_cons, List.map_map]
    have := he.space w.1.font w.2
    have e : (List.map ((fun i : TextItem => p.metric i.sty.font i.text) ∘ fun v : Word => (⟨v.1, 32 :: v.2⟩ : TextItem)) ws).sum =
        (List.map (spaced p.metric) ws).sum := rfl
    rw [e]
    simp only [spaced] at *
    linarith

theorem measures_paper (p : Paper) : Measures (Fpdf.engine p) p.metric := ⟨fun _ _ _ => rfl, fun _ _ => rfl⟩

theorem setWords_styles {ws : List Word} {i : TextItem} (h : i ∈ setWords ws) : ∃ w ∈ ws, i.sty = w.1 ∧ (i.text = w.2 ∨ i.text = 32 :: w.2) := by
  cases ws with
  | nil => simp [setWords] at h
  | cons w ws =>
    simp only [setWords, List.mem_cons, List.mem_map] at h
    rcases h with rfl | ⟨v, hv, rfl⟩
    · exact ⟨w, by simp, rfl, Or.inl rfl⟩
    · exact ⟨v, by simp [hv], rfl, Or.inr rfl⟩

theorem textLines_room (he : Even p δ) {iss : List Instr} {W : ℚ} {sty : Styles} (hs : F sty.font) (hst : StepsIn ctx F iss) (s : PState Fpdf)
    (hroom : ∀ w, some w ∈ tokens ctx.classes s.eng.page sty iss → spaced p.metric w < W) :
    ∀ l ∈ (textLines (Fpdf.engine p) ctx.classes iss W sty s).1, LineRoom p δ F W l := by
  intro l hl
  rw [textLines_eq (measures_paper p)] at hl
  obtain ⟨ws, hws, rfl⟩ := List.mem_map.mp hl
  have hmem : ∀ w ∈ ws, some w ∈ tokens ctx.classes s.eng.page sty iss := by
    intro w hw
    have : w ∈ (wrapped p.metric W (tokens ctx.classes s.eng.page sty iss)).flatten := List.mem_flatten.mpr ⟨ws, hws, hw⟩
    rw [wrapped_words] at this
    simpa using this
  refine ⟨?_, ?_⟩
  · intro i hi
    obtain ⟨w, hw, e, et⟩ := setWords_styles hi
    refine ⟨by rw [e]; exact tokens_fontIn hs iss hst w (hmem w hw), fun _ => ?_⟩
    obtain ⟨w1, w2, w3, w4⟩ := tokens_whole iss w (hmem w hw)
    rcases et with et | et
    · rw [et]; exact ⟨w1, w2, w3, w4⟩
    · rw [et]; exact ⟨by simp, by simpa using w1, by simpa using w3, by simpa using w4⟩
  · by_cases hne : ws = []
    · left; rw [hne]; rfl
    · right
      refine ⟨natural_delta he ws hne, ?_⟩
      show spacedSum p.metric ws ≤ W
      by_cases h2 : 2 ≤ ws.length
      · exact le_of_lt (wrapped_narrow _ ws hws h2)
      · match ws, hne, h2, hmem with
        | [w], _, _, hmem =>
          simp only [spacedSum, List.map_cons, List.map_nil, List.sum_cons, List.sum_nil, add_zero]
          exact le_of_lt (hroom w (hmem w (by simp)))
        | _ :: _ :: _, _, h2, _ => exact absurd (by simp) h2

/-- The pieces come from the words. -/
def FromWord (hyph : Str → List Str) (toks : List (Option Word)) : WPiece → Prop
  | .whole w => some w ∈ toks
  | .head v => ∃ w, some w ∈ toks ∧ v.1 = w.1
  | .tail v => ∃ w k, some w ∈ toks ∧ 1 ≤ k ∧ k < (hyph w.2).length ∧ v = restOf hyph k w

theorem foldl_fromWord {hyph : Str → List Str} {mt : Font → Str → ℚ} {W : ℚ} {toks : List (Option Word)} : ∀ (ts : List (Option Word))
    (acc : List HLine × List WPiece), (∀ t ∈ ts, t ∈ toks) → (∀ l ∈ acc.1, ∀ q ∈ l.1, FromWord hyph toks q) → (∀ q ∈ acc.2, FromWord hyph toks q) →
    (∀ l ∈ (ts.foldl (placeHyph hyph mt W) acc).1, ∀ q ∈ l.1, FromWord hyph toks q) ∧
    ∀ q ∈ (ts.foldl (placeHyph hyph mt W) acc).2, FromWord hyph toks q
  | [], acc, _, h1, h2 => ⟨h1, h2⟩
  | t :: ts, acc, ht, h1, h2 => by
    have mark : ∀ (ls : List HLine), (∀ l ∈ ls, ∀ q ∈ l.1, FromWord hyph toks q) → ∀ l ∈ markLastH ls, ∀ q ∈ l.1, FromWord hyph toks q := by
      intro ls h l hl
      have : l.1 ∈ ls.map (·.1) := by
        have e : (markLastH ls).map (·.1) = ls.map (·.1) := by
          clear h hl
          induction ls with
          | nil => rfl
          | cons a ls ih =>
            cases ls with
            | nil => rfl
            | cons b ls => simp only [markLastH, List.map_cons] at ih ⊢; rw [ih]
        rw [← e]
        exact List.mem_map_of_mem hl
      obtain ⟨l', hl', e⟩ := List.mem_map.mp this
      rw [← e]
      exact h l' hl'
    have snoc : ∀ (ls : List HLine) (l : HLine), (∀ l ∈ ls, ∀ q ∈ l.1, FromWord hyph toks q) → (∀ q ∈ l.1, FromWord hyph toks q) →
        ∀ x ∈ ls ++ [l], ∀ q ∈ x.1, FromWord hyph toks q := by
      intro ls l h hl x hx
      rcases List.mem_append.mp hx with hx | hx
      · exact h x hx
      · simp at hx; rw [hx]; exact hl
    have hin : t ∈ toks := ht t (by simp)
    rw [List.foldl_cons]
    have hts : ∀ t ∈ ts, t ∈ toks := fun u hu => ht u (List.mem_cons_of_mem _ hu)
    cases t with
    | none => exact foldl_fromWord ts _ hts (snoc _ _ (mark _ h1) h2) (by simp [placeHyph])
    | some w =>
      simp only [placeHyph]
      split
      · cases hh : tryHyphenate hyph (mt w.1.font) W w.2 (ctotal mt acc.2) with
        | none =>
          refine foldl_fromWord ts _ hts (snoc _ _ h1 h2) ?_
          intro q hq
          simp at hq
          rw [hq]; exact hin
        | some r =>
          obtain ⟨s1, s2⟩ := r
          obtain ⟨k, hk1, hk2, e1, e2, _⟩ := tryHyphenate_some hh
          refine foldl_fromWord ts _ hts (snoc _ _ h1 ?_) ?_
          · intro q hq
            rcases List.mem_append.mp hq with hq | hq
            · exact h2 q hq
            · simp at hq; rw [hq]; exact ⟨w, hin, rfl⟩
          · intro q hq
            simp at hq
            rw [hq]
            exact ⟨w, k, hin, hk1, hk2, by rw [e2]; rfl⟩
      · refine foldl_fromWord ts _ hts h1 ?_
        intro q hq
        rcases List.mem_append.mp hq with hq | hq
        · exact h2 q hq
        · simp at hq; rw [hq]; exact hin

theorem wrappedHyph_fromWord {hyph : Str → List Str} {mt : Font → Str → ℚ} {W : ℚ} (toks : List (Option Word)) :
    ∀ l ∈ wrappedHyph hyph mt W toks, ∀ q ∈ l.1, FromWord hyph toks q := by
  obtain ⟨h1, h2⟩ := foldl_fromWord (hyph := hyph) (mt := mt) (W := W) (toks := toks) toks ([], []) (fun _ h => h) (by simp) (by simp)
  unfold wrappedHyph
  simp only
  split
  · intro l hl
    rcases List.mem_append.mp hl with hl | hl
    · exact h1 l hl
    · simp at hl; rw [hl]; exact h2
  · exact h1

theorem fromWord_font {hyph : Str → List Str} {toks : List (Option Word)} (hf : ∀ w, some w ∈ toks → F w.1.font) {q : WPiece} (h : FromWord hyph toks q)
    (b : Bool) : F (q.item b).sty.font := by
  cases q with
  | whole w => exact hf w h
  | head v =>
    obtain ⟨w, hw, e⟩ := h
    show F v.1.font
    rw [e]; exact hf w hw
  | tail v =>
    obtain ⟨w, k, hw, _, _, e⟩ := h
    show F v.1.font
    rw [e]; exact hf w hw

/-- A line of one piece that is the first part of a word. -/
theorem wrappedHyph_head {hyph : Str → List Str} {mt : Font → Str → ℚ} {W : ℚ} (toks : List (Option Word)) :
    ∀ l ∈ (wrappedHyph hyph mt W toks).map (·.1), ∀ w, l = [.head w] → spaced mt (w.1, w.2 ++ [45]) ≤ W := by
  refine wrappedHyph_inv (P := fun l => ∀ w, l = [.head w] → spaced mt (w.1, w.2 ++ [45]) ≤ W) (Q := fun l => ∀ w, l ≠ [.head w])
    ?_ ?_ ?_ ?_ ?_ ?_ toks
  · intro w h; simp at h
  · intro l h w e; exact absurd e (h w)
  · intro l w _ _ v e
    cases l with
    | nil => simp at e
    | cons a l => simp at e
  · intro w v e; simp at e
  · intro w v e; simp at e
  · intro l w _ hw v e
    cases l with
    | nil =>
      simp only [List.nil_append, List.cons.injEq, WPiece.head.injEq, and_true] at e
      rw [← e]
      simpa [spaced, ctotal] using hw
    | cons a l => simp at e

theorem textLinesHyph_room (he : Even p δ) (h0 : δ = 0) {iss : List Instr} {W : ℚ} {sty : Styles} (hs : F sty.font) (hst : StepsIn ctx F iss)
    (s : PState Fpdf) (hroom : ∀ w, some w ∈ blockTokens ctx.classes s.eng.page sty iss → spaced p.metric w < W ∧
      ∀ k, 1 ≤ k → k < (ctx.hyphenate w.2).length → p.metric w.1.font (restOf ctx.hyphenate k w).2 ≤ W) :
    ∀ l ∈ (textLinesHyphenated (Fpdf.engine p) ctx.hyphenate ctx.classes iss W sty s).1, HyphRoom p F W l := by
  intro l hl
  have hsp : ∀ f w, p.metric f w ≤ p.metric f (32 :: w) := fun f w => by have := he.space f w; have := he.delta; linarith
  rw [textLinesHyph_eq (measures_paper p)] at hl
  obtain ⟨ps, hps, rfl⟩ := List.mem_map.mp hl
  have hpc := wrappedHyph_fromWord _ ps hps
  have hmem : ps.1 ∈ (wrappedHyph ctx.hyphenate p.metric W (blockTokens ctx.classes s.eng.page sty iss)).map (·.1) := List.mem_map_of_mem hps
  have hends := wrappedHyph_ends _ ps.1 hmem
  refine ⟨?_, ?_, ?_⟩
  · intro i hi
    have hf := fun q hq b => fromWord_font (blockTokens_fontIn (page := s.eng.page) hs iss hst) (hpc q hq) b
    have hi' : i ∈ setPieces ps.1 := hi
    cases hp1 : ps.1 with
    | nil => rw [hp1] at hi'; simp [setPieces] at hi'
    | cons q qs =>
      rw [hp1] at hi'
      simp only [setPieces, List.mem_cons, List.mem_map] at hi'
      rcases hi' with rfl | ⟨r, hr, rfl⟩
      · exact hf q (by rw [hp1]; simp) true
      · exact hf r (by rw [hp1]; simp [hr]) false
  · by_cases hne : ps.1 = []
    · left
      show setPieces ps.1 = []
      rw [hne]; rfl
    · right
      refine le_trans (natural_le_hyph hsp ps.1 hends) ?_
      by_cases h2 : 2 ≤ ps.1.length
      · exact (wrappedHyph_width _ ps.1 hmem h2).1
      · have hhead := wrappedHyph_head _ ps.1 hmem
        match hp1 : ps.1, hne, h2 with
        | [q], _, _ =>
          rw [hp1] at hpc hhead
          have hq := hpc q (by simp)
          cases q with
          | whole w => simp only [ctotal, counted, List.map_cons, List.map_nil, List.sum_cons, List.sum_nil, add_zero]; exact le_of_lt (hroom w hq).1
          | head w =>
            have := hhead w rfl
            simpa [ctotal, counted, spaced] using this
          | tail v =>
            obtain ⟨w, k, hw, hk1, hk2, e⟩ := hq
            have := (hroom w hw).2 k hk1 hk2
            simp only [ctotal, counted, List.map_cons, List.map_nil, List.sum_cons, List.sum_nil, add_zero]
            rw [e]
            exact this
        | _ :: _ :: _, _, h2 => exact absurd (by simp) h2
  · intro h2
    have h2' : 2 ≤ ps.1.length := by rw [← setPieces_length]; exact h2
    have hwhole := wrappedHyph_whole (hyph := ctx.hyphenate) (mt := p.metric) (width := W) _
      (blockTokens_nosp (cs := ctx.classes) (page := s.eng.page) (sty := sty) iss) ps.1 hmem
    have hr := room he.wide he.trims hends hwhole h2'
    have hwid := (wrappedHyph_width _ ps.1 hmem h2').1
    exact ⟨pure_eq ps.1 hwhole, by show ptotal p.metric ps.1 ≤ _; linarith⟩

/-! ### Elements -/

theorem get_bind {α : Type} {k : PState Fpdf → M Fpdf α} {s : PState Fpdf} {r : α × PState Fpdf} (h : ((get : M Fpdf (PState Fpdf)) >>= k) s = some r) :
    k s s = some r := h

theorem linesLoop_keeps {P : PState Fpdf → Prop} (hP : ∀ f s, F f → P s → P (changeFont (Fpdf.engine p) f s)) {W : ℚ} {sty : Styles} (hs : F sty.font) :
    ∀ (iss : List Instr), StepsIn ctx F iss → ∀ (acc : List TextLine × TextLine) (s : PState Fpdf), P s →
    P (linesLoop (Fpdf.engine p) ctx.classes W sty iss acc s).2 := by
  intro iss
  induction iss with
  | nil => intro _ acc s h; exact h
  | cons i iss ih =>
    intro hst acc s h
    have ih := ih hst.tail
    cases i with
    | textBlock t =>
      simp only [linesLoop, textOf]
      split
      · exact ih _ _ h
      · exact ih _ _ (hP _ _ hs h)
    | paragraph st t =>
      simp only [linesLoop, textOf]
      split
      · exact ih _ _ h
      · exact ih _ _ (hP _ _ (hst st t (by simp) sty hs) h)
    | _ => exact ih _ _ h

theorem linesLoopHyph_keeps {P : PState Fpdf → Prop} (hP : ∀ f s, F f → P s → P (changeFont (Fpdf.engine p) f s)) {W : ℚ} {sty : Styles} (hs : F sty.font) :
    ∀ (iss : List Instr), StepsIn ctx F iss → ∀ (acc : List TextLine × TextLine) (s : PState Fpdf), P s →
    P (linesLoopHyph (Fpdf.engine p) ctx.hyphenate ctx.classes W sty iss acc s).2 := by
  intro iss
  induction iss with
  | nil => intro _ acc s h; exact h
  | cons i iss ih =>
    intro hst acc s h
    have ih := ih hst.tail
    cases i with
    | textBlock t => exact ih _ _ (hP _ _ hs h)
    | paragraph st t => exact ih _ _ (hP _ _ (hst st t (by simp) sty hs) h)
    | _ => exact ih _ _ h

/-- The state is good, at position `x`. -/
def KeptAt (p : Paper) (δ : ℚ) (F : Font → Prop) (x : ℚ) (s : PState Fpdf) : Prop := Kept p δ F s ∧ s.eng.x = x

theorem keptAt_font {x : ℚ} (f : Font) (s : PState Fpdf) (hf : F f) (h : KeptAt p δ F x s) : KeptAt p δ F x (changeFont (Fpdf.engine p) f s) :=
  ⟨kept_changeFont h.1 hf, h.2⟩

theorem textHeightFnc_keeps {x W : ℚ} {sty : Styles} (hs : F sty.font) {iss : List Instr} (hst : StepsIn ctx F iss) {s : PState Fpdf}
    (h : KeptAt p δ F x s) : KeptAt p δ F x (textHeightFnc (Fpdf.engine p) ctx sty iss W s).2 := by
  have h' : KeptAt p δ F x { s with eng := (Fpdf.engine p).changeFont sty.font s.eng } := ⟨kept_same h.1 rfl, h.2⟩
  unfold textHeightFnc
  split
  · exact linesLoopHyph_keeps (ctx := ctx) keptAt_font hs iss hst _ _ h'
  · exact linesLoop_keeps (ctx := ctx) keptAt_font hs iss hst _ _ h'

theorem wrapped_some {mt : Font → Str → ℚ} {W : ℚ} {toks : List (Option Word)} (h : toks ≠ []) : wrapped mt W toks ≠ [] := by
  obtain ⟨init, t, rfl⟩ : ∃ init t, toks = init ++ [t] := ⟨toks.dropLast, toks.getLast h, (List.dropLast_append_getLast h).symm⟩
  unfold wrapped
  rw [List.foldl_append]
  have key : ∀ acc, (let r := placeTok mt W acc t; if r.2.length > 0 then r.1 ++ [r.2] else r.1) ≠ [] := by
    intro acc
    cases t with
    | none => simp [placeTok]
    | some w =>
      have : (placeTok mt W acc (some w)).2.length > 0 := by
        simp only [placeTok]
        split
        · first | (split <;> simp) | simp
        · simp
      simp only
      rw [if_pos this]
      simp
  exact key _

theorem wrappedHyph_some {hyph : Str → List Str} {mt : Font → Str → ℚ} {W : ℚ} {toks : List (Option Word)} (h : toks ≠ []) :
    wrappedHyph hyph mt W toks ≠ [] := by
  obtain ⟨init, t, rfl⟩ : ∃ init t, toks = init ++ [t] := ⟨toks.dropLast, toks.getLast h, (List.dropLast_append_getLast h).symm⟩
  unfold wrappedHyph
  rw [List.foldl_append]
  have key : ∀ acc, (let r := placeHyph hyph mt W acc t; if r.2.length > 0 then r.1 ++ [(r.2, true)] else r.1) ≠ [] := by
    intro acc
    cases t with
    | none => simp [placeHyph]
    | some w =>
      have : (placeHyph hyph mt W acc (some w)).2.length > 0 := by
        simp only [placeHyph]
        split
        · first | (split <;> simp) | simp
        · simp
      simp only
      rw [if_pos this]
      simp
  exact key _

theorem writeTextFnc_within (he : Even p δ) (hc : Holds p N δ F c) {sty : Styles} (hs : F sty.font) {iss : List Instr} (hst : StepsIn ctx F iss) {x W : ℚ}
    (hx : p.margins.left ≤ x) (hW : x + W ≤ p.width - p.margins.right - 2) (hroom : RoomFor p ctx N δ W sty iss)
    {s s' : PState Fpdf} {a : Unit} (hr : writeTextFnc (Fpdf.engine p) ctx c iss W sty s = some (a, s'))
    (hN : s'.eng.page ≤ N) (hk : KeptAt p δ F x s) :
    Kept p δ F s' ∧ (s'.eng.x = p.margins.left ∨ s'.eng.x = x ∧
      ∃ page : Nat, page ≤ N ∧ (if sty.align.h = b!"block" then blockTokens ctx.classes page sty iss else tokens ctx.classes page sty iss) = []) := by
  have hp := le_trans (pages_le (fun k => writeTextFnc_K (any_style ctx.classes) (hc.pages k) (any_instr iss) W (sty := sty) trivial) hr) hN
  unfold writeTextFnc at hr
  by_cases hb : sty.align.h = b!"block"
  · rw [if_pos hb] at hr
    unfold writeTextHyphenated at hr
    obtain ⟨_, s1, h1, hr⟩ := bind_some hr
    obtain ⟨_, s2, h2, hr⟩ := bind_some hr
    obtain ⟨lines, s3, h3, hr⟩ := bind_some hr
    obtain ⟨xy, s4, h4, hr⟩ := bind_some hr
    simp only [upd, total, ask, Option.some.injEq, Prod.mk.injEq] at h1 h2 h3 h4
    have k2 : KeptAt p δ F x s2 := by
      rw [← h2.2, ← h1.2]
      exact ⟨kept_same hk.1 rfl, hk.2⟩
    have e3 : (textLinesHyphenated (Fpdf.engine p) ctx.hyphenate ctx.classes iss W sty s2) = (lines, s3) := h3
    have k3 : KeptAt p δ F x s3 := by
      have := linesLoopHyph_keeps (ctx := ctx) (W := W) keptAt_font hs iss hst ([], TextLine.empty) s2 k2
      have e : (linesLoopHyph (Fpdf.engine p) ctx.hyphenate ctx.classes W sty iss ([], TextLine.empty) s2).2 = s3 := by
        rw [show s3 = (lines, s3).2 from rfl, ← e3]; rfl
      rwa [e] at this
    have hrm := hroom s2.eng.page (by rw [← h2.2, ← h1.2]; exact hp)
    rw [if_pos hb] at hrm
    have hl := textLinesHyph_room he hrm.1 hs hst s2 hrm.2
    rw [e3] at hl
    have hxy : xy.1 = x := by rw [← h4.1, ← k3.2]; rfl
    rw [hxy] at hr
    obtain ⟨r1, r2⟩ := writeHyphLines_within he hrm.1 hc hx hW lines s4 a s' hr hN (h4.2 ▸ k3.1) hl
    refine ⟨r1, ?_⟩
    by_cases hn : lines = []
    · rw [if_pos hn] at r2
      refine Or.inr ⟨by rw [r2, ← h4.2]; exact k3.2, s2.eng.page, by rw [← h2.2, ← h1.2]; exact hp, ?_⟩
      rw [if_pos hb]
      by_contra hne
      have := textLinesHyph_eq (measures_paper p) (hyph := ctx.hyphenate) (cs := ctx.classes) (width := W) (sty := sty) iss s2
      rw [e3] at this
      exact wrappedHyph_some hne (List.map_eq_nil_iff.mp (this.symm.trans hn))
    · rw [if_neg hn] at r2
      exact Or.inl r2
  · rw [if_neg hb] at hr
    unfold Model.writeText at hr
    obtain ⟨_, s1, h1, hr⟩ := bind_some hr
    obtain ⟨_, s2, h2, hr⟩ := bind_some hr
    obtain ⟨lines, s3, h3, hr⟩ := bind_some hr
    obtain ⟨xy, s4, h4, hr⟩ := bind_some hr
    simp only [upd, total, ask, Option.some.injEq, Prod.mk.injEq] at h1 h2 h3 h4
    have k2 : KeptAt p δ F x s2 := by
      rw [← h2.2, ← h1.2]
      exact ⟨kept_same hk.1 rfl, hk.2⟩
    have e3 : (textLines (Fpdf.engine p) ctx.classes iss W sty s2) = (lines, s3) := h3
    have k3 : KeptAt p δ F x s3 := by
      have := linesLoop_keeps (ctx := ctx) (W := W) keptAt_font hs iss hst ([], TextLine.empty) s2 k2
      have e : (linesLoop (Fpdf.engine p) ctx.classes W sty iss ([], TextLine.empty) s2).2 = s3 := by
        rw [show s3 = (lines, s3).2 from rfl, ← e3]; rfl
      rwa [e] at this
    have hrm := hroom s2.eng.page (by rw [← h2.2, ← h1.2]; exact hp)
    rw [if_neg hb] at hrm
    have hl := textLines_room he hs hst s2 hrm
    rw [e3] at hl
    have hxy : xy.1 = x := by rw [← h4.1, ← k3.2]; rfl
    rw [hxy] at hr
    have k4 : KeptAt p δ F x s4 := h4.2 ▸ k3
    obtain ⟨r1, r2⟩ := writeLines_within he hc hx hW lines s4 a s' hr hN k4.1 (by rw [k4.2]; exact hx) (by rw [k4.2]) hl
    refine ⟨r1, ?_⟩
    by_cases hn : lines = []
    · rw [if_pos hn] at r2
      refine Or.inr ⟨by rw [r2]; exact k4.2, s2.eng.page, by rw [← h2.2, ← h1.2]; exact hp, ?_⟩
      rw [if_neg hb]
      by_contra hne
      have := textLines_eq (measures_paper p) (cs := ctx.classes) (width := W) (sty := sty) iss s2
      rw [e3] at this
      exact wrapped_some hne (List.map_eq_nil_iff.mp (this.symm.trans hn))
    · rw [if_neg hn] at r2
      exact Or.inl r2

theorem pageWidth_wide (a : Area) (w : ℚ) : (Page.mk a).effectiveWidth w = wideSet (a.x1 - a.x0) w := Verif.Props.tableWidth_eq _ _

theorem page_width_le (a : Area) (w : ℚ) : (Page.mk a).effectiveWidth w ≤ a.x1 - a.x0 := by
  simp only [Page.effectiveWidth]
  split
  · exact le_refl _
  · rename_i h; push Not at h; exact h.2

theorem resetStyles_at {x : ℚ} {s s' : PState Fpdf} {a : Unit} (hr : resetStyles (Fpdf.engine p) s = some (a, s')) (h : KeptAt p δ F x s) : KeptAt p δ F x s' := by
  simp only [resetStyles, Option.some.injEq, Prod.mk.injEq] at hr
  rw [← hr.2]
  exact ⟨kept_same h.1 rfl, h.2⟩

theorem kept_curr {s : PState Fpdf} (h : Kept p δ F s) : F s.curr.font := by
  obtain ⟨_, f, hf, e⟩ := h
  rw [e]; exact hf

theorem renderText_within (he : Even p δ) (hc : Holds p N δ F c) {st : Styled} {iss : List Instr} (hst : StepsIn ctx F iss)
    (hm : ∀ sty, F sty.font → F (st.mutatedStyles ctx.classes sty).font) (hroom : TextRoom p ctx N δ F st iss)
    {s s' : PState Fpdf} {a : Unit} (hr : renderText (Fpdf.engine p) ctx c st iss s = some (a, s')) (hN : s'.eng.page ≤ N) (hk : KeptAt p δ F p.margins.left s) :
    KeptAt p δ F p.margins.left s' := by
  unfold renderText at hr
  split at hr
  · simp only [Pure.pure, StateT.pure, Option.some.injEq, Prod.mk.injEq] at hr
    exact hr.2 ▸ hk
  · replace hr := get_bind hr
    obtain ⟨pa, s2, h2, hr⟩ := bind_some hr
    obtain ⟨_, s3, h3, hr⟩ := bind_some hr
    simp only [ask, Option.some.injEq, Prod.mk.injEq] at h2
    obtain ⟨h2a, h2b⟩ := h2
    have hpa : pa = areaOf p := h2a.symm
    rw [hpa] at h3
    obtain ⟨f, hf, ef⟩ := hk.1.2
    have hrm := hroom f hf
    simp only at hrm
    rw [← ef, ← pageWidth_wide] at hrm
    have hw := page_width_le (areaOf p) (st.mutatedStyles ctx.classes s.curr).dim.width
    rw [← h2b] at h3
    have hpg : s3.eng.page ≤ N := le_trans (pages_le (fun k => resetStyles_K (hc.pages k)) hr) hN
    obtain ⟨k, hx⟩ := writeTextFnc_within he hc (hm _ (kept_curr hk.1)) hst (le_refl _) (by simp only [areaOf] at hw ⊢; linarith) hrm h3 hpg hk
    refine resetStyles_at hr ⟨k, ?_⟩
    rcases hx with hx | ⟨hx, _⟩ <;> exact hx

theorem draws_kept : ∀ (cmds : List DrawCmd) (s : PState Fpdf), Kept p δ F s →
    Kept p δ F { s with eng := cmds.foldl (fun e c => (Fpdf.engine p).draw c e) s.eng }
  | [], s, h => h
  | c :: cmds, s, h => by
    have : Kept p δ F { s with eng := (Fpdf.engine p).draw c s.eng } := by
      refine kept_eng h fun m hm => ?_
      have e : ((Fpdf.engine p).draw c s.eng).out = s.eng.out ++ [.draw s.eng.page c] := by
        show (Fpdf.draw c s.eng).out = _
        unfold Fpdf.draw; cases c <;> rfl
      rw [e] at hm
      rcases List.mem_append.mp hm with hm | hm
      · exact Or.inl hm
      · simp at hm; rw [hm]; exact Or.inr ⟨trivial, trivial⟩
    exact draws_kept cmds _ this

theorem boxInside_eq (sty : Styles) (pa : Area) : boxInside (pa.x1 - pa.x0) sty = boxWidth sty pa := by
  have : (Page.mk pa).effectiveWidth sty.dim.width = pa.effectiveWidth sty.dim.width := rfl
  unfold boxInside boxWidth
  rw [← pageWidth_wide, this]

/-- The state is good, at the left margin or at `x`. -/
def KeptBy (p : Paper) (δ : ℚ) (F : Font → Prop) (x : ℚ) (s : PState Fpdf) : Prop := Kept p δ F s ∧ (s.eng.x = p.margins.left ∨ s.eng.x = x)

theorem boxHeight_keeps {x W : ℚ} {sty : Styles} (hs : F sty.font) {iss : List Instr} (hst : StepsIn ctx F iss) {s s' : PState Fpdf} {h : ℚ}
    (hr : boxHeight (Fpdf.engine p) ctx sty iss W s = some (h, s')) (hk : KeptBy p δ F x s) : KeptBy p δ F x s' := by
  have hk' : KeptAt p δ F s.eng.x s := ⟨hk.1, rfl⟩
  suffices H : KeptAt p δ F s.eng.x s' from ⟨H.1, by rw [H.2]; exact hk.2⟩
  unfold boxHeight at hr
  split at hr
  · split at hr
    · simp only [total, Option.some.injEq] at hr
      have := textHeightFnc_keeps (ctx := ctx) (W := W) hs hst hk'
      rwa [hr] at this
    · simp only [ask, Option.some.injEq, Prod.mk.injEq] at hr
      exact hr.2 ▸ hk'
  · simp only [Pure.pure, StateT.pure, Option.some.injEq, Prod.mk.injEq] at hr
    exact hr.2 ▸ hk'

theorem renderTextBox_within (he : Even p δ) (hc : Holds p N δ F c) {st : Styled} {iss : List Instr} (hst : StepsIn ctx F iss)
    (hm : ∀ sty, F sty.font → F (st.mutatedStyles ctx.classes sty).font) {pa : Area} (hpa : p.margins.left ≤ pa.x0) (hroom : BoxRoom p ctx N δ F pa.x0 pa.x1 st iss)
    {s s' : PState Fpdf} {a : Unit} (hr : renderTextBox (Fpdf.engine p) ctx c st iss pa s = some (a, s')) (hN : s'.eng.page ≤ N) (hk : KeptBy p δ F pa.x0 s) :
    KeptBy p δ F pa.x0 s' := by
  unfold renderTextBox at hr
  replace hr := get_bind hr
  obtain ⟨f, hf, ef⟩ := hk.1.2
  have hrm := hroom f hf
  simp only at hrm
  rw [← ef, boxInside_eq] at hrm
  have hfo := hm _ (kept_curr hk.1)
  generalize hsty : st.mutatedStyles ctx.classes s.curr = sty at hr hrm hfo
  obtain ⟨b1, b2, b3, b4⟩ := hrm
  obtain ⟨height, s2, h2, hr⟩ := bind_some hr
  obtain ⟨xy, s3, h3, hr⟩ := bind_some hr
  obtain ⟨_, s4, h4, hr⟩ := bind_some hr
  obtain ⟨_, s5, h5, hr⟩ := bind_some hr
  obtain ⟨_, s6, h6, hr⟩ := bind_some hr
  have hr : ((if iss.length > 0 then writeTextFnc (Fpdf.engine p) ctx c iss (boxWidth sty pa) sty else pure ()) >>= fun _ =>
      upd ((Fpdf.engine p).setY (xy.2 + sty.dim.offsetY + height + sty.box.padding.top + sty.box.padding.bottom)) >>= fun _ =>
      resetStyles (Fpdf.engine p)) s6 = some (a, s') := by
    rw [← hr]
    split <;> rfl
  obtain ⟨_, s7, h7, hr⟩ := bind_some hr
  obtain ⟨_, s8, h8, hr⟩ := bind_some hr
  have hleft := he.left
  have p7 : s7.eng.page ≤ N := by
    have := pages_le (fun k => resetStyles_K (hc.pages k)) hr
    simp only [upd, Option.some.injEq, Prod.mk.injEq] at h8
    rw [← h8.2] at this
    exact le_trans this hN
  have p3 : s3.eng.page ≤ N := by
    have g1 := pages_le (fun k => drawBoxM_K (hc.pages k) _ _ _ _ trivial) h4
    have g2 : s6.eng.page = s4.eng.page := by
      simp only [upd, Option.some.injEq, Prod.mk.injEq] at h5 h6
      rw [← h6.2, ← h5.2]
      rfl
    have g3 : s6.eng.page ≤ s7.eng.page := by
      refine pages_le (m := if iss.length > 0 then writeTextFnc (Fpdf.engine p) ctx c iss (boxWidth sty pa) sty else pure ()) (fun k => ?_) h7
      split
      · exact writeTextFnc_K (any_style ctx.classes) (hc.pages k) (any_instr iss) _ (sty := sty) trivial
      · exact Le.pure ()
    omega
  have k2 : KeptBy p δ F pa.x0 s2 := boxHeight_keeps hfo hst h2 hk
  have k3 : Kept p δ F s3 ∧ (xy.1 = p.margins.left ∨ xy.1 = pa.x0) := by
    unfold boxStart at h3
    replace h3 := get_bind h3
    split at h3
    · obtain ⟨_, t2, g2, h3⟩ := bind_some h3
      simp only [ask, Option.some.injEq, Prod.mk.injEq] at h3
      obtain ⟨k, e⟩ := hc.add _ _ _ g2 (by rw [h3.2]; exact p3) k2.1
      exact ⟨h3.2 ▸ k, .inl (by rw [← h3.1]; exact e)⟩
    · simp only [Pure.pure, StateT.pure, Option.some.injEq, Prod.mk.injEq] at h3
      exact ⟨h3.2 ▸ k2.1, by rw [← h3.1]; exact k2.2⟩
  have k4 : Kept p δ F s4 := by
    simp only [drawBoxM, upd, Option.some.injEq, Prod.mk.injEq] at h4
    rw [← h4.2]
    exact draws_kept _ _ k3.1
  simp only [upd, Option.some.injEq, Prod.mk.injEq] at h5 h6 h8
  have x3 : p.margins.left ≤ xy.1 ∧ xy.1 ≤ pa.x0 := by rcases k3.2 with e | e <;> rw [e] <;> simp [hpa]
  have k6 : KeptAt p δ F (xy.1 + (sty.dim.offsetX + sty.box.padding.left)) s6 := by
    rw [← h6.2, ← h5.2]
    refine ⟨kept_same (kept_same k4 rfl) rfl, ?_⟩
    show (if xy.1 + sty.dim.offsetX + sty.box.padding.left ≥ 0 then xy.1 + sty.dim.offsetX + sty.box.padding.left else _) = _
    rw [if_pos (by linarith [x3.1])]
    ring
  have k7 : KeptBy p δ F pa.x0 s7 := by
    split at h7
    · have hW : xy.1 + (sty.dim.offsetX + sty.box.padding.left) + boxWidth sty pa ≤ p.width - p.margins.right - 2 := by
        linarith [x3.2]
      obtain ⟨k, hx⟩ := writeTextFnc_within he hc hfo hst (by linarith [x3.1]) hW b4 h7 p7 k6
      refine ⟨k, ?_⟩
      rcases hx with hx | ⟨hx, page, hle, hp⟩
      · exact .inl hx
      · rcases b3 with b3 | b3
        · rw [hx, b3, add_zero]; exact k3.2
        · exact absurd hp (b3 page hle)
    · rename_i hlen
      simp only [Pure.pure, StateT.pure, Option.some.injEq, Prod.mk.injEq] at h7
      rw [← h7.2]
      have hnil : iss = [] := by simpa using hlen
      rcases b3 with b3 | b3
      · rw [b3, add_zero] at k6; exact ⟨k6.1, by rw [k6.2]; exact k3.2⟩
      · refine absurd ?_ (b3 0 (Nat.zero_le _))
        rw [hnil]
        split <;> rfl
  have x7 : 0 ≤ s7.eng.x := by rcases k7.2 with e | e <;> rw [e] <;> linarith
  have k8 : KeptAt p δ F s7.eng.x s' := by
    refine resetStyles_at hr ?_
    rw [← h8.2]
    refine ⟨kept_same k7.1 rfl, ?_⟩
    show (if s7.eng.x ≥ 0 then s7.eng.x else _) = _
    rw [if_pos x7]
  exact ⟨k8.1, by rw [k8.2]; exact k7.2⟩

/-! ### Documents -/

theorem stepsIn_text {O : List Instr} (hF : ∀ i ∈ O, ∀ st, StyleIn st i → ∀ sty, F sty.font → F (st.mutatedStyles ctx.classes sty).font) {st : Styled}
    {iss : List Instr} (h : .text st iss ∈ O ∨ .box st iss ∈ O) : StepsIn ctx F iss ∧ ∀ sty, F sty.font → F (st.mutatedStyles ctx.classes sty).font := by
  rcases h with h | h
  · exact ⟨fun st' t hm => hF _ h st' (.textIn hm .paragraph), hF _ h st .text⟩
  · exact ⟨fun st' t hm => hF _ h st' (.boxIn hm .paragraph), hF _ h st .box⟩

theorem renderImage_at {st : Styled} {src : Str} {pa : Area} {s s' : PState Fpdf} {a : Unit}
    (hr : renderImage (Fpdf.engine p) ctx st src pa s = some (a, s')) (hk : Kept p δ F s) : Kept p δ F s' ∧ s'.eng.x = s.eng.x := by
  unfold renderImage at hr
  cases hd : ctx.describe (ctx.resolve src) with
  | none =>
    simp only [hd, Pure.pure, StateT.pure, Option.some.injEq, Prod.mk.injEq] at hr
    exact ⟨hr.2 ▸ hk, by rw [hr.2]⟩
  | some d =>
    simp only [hd, Option.some.injEq, Prod.mk.injEq] at hr
    rw [← hr.2]
    refine ⟨kept_eng hk fun m hm => ?_, rfl⟩
    rcases List.mem_append.mp hm with hm | hm
    · exact Or.inl hm
    · simp at hm; rw [hm]; exact Or.inr ⟨trivial, trivial⟩

theorem renderGrid_at {rows : List (Styled × List Str)} {s s' : PState Fpdf} {a : Unit} (hr : renderGridM rows s = some (a, s')) : s' = s := by
  unfold renderGridM at hr
  cases hg : renderGrid id (rows.map (·.2)) with
  | panic => simp only [hg] at hr; exact absurd hr (by simp)
  | _ =>
    simp only [hg, Pure.pure, StateT.pure, Option.some.injEq, Prod.mk.injEq] at hr
    exact hr.2.symm

/-! ### Tables -/

/-- The fonts of styles, with selectors for tables. -/
structure Stepping (ctx : Ctx) (F : Font → Prop) (iss : List Instr) : Prop where
  step : ∀ i ∈ iss, ∀ st, StyleIn st i → ∀ sty, F sty.font → F (st.mutatedStyles ctx.classes sty).font
  selected : ∀ st rh rows, .table st rh rows ∈ iss → ∀ st', StyleIn st' (.table st rh rows) →
    ∀ sel sty, F sty.font → F (st'.mutatedStylesWithSelector sel ctx.classes sty).font

theorem Stepping.tail {i : Instr} {iss : List Instr} (h : Stepping ctx F (i :: iss)) : Stepping ctx F iss :=
  ⟨fun j hj => h.step j (List.mem_cons_of_mem _ hj), fun st rh rows hm => h.selected st rh rows (List.mem_cons_of_mem _ hm)⟩

/-- The style leads from fonts to fonts. -/
def Steps (ctx : Ctx) (F : Font → Prop) (st : Styled) : Prop := ∀ sty, F sty.font → F (st.mutatedStyles ctx.classes sty).font

theorem steps_in {iss : List Instr} (h : Known (Steps ctx F) iss) : StepsIn ctx F iss := fun st _ hm => h _ hm st .paragraph

theorem setY_by {x y : ℚ} (he : Even p δ) (hx : p.margins.left ≤ x) {s : PState Fpdf} (hk : KeptBy p δ F x s) :
    KeptBy p δ F x { s with eng := (Fpdf.engine p).setY y s.eng } := by
  refine ⟨kept_same hk.1 rfl, ?_⟩
  have h0 : 0 ≤ s.eng.x := by rcases hk.2 with e | e <;> rw [e] <;> linarith [he.left]
  show (if s.eng.x ≥ 0 then s.eng.x else _) = _ ∨ (if s.eng.x ≥ 0 then s.eng.x else _) = _
  rw [if_pos h0]
  exact hk.2

theorem renderCellItems_within (he : Even p δ) (hc : Holds p N δ F c) {va : Str} {pa : Area} (hpa : p.margins.left ≤ pa.x0) : ∀ (iss : List Instr)
    (_ : Known (Steps ctx F) iss) (_ : ∀ st is, .box st is ∈ iss → BoxRoom p ctx N δ F pa.x0 pa.x1 st is) (s : PState Fpdf) (a : Unit) (s' : PState Fpdf)
    (_ : renderCellItems (Fpdf.engine p) ctx c va pa iss s = some (a, s')) (_ : s'.eng.page ≤ N) (_ : KeptBy p δ F pa.x0 s), KeptBy p δ F pa.x0 s'
  | [], _, _, s, a, s', hr, _, hk => by
    simp only [renderCellItems, Pure.pure, StateT.pure, Option.some.injEq, Prod.mk.injEq] at hr
    exact hr.2 ▸ hk
  | i :: iss, hst, hb, s, a, s', hr, hN, hk => by
    have ih := renderCellItems_within he hc (va := va) hpa iss (known_tail hst) fun st is hm => hb st is (List.mem_cons_of_mem _ hm)
    have page : ∀ {s1 : PState Fpdf}, renderCellItems (Fpdf.engine p) ctx c va pa iss s1 = some (a, s') → s1.eng.page ≤ N := fun h =>
      le_trans (pages_le (fun k => renderCellItems_K (any_style ctx.classes) (hc.pages k) va pa iss (any_instr iss)) h) hN
    cases i with
    | box st is =>
      unfold renderCellItems at hr
      obtain ⟨h, s1, h1, hr⟩ := bind_some hr
      obtain ⟨_, s2, h2, hr⟩ := bind_some hr
      obtain ⟨_, s3, h3, hr⟩ := bind_some hr
      have hin : Known (Steps ctx F) is := fun j hj st' hs => hst _ (List.mem_cons_self ..) st' (.boxIn hj hs)
      have hst' : Steps ctx F st := hst _ (List.mem_cons_self ..) st .box
      have k1 : KeptBy p δ F pa.x0 s1 := by
        unfold textBoxHeight at h1
        replace h1 := get_bind h1
        obtain ⟨w, t1, g1, h1⟩ := bind_some h1
        obtain ⟨_, t2, g2, h1⟩ := bind_some h1
        simp only [Pure.pure, StateT.pure, Option.some.injEq, Prod.mk.injEq] at h1
        have q := boxHeight_keeps (hst' _ (kept_curr hk.1)) (steps_in hin) g1 hk
        have := resetStyles_at g2 (x := t1.eng.x) ⟨q.1, rfl⟩
        rw [← h1.2]
        exact ⟨this.1, by rw [this.2]; exact q.2⟩
      simp only [upd, Option.some.injEq, Prod.mk.injEq] at h2
      have k2 : KeptBy p δ F pa.x0 s2 := h2.2 ▸ setY_by he hpa k1
      exact ih _ _ _ hr hN (renderTextBox_within he hc (steps_in hin) hst' hpa (hb st is (by simp)) h3 (page hr) k2)
    | image st src =>
      unfold renderCellItems at hr
      obtain ⟨_, s1, h1, hr⟩ := bind_some hr
      obtain ⟨_, s2, h2, hr⟩ := bind_some hr
      simp only [upd, Option.some.injEq, Prod.mk.injEq] at h1
      have k1 : KeptBy p δ F pa.x0 s1 := h1.2 ▸ setY_by he hpa hk
      obtain ⟨k2, x2⟩ := renderImage_at h2 k1.1
      refine ih _ _ _ hr hN ⟨k2, ?_⟩
      rw [x2]
      exact k1.2
    | _ => exact ih _ _ _ hr hN hk

theorem renderCell_within (he : Even p δ) (hc : Holds p N δ F c) {pa : Area} {sty : Styles} (hs : F sty.font) {iss : List Instr} (hst : Known (Steps ctx F) iss)
    (hroom : CellRoom p ctx N δ F pa.x0 pa.x1 sty iss) {s s' : PState Fpdf} {a : Unit} (hr : renderCell (Fpdf.engine p) ctx c pa sty iss s = some (a, s'))
    (hN : s'.eng.page ≤ N) (hk : Kept p δ F s) : Kept p δ F s' := by
  have h0 : 0 ≤ pa.x0 + sty.box.padding.left := he.left.trans hroom.left
  unfold renderCell at hr
  obtain ⟨_, s1, h1, hr⟩ := bind_some hr
  have k1 : Kept p δ F s1 := by
    simp only [drawBoxM, upd, Option.some.injEq, Prod.mk.injEq] at h1
    rw [← h1.2]
    exact draws_kept _ _ hk
  have hr : ((if iss.length > 0 then renderCellText (Fpdf.engine p) ctx c pa sty iss else pure ()) >>= fun _ =>
      upd ((Fpdf.engine p).setX (pa.withPadding sty.box.padding).x0) >>= fun _ =>
      renderCellItems (Fpdf.engine p) ctx c sty.align.v (pa.withPadding sty.box.padding) iss) s1 = some (a, s') := by
    rw [← hr]
    split <;> rfl
  obtain ⟨_, s2, h2, hr⟩ := bind_some hr
  obtain ⟨_, s3, h3, hr⟩ := bind_some hr
  simp only [upd, Option.some.injEq, Prod.mk.injEq] at h3
  have p3 : s3.eng.page ≤ N := le_trans (pages_le (fun k => renderCellItems_K (any_style ctx.classes) (hc.pages k) _ _ iss (any_instr iss)) hr) hN
  have p2 : s2.eng.page ≤ N := by rw [← h3.2] at p3; exact p3
  have k2 : Kept p δ F s2 := by
    split at h2
    · unfold renderCellText at h2
      obtain ⟨h, t1, g1, h2⟩ := bind_some h2
      obtain ⟨_, t2, g2, h2⟩ := bind_some h2
      obtain ⟨_, t3, g3, h2⟩ := bind_some h2
      simp only [upd, total, Option.some.injEq, Prod.mk.injEq] at g1 g2 g3
      have kt : Kept p δ F t1 := by
        have h' : Kept p δ F { s1 with eng := (Fpdf.engine p).changeFont sty.font s1.eng } := kept_same k1 rfl
        have := linesLoop_keeps (p := p) (ctx := ctx) (P := Kept p δ F) (W := (pa.withPadding sty.box.padding).width) (fun f s hf h => kept_changeFont h hf)
          hs iss (steps_in hst) ([], TextLine.empty) _ h'
        rw [show t1 = (h, t1).2 from rfl, ← g1]
        exact this
      have k3 : KeptAt p δ F (pa.x0 + sty.box.padding.left) t3 := by
        rw [← g3.2, ← g2.2]
        refine ⟨kept_same (kept_same kt rfl) rfl, ?_⟩
        show (if pa.x0 + sty.box.padding.left ≥ 0 then pa.x0 + sty.box.padding.left else _) = _
        rw [if_pos h0]
      refine (writeTextFnc_within he hc hs (steps_in hst) hroom.left ?_ hroom.words h2 p2 k3).1
      have := hroom.right
      linarith
    · simp only [Pure.pure, StateT.pure, Option.some.injEq, Prod.mk.injEq] at h2
      exact h2.2 ▸ k1
  refine (renderCellItems_within he hc (pa := pa.withPadding sty.box.padding) hroom.left iss hst hroom.boxes _ _ _ hr hN ⟨?_, .inr ?_⟩).1
  · rw [← h3.2]; exact kept_same k2 rfl
  · rw [← h3.2]
    show (if pa.x0 + sty.box.padding.left ≥ 0 then pa.x0 + sty.box.padding.left else _) = _
    rw [if_pos h0]
    rfl

section
variable {ops : TableOps (PState Fpdf)} {t : Tab}

/-- The left edge of cell `j` of row `i` of a table at the left margin. -/
def cellLeft (p : Paper) (t : Tab) (i j : Nat) : ℚ := p.margins.left + (((idsOf t i).take j).map fun id => (t.cell id).width).sum

/-- What the operations of a table do. -/
structure OpsKeep (p : Paper) (N : Nat) (δ : ℚ) (F : Font → Prop) (t : Tab) (ops : TableOps (PState Fpdf)) : Prop where
  getX : ∀ s, (ops.getXY s).1 = s.eng.x
  setX : ∀ s, Kept p δ F s → KeptAt p δ F p.margins.left (ops.setX p.margins.left s)
  setY : ∀ y s, KeptAt p δ F p.margins.left s → KeptAt p δ F p.margins.left (ops.setY y s)
  add : ∀ s s', ops.addPage s = some s' → s'.eng.page ≤ N → Kept p δ F s → KeptAt p δ F p.margins.left s'
  cell : ∀ i j id, (idsOf t i)[j]? = some id → isAuthored t id = true → ∀ y0 y1 s s',
    ops.renderCell ⟨cellLeft p t i j, y0, cellLeft p t i j + (t.dim id).1, y1⟩ id s = some s' → s'.eng.page ≤ N → Kept p δ F s → Kept p δ F s'
  pages : ∀ k, TracksOps ops t (SincePage k)
  still : ∀ y s, (ops.setY y s).eng.page = s.eng.page
  stillX : ∀ x s, (ops.setX x s).eng.page = s.eng.page

theorem renderRowCells_within (ho : OpsKeep p N δ F t ops) {y : ℚ} {i : Nat} {row : TRow} (hi : t.rows[i]? = some row) : ∀ (ids : List Nat) (j : Nat) (x : ℚ)
    (s s' : PState Fpdf), row.cells.drop j = ids → x = cellLeft p t i j → renderRowCells ops t y x ids s = some s' → s'.eng.page ≤ N → Kept p δ F s → Kept p δ F s'
  | [], j, x, s, s', _, _, hr, _, hk => by
    simp only [renderRowCells, Option.some.injEq] at hr
    exact hr ▸ hk
  | id :: ids, j, x, s, s', hd, hx, hr, hN, hk => by
    have hid : idsOf t i = row.cells := by unfold idsOf; rw [hi]
    have hj : (idsOf t i)[j]? = some id := by
      rw [hid, ← List.head?_drop, hd]; rfl
    have hd' : row.cells.drop (j + 1) = ids := by rw [← List.drop_drop, hd]; rfl
    have hx' : x + (t.cell id).width = cellLeft p t i (j + 1) := by
      rw [hx]
      unfold cellLeft
      rw [List.take_add_one, hj]
      simp [add_assoc]
    have ih := renderRowCells_within ho (y := y) hi ids (j + 1)
    unfold renderRowCells at hr
    simp only at hr
    split at hr
    · exact ih _ _ _ hd' hx' hr hN hk
    · rename_i hna
      have ha : isAuthored t id = true := by
        unfold isAuthored
        rw [not_or] at hna
        simp [Option.isSome_iff_ne_none] at hna ⊢
        exact hna
      split at hr
      · exact absurd hr (by simp)
      · rename_i s1 h1
        have p1 : s1.eng.page ≤ N := le_trans (renderRowCells_K (ho.pages s1.eng.page) (List.mem_of_getElem? hi) ids _ s1 s'
          (fun z hz => by rw [← hd'] at hz; exact List.mem_of_mem_drop hz) ⟨le_refl _, trivial⟩ hr).1 hN
        rw [hx] at h1
        exact ih _ _ _ hd' hx' hr hN (ho.cell i j id hj ha _ _ _ _ h1 p1 hk)

theorem renderRow_within (ho : OpsKeep p N δ F t ops) {y y' : ℚ} {row : TRow} (hm : row ∈ t.rows) {s s' : PState Fpdf}
    (hr : renderRow ops t p.margins.left row y s = some (y', s')) (hN : s'.eng.page ≤ N) (hk : Kept p δ F s) : KeptAt p δ F p.margins.left s' := by
  obtain ⟨i, hi⟩ := List.mem_iff_getElem?.mp hm
  unfold renderRow at hr
  split at hr
  · exact absurd hr (by simp)
  · rename_i s1 h1
    simp only [Option.some.injEq, Prod.mk.injEq] at hr
    rw [← hr.2]
    refine ho.setX _ (renderRowCells_within ho hi _ 0 _ _ _ (by simp) (by simp [cellLeft]) h1 ?_ hk)
    rw [← hr.2, ho.stillX] at hN
    exact hN

theorem renderHeader_within (ho : OpsKeep p N δ F t ops) : ∀ (rows : List TRow) (y y' : ℚ) (s s' : PState Fpdf), (∀ r ∈ rows, r ∈ t.rows) →
    renderHeader ops t p.margins.left rows y s = some (y', s') → s'.eng.page ≤ N → KeptAt p δ F p.margins.left s → KeptAt p δ F p.margins.left s'
  | [], y, y', s, s', _, hr, _, hk => by
    simp only [renderHeader, Option.some.injEq, Prod.mk.injEq] at hr
    exact hr.2 ▸ hk
  | r :: rs, y, y', s, s', hm, hr, hN, hk => by
    unfold renderHeader at hr
    split at hr
    · exact absurd hr (by simp)
    · rename_i y1 s1 h1
      have hm' : ∀ r ∈ rs, r ∈ t.rows := fun r hr => hm r (List.mem_cons_of_mem _ hr)
      have p1 : s1.eng.page ≤ N := le_trans (renderHeader_K (ho.pages s1.eng.page) rs _ _ s1 s' hm' ⟨le_refl _, trivial⟩ hr).1 hN
      exact renderHeader_within ho rs _ _ _ _ hm' hr hN (renderRow_within ho (hm r (by simp)) h1 p1 hk.1)

theorem renderRows_within (ho : OpsKeep p N δ F t ops) {rh : Int} {bottom : ℚ} : ∀ (rows : List TRow) (i : Nat) (y y' : ℚ) (s s' : PState Fpdf),
    (∀ r ∈ rows, r ∈ t.rows) → renderRows ops t rh bottom p.margins.left i rows y s = some (y', s') → s'.eng.page ≤ N → KeptAt p δ F p.margins.left s →
    KeptAt p δ F p.margins.left s'
  | [], i, y, y', s, s', _, hr, _, hk => by
    simp only [renderRows, Option.some.injEq, Prod.mk.injEq] at hr
    exact hr.2 ▸ hk
  | r :: rs, i, y, y', s, s', hm, e, hN, hk => by
    have hm' : ∀ r ∈ rs, r ∈ t.rows := fun r hr => hm r (List.mem_cons_of_mem _ hr)
    have pg : ∀ (y2 : ℚ) (s2 : PState Fpdf) (q : ℚ × PState Fpdf), renderRow ops t p.margins.left r y2 s2 = some q →
        renderRows ops t rh bottom p.margins.left (i + 1) rs q.1 q.2 = some (y', s') → q.2.eng.page ≤ N ∧ s2.eng.page ≤ N := by
      intro y2 s2 q h1 hr
      have g1 := (renderRows_K (ho.pages q.2.eng.page) rs _ _ _ q.2 s' hm' ⟨le_refl _, trivial⟩ hr).1
      have g2 := (renderRow_K (ho.pages s2.eng.page) (hm r (by simp)) (y' := q.1) (s' := q.2) ⟨le_refl _, trivial⟩ h1).1
      exact ⟨le_trans g1 hN, le_trans g2 (le_trans g1 hN)⟩
    have fin : ∀ (y2 : ℚ) (s2 : PState Fpdf) (q : ℚ × PState Fpdf), KeptAt p δ F p.margins.left s2 → renderRow ops t p.margins.left r y2 s2 = some q →
        renderRows ops t rh bottom p.margins.left (i + 1) rs q.1 q.2 = some (y', s') → KeptAt p δ F p.margins.left s' := fun y2 s2 q hk2 h1 hr =>
      renderRows_within ho rs _ _ _ _ _ hm' hr hN (renderRow_within ho (hm r (by simp)) (y' := q.1) h1 (pg y2 s2 q h1 hr).1 hk2.1)
    unfold renderRows at e
    simp only at e
    by_cases hc : (!ops.prevent s) = true ∧ y + t.maxCellHeight r > bottom
    · simp only [if_pos hc] at e
      cases h1 : ops.addPage s with
      | none => rw [h1] at e; exact absurd e (by simp)
      | some s1 =>
        simp only [h1] at e
        by_cases hh : i > 0 ∧ rh > 0
        · simp only [if_pos hh] at e
          cases h4 : renderHeader ops t p.margins.left (t.rows.take rh.toNat) (ops.getXY s1).2 s1 with
          | none => rw [h4] at e; exact absurd e (by simp)
          | some q =>
            simp only [h4] at e
            cases h5 : renderRow ops t p.margins.left r q.1 q.2 with
            | none => rw [h5] at e; exact absurd e (by simp)
            | some q2 =>
              rw [h5] at e
              have pq := (pg _ _ q2 h5 e).2
              have p1 := le_trans (renderHeader_K (ho.pages s1.eng.page) _ _ q.1 s1 q.2 (fun r hr => List.mem_of_mem_take hr) ⟨le_refl _, trivial⟩ h4).1 pq
              exact fin _ _ q2 (renderHeader_within ho _ _ q.1 _ q.2 (fun r hr => List.mem_of_mem_take hr) h4 pq (ho.add s s1 h1 p1 hk.1)) h5 e
        · simp only [if_neg hh] at e
          cases h5 : renderRow ops t p.margins.left r (ops.getXY s1).2 s1 with
          | none => rw [h5] at e; exact absurd e (by simp)
          | some q2 =>
            rw [h5] at e
            exact fin _ _ q2 (ho.add s s1 h1 (pg _ _ q2 h5 e).2 hk.1) h5 e
    · simp only [if_neg hc] at e
      cases h5 : renderRow ops t p.margins.left r y s with
      | none => rw [h5] at e; exact absurd e (by simp)
      | some q2 =>
        rw [h5] at e
        exact fin _ _ q2 hk h5 e

theorem renderLaid_within (ho : OpsKeep p N δ F t ops) {rh : Int} {bottom : ℚ} {s s' : PState Fpdf} (e : renderLaid ops t rh bottom s = some s')
    (hN : s'.eng.page ≤ N) (hk : KeptAt p δ F p.margins.left s) : KeptAt p δ F p.margins.left s' := by
  have fin : ∀ (y1 : ℚ) (s1 : PState Fpdf) (q : ℚ × PState Fpdf), (s1.eng.page ≤ N → KeptAt p δ F p.margins.left s1) →
      renderRows ops t rh bottom p.margins.left 0 t.rows y1 s1 = some q → ops.setY q.1 q.2 = s' → KeptAt p δ F p.margins.left s' := by
    intro y1 s1 q hs1 h1 hr
    have pq : q.2.eng.page ≤ N := by rw [← hr, ho.still] at hN; exact hN
    have p1 := le_trans (renderRows_K (ho.pages s1.eng.page) _ _ _ q.1 s1 q.2 (fun _ hr => hr) ⟨le_refl _, trivial⟩ h1).1 pq
    exact hr ▸ ho.setY _ _ (renderRows_within ho _ _ _ q.1 _ q.2 (fun _ hr => hr) h1 pq (hs1 p1))
  unfold renderLaid at e
  rw [ho.getX, hk.2] at e
  simp only at e
  by_cases hc : (!ops.prevent s) = true ∧ (ops.getXY s).2 + headHeight t rh > bottom
  · simp only [if_pos hc] at e
    cases h1 : ops.addPage s with
    | none => rw [h1] at e; exact absurd e (by simp)
    | some s1 =>
      simp only [h1] at e
      cases hq : renderRows ops t rh bottom p.margins.left 0 t.rows (ops.getXY s1).2 s1 with
      | none => rw [hq] at e; exact absurd e (by simp)
      | some q2 =>
        rw [hq] at e
        exact fin _ s1 q2 (fun p1 => ho.add s s1 h1 p1 hk.1) hq (by simpa using e)
  · simp only [if_neg hc] at e
    cases hq : renderRows ops t rh bottom p.margins.left 0 t.rows (ops.getXY s).2 s with
    | none => rw [hq] at e; exact absurd e (by simp)
    | some q2 =>
      rw [hq] at e
      exact fin _ s q2 (fun _ => hk) hq (by simpa using e)

end

/-- What does not depend on heights. -/
theorem transform_widths {σ τ : Type} {m : Measure σ} {m' : Measure τ} {cs : Classes} {page : Page} {curr : Styles} {st : Styled} {rows : List TableRow} {s s1 : σ} {t : Tab}
    (h : transformTable m cs page curr st rows s = some (t, s1)) (u : τ) : ∃ t' u', transformTable m' cs page curr st rows u = some (t', u') ∧
      (∀ i, idsOf t' i = idsOf t i) ∧ ∀ x, Core (t'.cell x) (t.cell x) ∧ (t'.cell x).width = (t.cell x).width ∧ (t'.dim x).1 = (t.dim x).1 := by
  have hf := (makeTable_fresh cs (st.mutatedStyles cs curr) rows).1
  obtain ⟨t1, h1, hs1⟩ := processSpans_spec hf
  obtain ⟨t2, cws, h2, sh12, _⟩ := assignColumnWidths_spec hs1 (page.effectiveWidth (st.mutatedStyles cs curr).dim.width)
  have hs2 := hs1.shape sh12
  obtain ⟨sh, wd, _⟩ := assignHeights_spec m hs2.inv s
  obtain ⟨sh', wd', _⟩ := assignHeights_spec m' hs2.inv u
  unfold transformTable at h ⊢
  simp only [h1, h2, Option.some.injEq] at h ⊢
  have e1 : t = (assignHeights m t2 s).1 := (congrArg Prod.fst h).symm
  rw [← e1] at sh wd
  refine ⟨(assignHeights m' t2 u).1, (assignHeights m' t2 u).2, rfl, fun i => ?_, fun x => ?_⟩
  · rw [idsOf_eq, idsOf_eq, sh'.2.2.2.1, sh.2.2.2.1]
  · obtain ⟨c1, c2, c3, c4, c5, c6, c7, c8⟩ := (sh.2.2.2.2 x).1
    obtain ⟨d1, d2, d3, d4, d5, d6, d7, d8⟩ := (sh'.2.2.2.2 x).1
    refine ⟨⟨d1.trans c1.symm, d2.trans c2.symm, d3.trans c3.symm, d4.trans c4.symm, d5.trans c5.symm, d6.trans c6.symm, d7.trans c7.symm, d8.trans c8.symm⟩,
      by rw [wd', wd], ?_⟩
    simp only [Tab.dim, d6, c6, wd', wd]

/-- The room of cells, in the table that the code lays out. -/
theorem tableRoom_cells {st : Styled} {rows : List TableRow} (hroom : TableRoom p ctx N δ F st rows) {f : Font} (hf : F f) {t : Tab} {u : Unit}
    (ht : transformTable (fun _ _ _ (u : Unit) => (0, u)) ctx.classes (Page.mk (areaOf p)) { defaultStyle with font := f } st rows () = some (t, u)) {i j id : Nat}
    (hj : (idsOf t i)[j]? = some id) (ha : isAuthored t id = true) :
    CellRoom p ctx N δ F (cellLeft p t i j) (cellLeft p t i j + (t.dim id).1) (t.cell id).styles (t.cell id).iss := by
  have hlay := layTable_eq ht
  have hrm := hroom f hf
  simp only at hrm hlay
  rw [pageWidth_wide] at hlay
  rw [hlay] at hrm
  unfold idsOf at hj
  cases e : t.rows[i]? with
  | none => rw [e] at hj; simp at hj
  | some r =>
    rw [e] at hj
    simp only at hj
    have := hrm _ (List.mem_map.mpr ⟨r, List.mem_of_getElem? e, rfl⟩) j (t.cell id).width ⟨(t.cell id).styles, (t.cell id).iss, (t.dim id).1, (t.dim id).2⟩ (by
      rw [List.getElem?_map, hj, Option.map_some, if_neg]
      unfold isAuthored at ha
      simp only [Bool.and_eq_true, Option.isNone_iff_eq_none, Bool.not_eq_true'] at ha
      rw [ha.1, ha.2]
      simp)
    simp only [← List.map_take, List.map_map] at this
    unfold cellLeft idsOf
    rw [e]
    exact this

theorem renderTable_within (he : Even p δ) (hc : Holds p N δ F c) {st : Styled} {rh : Int} {rows : List TableRow} {iss : List Instr} (hF : Stepping ctx F iss)
    (hi : .table st rh rows ∈ iss) (hroom : TableRoom p ctx N δ F st rows) {s s' : PState Fpdf} {a : Unit}
    (hr : renderTable (Fpdf.engine p) ctx c st rh rows s = some (a, s')) (hN : s'.eng.page ≤ N) (hk : KeptAt p δ F p.margins.left s) :
    KeptAt p δ F p.margins.left s' := by
  unfold renderTable at hr
  replace hr := get_bind hr
  have hpa : (Fpdf.engine p).printableArea s.eng = areaOf p := rfl
  rw [hpa] at hr
  cases ht : transformTable (textHeightFnc (Fpdf.engine p) ctx) ctx.classes (Page.mk (areaOf p)) s.curr st rows s with
  | none => rw [ht] at hr; exact absurd hr (by simp)
  | some q =>
    obtain ⟨t, s1⟩ := q
    have hC : Closed ctx.classes (fun st' => StyleIn st' (.table st rh rows)) (fun sty => F sty.font) :=
      ⟨fun st' h => hF.step _ hi st' h, fun st' h => hF.selected st rh rows hi st' h, fun _ _ _ h => h⟩
    have hg : Known (fun st' => StyleIn st' (.table st rh rows)) [.table st rh rows] := by
      intro i hm st' hs
      rwa [List.mem_singleton.mp hm] at hs
    have sub : ∀ {b : List Instr}, Known (fun st' => StyleIn st' (.table st rh rows)) b → Known (Steps ctx F) b := fun h i hm st' hs =>
      hF.step _ hi st' (h i hm st' hs)
    obtain ⟨k1, hcells⟩ := transformTable_K (P := KeptAt p δ F p.margins.left) hC
      (fun sty b w s hs hb hk => textHeightFnc_keeps hs (steps_in (sub hb)) hk) (kept_curr hk.1) hg ht hk
    obtain ⟨f, hf, ef⟩ := hk.1.2
    obtain ⟨t', u', ht', hids, hcore⟩ := transform_widths (m' := fun _ _ _ (u : Unit) => (0, u)) ht ()
    rw [ef] at ht'
    have hall : ∀ i j id, (idsOf t i)[j]? = some id → isAuthored t id = true →
        CellRoom p ctx N δ F (cellLeft p t i j) (cellLeft p t i j + (t.dim id).1) (t.cell id).styles (t.cell id).iss := by
      intro i j id hj ha
      obtain ⟨⟨c1, c2, -, -, c5, -, -, c8⟩, c9, c10⟩ := hcore id
      have := tableRoom_cells hroom hf ht' (i := i) (j := j) (id := id) (by rw [hids]; exact hj) (by unfold isAuthored at ha ⊢; rw [c5, c8]; exact ha)
      have hcl : cellLeft p t' i j = cellLeft p t i j := by
        unfold cellLeft
        rw [hids]
        simp only [(hcore _).2.1]
      rw [hcl, c1, c2, c10] at this
      exact this
    simp only [ht] at hr
    obtain ⟨_, s2, h2, hr⟩ := bind_some hr
    simp only [MonadStateOf.set, set, StateT.set, Pure.pure, Option.some.injEq, Prod.mk.injEq] at h2
    have k2 : KeptAt p δ F p.margins.left s2 := h2.2 ▸ k1
    split at hr
    · exact resetStyles_at hr k2
    · obtain ⟨pa, s3, h3, hr⟩ := bind_some hr
      obtain ⟨_, s4, h4, hr⟩ := bind_some hr
      simp only [ask, Option.some.injEq, Prod.mk.injEq] at h3
      obtain ⟨s5, h5, e5⟩ := Option.map_eq_some_iff.mp h4
      simp only [Prod.mk.injEq, true_and] at e5
      subst e5
      have p5 : s5.eng.page ≤ N := le_trans (pages_le (fun k => resetStyles_K (hc.pages k)) hr) hN
      have ho : OpsKeep p N δ F t (tableOps (Fpdf.engine p) ctx c t) := by
        refine ⟨fun _ => rfl, fun s hk => ⟨kept_same hk rfl, ?_⟩, fun y s hk => ⟨kept_same hk.1 rfl, ?_⟩, fun s s' e hp hk => ?_, ?_, fun k => ⟨?_, ?_, ?_, ?_⟩, fun _ _ => rfl, fun _ _ => rfl⟩
        · show (if p.margins.left ≥ 0 then p.margins.left else _) = _
          rw [if_pos he.left]
        · show (if s.eng.x ≥ 0 then s.eng.x else _) = _
          rw [hk.2, if_pos he.left]
        · obtain ⟨q, hq, e⟩ := Option.map_eq_some_iff.mp e
          subst e
          exact hc.add _ q.1 _ hq hp hk
        · intro i j id hj ha y0 y1 s s' e hp hk
          obtain ⟨q, hq, e⟩ := Option.map_eq_some_iff.mp e
          subst e
          have hrow : ∃ row ∈ t.rows, id ∈ row.cells := by
            unfold idsOf at hj
            split at hj
            · rename_i row hrow
              exact ⟨row, List.mem_of_getElem? hrow, List.mem_of_getElem? hj⟩
            · simp at hj
          obtain ⟨row, hrow, hid⟩ := hrow
          obtain ⟨g1, g2⟩ := hcells row hrow id hid (by
            unfold isAuthored at ha
            rw [not_or]
            simp at ha ⊢
            exact ha)
          exact renderCell_within he hc g1 (sub g2) (hall i j id hj ha) hq hp hk
        · exact fun x s h => h
        · exact fun y s h => h
        · intro row hrow id hid hna pa s s' hs e
          obtain ⟨q, hq, e⟩ := Option.map_eq_some_iff.mp e
          exact e ▸ (renderCell_K (any_style ctx.classes) (hc.pages k) pa (sty := (t.cell id).styles) trivial (any_instr _) s hs q.1 q.2 hq).2
        · intro s s' hs e
          obtain ⟨q, hq, e⟩ := Option.map_eq_some_iff.mp e
          exact e ▸ ((hc.pages k).add s hs q.1 q.2 hq).2
      exact resetStyles_at hr (renderLaid_within ho h5 p5 (h3.2 ▸ k2))

/-! ### Instructions -/

theorem processInstrs_within (he : Even p δ) (hc : Holds p N δ F c) : ∀ (iss : List Instr)
    (_ : Stepping ctx F iss) (known : Bool)
    (_ : Lined p ctx N δ F known iss) (s : PState Fpdf) (a : Unit) (s' : PState Fpdf) (_ : processInstrs (Fpdf.engine p) ctx c iss s = some (a, s'))
    (_ : s'.eng.page ≤ N) (_ : Kept p δ F s) (_ : known = true → s.eng.x = p.margins.left), Kept p δ F s'
  | [], _, _, _, s, a, s', hr, _, hk, _ => by
    simp only [processInstrs, Pure.pure, StateT.pure, Option.some.injEq, Prod.mk.injEq] at hr
    exact hr.2 ▸ hk
  | i :: iss, hF, known, hl, s, a, s', hr, hN, hk, hx => by
    unfold processInstrs at hr
    obtain ⟨_, s1, h1, hr⟩ := bind_some hr
    have step : ∀ known', Lined p ctx N δ F known' iss → Kept p δ F s1 → (known' = true → s1.eng.x = p.margins.left) → Kept p δ F s' :=
      fun known' hl' hk' hx' => processInstrs_within he hc iss hF.tail known' hl' s1 a s' hr hN hk' hx'
    have hp1 : s1.eng.page ≤ N := le_trans (pages_le (fun k => processInstrs_K (any_style ctx.classes) (hc.pages k) iss (any_instr iss)) hr) hN
    cases i with
    | font st =>
      simp only [processInstr] at h1
      replace h1 := get_bind h1
      simp only [changeFontM, Option.some.injEq, Prod.mk.injEq] at h1
      refine step known hl ?_ ?_
      · rw [← h1.2]
        exact kept_changeFont hk (hF.step _ (by simp) st .font _ (kept_curr hk))
      · rw [← h1.2]; exact hx
    | lineFeed n =>
      simp only [processInstr, upd, Option.some.injEq, Prod.mk.injEq] at h1
      refine step true hl ?_ fun _ => by rw [← h1.2]; rfl
      rw [← h1.2]
      refine kept_eng hk fun m hm => ?_
      rcases List.mem_append.mp hm with hm | hm
      · exact Or.inl hm
      · simp at hm; rw [hm]; exact Or.inr ⟨trivial, trivial⟩
    | setX x =>
      simp only [processInstr, upd, Option.some.injEq, Prod.mk.injEq] at h1
      obtain ⟨rfl, hl⟩ := hl
      refine step true hl (by rw [← h1.2]; exact kept_same hk rfl) fun _ => ?_
      rw [← h1.2]
      show (if p.margins.left ≥ 0 then p.margins.left else _) = _
      rw [if_pos he.left]
    | setY y =>
      simp only [processInstr, upd, Option.some.injEq, Prod.mk.injEq] at h1
      refine step known hl (by rw [← h1.2]; exact kept_same hk rfl) fun h => ?_
      rw [← h1.2]
      show (if s.eng.x ≥ 0 then s.eng.x else _) = _
      rw [hx h, if_pos he.left]
    | box st b =>
      obtain ⟨rfl, hb, hl⟩ := hl
      simp only [processInstr] at h1
      obtain ⟨pa, s2, g1, h1⟩ := bind_some h1
      simp only [ask, Option.some.injEq, Prod.mk.injEq] at g1
      have hpa : pa = areaOf p := g1.1.symm
      rw [hpa, ← g1.2] at h1
      obtain ⟨q1, q2⟩ := stepsIn_text hF.step (Or.inr (by simp : Instr.box st b ∈ Instr.box st b :: iss))
      obtain ⟨r1, r2⟩ := renderTextBox_within he hc q1 q2 (le_refl _) hb h1 hp1 ⟨hk, .inl (hx rfl)⟩
      exact step true hl r1 fun _ => r2.elim id id
    | text st b =>
      obtain ⟨rfl, hb, hl⟩ := hl
      simp only [processInstr] at h1
      obtain ⟨q1, q2⟩ := stepsIn_text hF.step (Or.inl (by simp : Instr.text st b ∈ Instr.text st b :: iss))
      obtain ⟨r1, r2⟩ := renderText_within he hc q1 q2 hb h1 hp1 ⟨hk, hx rfl⟩
      exact step true hl r1 fun _ => r2
    | table st rh rows =>
      obtain ⟨rfl, hb, hl⟩ := hl
      simp only [processInstr] at h1
      obtain ⟨r1, r2⟩ := renderTable_within he hc hF (List.mem_cons_self ..) hb h1 hp1 ⟨hk, hx rfl⟩
      exact step true hl r1 fun _ => r2
    | image st src =>
      simp only [processInstr] at h1
      obtain ⟨pa, s2, g1, h1⟩ := bind_some h1
      simp only [ask, Option.some.injEq, Prod.mk.injEq] at g1
      rw [← g1.2] at h1
      obtain ⟨k, e⟩ := renderImage_at h1 hk
      exact step known hl k (by rw [e]; exact hx)
    | grid st rows g =>
      simp only [processInstr] at h1
      have e := renderGrid_at h1
      rw [← e] at hk hx
      exact step known hl hk hx
    | pageBreak =>
      simp only [processInstr] at h1
      obtain ⟨k, e⟩ := hc.add _ _ _ h1 hp1 hk
      exact step true hl k fun _ => e
    | _ =>
      simp only [processInstr, Pure.pure, StateT.pure, Option.some.injEq, Prod.mk.injEq] at h1
      rw [h1.2] at hk hx
      exact step known hl hk hx

theorem callback_within (he : Even p δ) (hc : Holds p N δ F c) {iss : List Instr}
    (hF : Stepping ctx F iss) {known : Bool}
    (hl : Lined p ctx N δ F known iss) {s s' : PState Fpdf} {a : Unit} (hr : callback (Fpdf.engine p) ctx c iss s = some (a, s'))
    (hN : s'.eng.page ≤ N) (hk : Kept p δ F s) (hx : known = true → s.eng.x = p.margins.left) : Kept p δ F s' ∧ (0 ≤ s.eng.x → s'.eng.x = s.eng.x) := by
  rw [callback_eq] at hr
  obtain ⟨⟨_, q⟩, hq, e⟩ := Option.map_eq_some_iff.mp hr
  simp only [Prod.mk.injEq, true_and] at e
  have hk' : Kept p δ F { s with prevent := true } := hk
  have := processInstrs_within he hc iss hF known hl _ _ _ hq (by rw [← e] at hN; exact hN) hk' hx
  rw [← e]
  refine ⟨⟨this.1, this.2⟩, fun h0 => ?_⟩
  show (if (if s.eng.x ≥ 0 then s.eng.x else p.width + s.eng.x) ≥ 0 then (if s.eng.x ≥ 0 then s.eng.x else p.width + s.eng.x) else _) = _
  rw [if_pos h0, if_pos h0]

/-- What is required of a document. -/
structure Doc (p : Paper) (ctx : Ctx) (N : Nat) (δ : ℚ) (F : Font → Prop) : Prop where
  even : Even p δ
  fonts : FontSet ctx F
  header : Lined p ctx N δ F true ctx.header
  footer : Lined p ctx N δ F false ctx.footer
  body : Lined p ctx N δ F true ctx.body

theorem Doc.steps (h : Doc p ctx N δ F) {iss : List Instr} (hi : ∀ i ∈ iss, i ∈ ctx.header ++ ctx.footer ++ ctx.body) :
    Stepping ctx F iss := ⟨fun i hm => h.fonts.step i (hi i hm), fun st rh rows hm => h.fonts.selected st rh rows (hi _ hm)⟩

theorem footer_within (h : Doc p ctx N δ F) (hc : Holds p N δ F c) {s s' : PState Fpdf} {a : Unit}
    (hr : callback (Fpdf.engine p) ctx c ctx.footer s = some (a, s')) (hN : s'.eng.page ≤ N) (hk : Kept p δ F s) : Kept p δ F s' :=
  (callback_within h.even hc (h.steps (by simp +contextual)) h.footer hr hN hk (by simp)).1

theorem header_within (h : Doc p ctx N δ F) (hc : Holds p N δ F c) {s s' : PState Fpdf} {a : Unit}
    (hr : callback (Fpdf.engine p) ctx c ctx.header s = some (a, s')) (hN : s'.eng.page ≤ N) (hk : Kept p δ F s) (hx : s.eng.x = p.margins.left) :
    Kept p δ F s' ∧ s'.eng.x = p.margins.left := by
  obtain ⟨k, e⟩ := callback_within h.even hc (h.steps (by simp +contextual)) h.header hr hN hk fun _ => hx
  exact ⟨k, by rw [e (by rw [hx]; exact h.even.left), hx]⟩

/-! ### The page number only grows -/

theorem page_tracks {k : Nat} (hw : ∀ t, Keep (SincePage k) (c.writeText t)) (ha : Keep (SincePage k) c.addPage) : Pages p k c where
  setX _ _ h := h
  setY _ _ h := h
  lineFeed _ _ h := h
  font _ _ _ h := h
  changeFont _ _ _ h := h
  color _ _ _ h := h
  image _ _ _ _ _ _ h := h
  draw _ _ _ _ _ _ cmd _ s h := by cases cmd <;> exact h
  curr _ _ := trivial
  write := hw
  add := ha

theorem page_turn {k : Nat} {f : Font} {c : RGB} {e : Fpdf} (h : k ≤ e.page) :
    ProgOk (fun e : Fpdf => k ≤ e.page) (fun e => k ≤ e.page) (fun e => k ≤ e.page) (Fpdf.turn p f c e) :=
  ⟨Nat.le_succ_of_le h, fun _ h' => h'⟩

theorem page_addPage {k : Nat} {e : Fpdf} (h : k ≤ e.page) :
    ProgOk (fun e : Fpdf => k ≤ e.page) (fun e => k ≤ e.page) (fun e => k ≤ e.page) (Fpdf.addPage p e) := by
  unfold Fpdf.addPage
  split
  · exact ⟨h, fun e' h' => page_turn (e := { e' with inHeaderFooter := false }) h'⟩
  · exact page_turn h

theorem page_calls (k n : Nat) : Pages p k (callsAt (Fpdf.engine p) ctx n) := by
  induction n with
  | zero => exact page_tracks (fun t => Le.none) Le.none
  | succ n ih =>
    refine page_tracks (fun t => ?_) ?_
    · refine runWith_K (any_style ctx.classes) (D := fun e : Fpdf => k ≤ e.page) ih (any_instr _) (any_instr _) _ fun e he => ?_
      show ProgOk _ _ _ (Fpdf.writeText p t e)
      unfold Fpdf.writeText
      split
      · refine progOk_andThen (D := fun e : Fpdf => k ≤ e.page) (fun e' _ h' => ?_) (page_addPage he)
        exact h'
      · exact he
    · exact runWith_K (any_style ctx.classes) (D := fun e : Fpdf => k ≤ e.page) ih (any_instr _) (any_instr _) _ fun e he => page_addPage he

theorem turn_pages (hc : Holds p N δ F c) {f : Font} {col : RGB} {e : Fpdf} {β : Type} {k : Fpdf → Unit → Prog Fpdf β}
    {s s' : PState Fpdf} {a : β}
    (hm : ∀ e1 s1, runProg (callback (Fpdf.engine p) ctx c ctx.header) (callback (Fpdf.engine p) ctx c ctx.footer) (k e1 ()) s1 = some (a, s') → e1.page ≤ s'.eng.page)
    (hr : runProg (callback (Fpdf.engine p) ctx c ctx.header) (callback (Fpdf.engine p) ctx c ctx.footer) (Fpdf.andThen (Fpdf.turn p f col e) k) s = some (a, s')) :
    e.page ≤ s'.eng.page := by
  simp only [Fpdf.turn, Fpdf.andThen, runProg] at hr
  generalize hst : ({ s with eng := _ } : PState Fpdf) = s0 at hr
  cases hh : callback (Fpdf.engine p) ctx c ctx.header s0 with
  | none => rw [hh] at hr; exact absurd hr (by simp)
  | some q =>
    obtain ⟨_, s2⟩ := q
    rw [hh] at hr
    simp only at hr
    have h1 := pages_le (m := callback (Fpdf.engine p) ctx c ctx.header)
      (fun k => callback_K (any_style ctx.classes) (D := fun e : Fpdf => k ≤ e.page) (hc.pages k) (any_instr _)) hh
    have h2 := hm _ _ hr
    rw [← hst] at h1
    exact le_trans (Nat.le_succ _) (le_trans h1 h2)

theorem turn_within (h : Doc p ctx N δ F) (hc : Holds p N δ F c) {f : Font} {col : RGB} {e : Fpdf} {β : Type} {k : Fpdf → Unit → Prog Fpdf β}
    {s s' : PState Fpdf} {a : β}
    (hm : ∀ e1 s1, runProg (callback (Fpdf.engine p) ctx c ctx.header) (callback (Fpdf.engine p) ctx c ctx.footer) (k e1 ()) s1 = some (a, s') → e1.page ≤ s'.eng.page)
    (hN : s'.eng.page ≤ N) (hk : Kept p δ F { s with eng := e })
    (hr : runProg (callback (Fpdf.engine p) ctx c ctx.header) (callback (Fpdf.engine p) ctx c ctx.footer) (Fpdf.andThen (Fpdf.turn p f col e) k) s = some (a, s')) :
    ∃ s1 e1, Kept p δ F { s1 with eng := e1 } ∧ e1.x = p.margins.left ∧ e1.font = f ∧
      runProg (callback (Fpdf.engine p) ctx c ctx.header) (callback (Fpdf.engine p) ctx c ctx.footer) (k e1 ()) s1 = some (a, s') := by
  simp only [Fpdf.turn, Fpdf.andThen, runProg] at hr
  generalize hst : ({ s with eng := _ } : PState Fpdf) = s0 at hr
  cases hh : callback (Fpdf.engine p) ctx c ctx.header s0 with
  | none => rw [hh] at hr; exact absurd hr (by simp)
  | some q =>
    obtain ⟨_, s2⟩ := q
    rw [hh] at hr
    simp only at hr
    have k0 : Kept p δ F s0 := by
      rw [← hst]
      refine ⟨fun m hm => ?_, hk.2⟩
      rcases List.mem_append.mp hm with hm | hm
      · exact hk.1 m hm
      · simp at hm; rw [hm]; exact ⟨trivial, trivial⟩
    obtain ⟨k2, e2⟩ := header_within h hc hh (le_trans (hm { s2.eng with font := f, color := col, inHeaderFooter := false } s2 hr) hN) k0 (by rw [← hst])
    exact ⟨s2, { s2.eng with font := f, color := col, inHeaderFooter := false }, kept_same k2 rfl, e2, rfl, hr⟩

theorem addPage_within (h : Doc p ctx N δ F) (hc : Holds p N δ F c) {e : Fpdf} {β : Type} {k : Fpdf → Unit → Prog Fpdf β}
    {s s' : PState Fpdf} {a : β}
    (hm : ∀ e1 s1, runProg (callback (Fpdf.engine p) ctx c ctx.header) (callback (Fpdf.engine p) ctx c ctx.footer) (k e1 ()) s1 = some (a, s') → e1.page ≤ s'.eng.page)
    (hN : s'.eng.page ≤ N) (hk : Kept p δ F { s with eng := e })
    (hr : runProg (callback (Fpdf.engine p) ctx c ctx.header) (callback (Fpdf.engine p) ctx c ctx.footer) (Fpdf.andThen (Fpdf.addPage p e) k) s = some (a, s')) :
    ∃ s1 e1, Kept p δ F { s1 with eng := e1 } ∧ e1.x = p.margins.left ∧ e1.font = e.font ∧
      runProg (callback (Fpdf.engine p) ctx c ctx.header) (callback (Fpdf.engine p) ctx c ctx.footer) (k e1 ()) s1 = some (a, s') := by
  unfold Fpdf.addPage at hr
  split at hr
  · simp only [Fpdf.andThen, runProg] at hr
    generalize hst : ({ s with eng := _ } : PState Fpdf) = s0 at hr
    cases hh : callback (Fpdf.engine p) ctx c ctx.footer s0 with
    | none => rw [hh] at hr; exact absurd hr (by simp)
    | some q =>
      obtain ⟨_, s2⟩ := q
      rw [hh] at hr
      simp only at hr
      have k0 : Kept p δ F s0 := by rw [← hst]; exact ⟨hk.1, hk.2⟩
      have k2 := footer_within h hc hh (le_trans (turn_pages hc hm hr) hN) k0
      exact turn_within h hc hm hN (kept_same k2 rfl) hr
  · exact turn_within h hc hm hN hk hr

theorem put_kept {s : PState Fpdf} {e : Fpdf} {t : Str} (ht : Whole δ t) (hk : Kept p δ F { s with eng := e }) (hx : p.margins.left ≤ e.x)
    (hw : e.x + p.metric e.font t ≤ p.width - p.margins.right - 2 - δ) : Kept p δ F { s with eng := Fpdf.put p t e } := by
  refine ⟨fun m hm => ?_, hk.2⟩
  rcases List.mem_append.mp hm with hm | hm
  · exact hk.1 m hm
  · simp at hm; rw [hm]; exact ⟨⟨hx, hw⟩, ht⟩

theorem callsAt_holds (h : Doc p ctx N δ F) : ∀ n, Holds p N δ F (callsAt (Fpdf.engine p) ctx n)
  | 0 => ⟨fun _ _ _ _ hr => absurd hr (by simp [callsAt]), fun _ _ _ hr => absurd hr (by simp [callsAt]), fun k => page_calls k 0⟩
  | n + 1 => by
    have hc := callsAt_holds h n
    refine ⟨?_, ?_, fun k => page_calls k (n + 1)⟩
    · intro t s a s' hr hN ht hk hx hw
      have hr' : runProg (callback (Fpdf.engine p) ctx (callsAt (Fpdf.engine p) ctx n) ctx.header)
          (callback (Fpdf.engine p) ctx (callsAt (Fpdf.engine p) ctx n) ctx.footer) (Fpdf.writeText p t s.eng) s = some (a, s') := hr
      unfold Fpdf.writeText at hr'
      split at hr'
      · obtain ⟨s1, e1, k1, x1, f1, hr1⟩ := addPage_within h hc (fun e1 s1 hd => by simp only [runProg, Option.some.injEq, Prod.mk.injEq] at hd; exact le_of_eq (congrArg (fun q : PState Fpdf => q.eng.page) hd.2)) hN hk hr'
        simp only [runProg, Option.some.injEq, Prod.mk.injEq] at hr1
        rw [← hr1.2]
        refine ⟨put_kept (e := { e1 with x := s.eng.x }) ht (kept_same k1 rfl) hx (by rw [f1]; exact hw), ?_⟩
        show s.eng.x + p.metric e1.font t = _
        rw [f1]
      · simp only [runProg, Option.some.injEq, Prod.mk.injEq] at hr'
        rw [← hr'.2]
        exact ⟨put_kept ht hk hx hw, rfl⟩
    · intro s a s' hr hN hk
      have hr' : runProg (callback (Fpdf.engine p) ctx (callsAt (Fpdf.engine p) ctx n) ctx.header)
          (callback (Fpdf.engine p) ctx (callsAt (Fpdf.engine p) ctx n) ctx.footer)
          (Fpdf.andThen (Fpdf.addPage p s.eng) fun e _ => .done e ()) s = some (a, s') := by
        rw [show Fpdf.andThen (Fpdf.addPage p s.eng) (fun e _ => .done e ()) = Fpdf.addPage p s.eng by
          unfold Fpdf.addPage Fpdf.turn; split <;> rfl]
        exact hr
      obtain ⟨s1, e1, k1, x1, f1, hr1⟩ := addPage_within h hc (fun e1 s1 hd => by simp only [runProg, Option.some.injEq, Prod.mk.injEq] at hd; exact le_of_eq (congrArg (fun q : PState Fpdf => q.eng.page) hd.2)) hN hk hr'
      simp only [runProg, Option.some.injEq, Prod.mk.injEq] at hr1
      rw [← hr1.2]
      exact ⟨k1, x1⟩

theorem process_within (h : Doc p ctx N δ F) {n : Nat} {r : PdfResult} {s' : PState Fpdf}
    (hr : process (Fpdf.engine p) ctx n (newProcessor (Fpdf.new p)) = some (r, s')) (hN : s'.eng.page ≤ N) : ∀ m ∈ s'.eng.out, Sound p δ m := by
  unfold process at hr
  obtain ⟨_, s1, h1, hr⟩ := bind_some hr
  replace hr := get_bind hr
  obtain ⟨_, s2, h2, hr⟩ := bind_some hr
  obtain ⟨_, s3, h3, hr⟩ := bind_some hr
  obtain ⟨_, s4, h4, hr⟩ := bind_some hr
  obtain ⟨failed, s5, h5, hr⟩ := bind_some hr
  simp only [upd, Option.some.injEq, Prod.mk.injEq] at h1
  have k1 : Kept p δ F s1 := by
    rw [← h1.2]
    exact ⟨by intro m hm; simp [newProcessor, Fpdf.new, Fpdf.engine] at hm, _, h.fonts.default, rfl⟩
  simp only [changeFontM, Option.some.injEq, Prod.mk.injEq] at h2
  have k2 : Kept p δ F s2 := by
    rw [← h2.2]
    exact kept_changeFont k1 (kept_curr k1)
  have p5 : s5.eng.page ≤ N := by
    have := pages_le (m := if failed then pure { written := [], failed := true } else runWith (Fpdf.engine p) ctx (callsAt (Fpdf.engine p) ctx (n - 1)) Fpdf.writePDF) (fun k => by
      split
      · exact Le.pure _
      · exact runWith_K (any_style ctx.classes) (D := fun e : Fpdf => k ≤ e.page) (page_calls k (n - 1)) (any_instr _) (any_instr _) _ fun e he =>
          (show ProgOk _ _ _ (Fpdf.writePDF e) from ⟨he, fun _ h' => h'⟩)) hr
    exact le_trans this hN
  simp only [ask, Option.some.injEq, Prod.mk.injEq] at h5
  have p4 : s4.eng.page ≤ N := by rw [h5.2]; exact p5
  have p3 := le_trans (pages_le (fun k => processInstrs_K (any_style ctx.classes) (page_calls k n) ctx.body (any_instr _)) h4) p4
  obtain ⟨k3, x3⟩ := (callsAt_holds h n).add _ _ _ h3 p3 k2
  have k4 := processInstrs_within h.even (callsAt_holds h n) ctx.body (h.steps (by simp +contextual)) true h.body _ _ _ h4 p4 k3 fun _ => x3
  rw [h5.2] at k4
  split at hr
  · simp only [Pure.pure, StateT.pure, Option.some.injEq, Prod.mk.injEq] at hr
    rw [← hr.2]
    exact k4.1
  · have hr' : runProg (callback (Fpdf.engine p) ctx (callsAt (Fpdf.engine p) ctx (n - 1)) ctx.header)
          (callback (Fpdf.engine p) ctx (callsAt (Fpdf.engine p) ctx (n - 1)) ctx.footer) (Fpdf.writePDF s5.eng) s5 = some (r, s') := hr
    simp only [Fpdf.writePDF, runProg] at hr'
    generalize hst : ({ s5 with eng := _ } : PState Fpdf) = s0 at hr'
    cases hh : callback (Fpdf.engine p) ctx (callsAt (Fpdf.engine p) ctx (n - 1)) ctx.footer s0 with
    | none => rw [hh] at hr'; exact absurd hr' (by simp)
    | some q =>
      obtain ⟨_, s6⟩ := q
      rw [hh] at hr'
      simp only [Option.some.injEq, Prod.mk.injEq] at hr'
      have k0 : Kept p δ F s0 := by rw [← hst]; exact ⟨k4.1, k4.2⟩
      have k6 := footer_within h (callsAt_holds h (n - 1)) hh (by rw [← hr'.2] at hN; exact hN) k0
      rw [← hr'.2]
      exact k6.1

end
end Verif.Proofs
