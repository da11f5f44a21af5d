import Verif.Spec.Stacked
import Verif.Proofs.Margins
import Verif.Props.Bottom
/-
Texts one below the other.
-/
namespace Verif.Proofs
open Verif.Go Verif.Model Verif.Spec Verif.Props

/-- Texts that come after each other are in the relation. -/
class Weaker (p : Paper) (Rl : Mark → Mark → Prop) : Prop where
  of : ∀ m m', ComesAfter p m m' → Rl m m'

instance (p : Paper) : Weaker p (ComesAfter p) := ⟨fun _ _ h => h⟩

variable {p : Paper} {ctx : Ctx} {F : Font → Prop} {Rl : Mark → Mark → Prop}

/-! ### Marks -/

/-- If it is a text: on an earlier page, or reaching down to `b` at most. -/
def Over (b : ℚ) (e : Fpdf) : Mark → Prop
  | .text n _ y f _ _ => n < e.page ∨ n = e.page ∧ y + lineHeight f ≤ b
  | _ => True

/-- If it is a text: above the position, or on the same line, not higher than `H`. -/
def Behind (p : Paper) (H : ℚ) (e : Fpdf) : Mark → Prop
  | .text n x y f _ t => n < e.page ∨ n = e.page ∧ (y + lineHeight f ≤ e.y ∨ y = e.y ∧ lineHeight f ≤ H ∧ x + p.metric f t ≤ e.x)
  | _ => True

/-- If it is a text: on an earlier page. -/
def Past (e : Fpdf) : Mark → Prop
  | .text n _ _ _ _ _ => n < e.page
  | _ => True

/-- All marks that are not from header and footer have the property. -/
def AllOwn (p : Paper) (ctx : Ctx) (R : Mark → Prop) (e : Fpdf) : Prop := ∀ m ∈ e.out, InHeaderFooter p ctx e.out m ∨ R m

/-- The marks that are not from header and footer follow each other. -/
def Order (p : Paper) (ctx : Ctx) (Rl : Mark → Mark → Prop) (e : Fpdf) : Prop :=
  e.out.Pairwise fun m m' => Rl m m' ∨ InHeaderFooter p ctx e.out m ∨ InHeaderFooter p ctx e.out m'

theorem hf_mono {out out' : List Mark} {m : Mark} (h : InHeaderFooter p ctx out m) (hp : out <+: out') : InHeaderFooter p ctx out' m := by
  obtain ⟨n, iss, s, s', new, h1, h2, h3, h4, h5⟩ := h
  exact ⟨n, iss, s, s', new, h1, h2, h3, h4, h5.trans hp⟩

theorem own_same {R R' : Mark → Prop} {e e' : Fpdf} (h : AllOwn p ctx R e) (ho : e'.out = e.out) (hR : ∀ m, R m → R' m) : AllOwn p ctx R' e' := by
  intro m hm
  rw [ho] at hm ⊢
  exact (h m hm).imp id (hR m)

theorem own_snoc {R R' : Mark → Prop} {e e' : Fpdf} {m : Mark} (h : AllOwn p ctx R e) (ho : e'.out = e.out ++ [m]) (hR : ∀ m, R m → R' m) (hm : R' m) :
    AllOwn p ctx R' e' := by
  intro x hx
  rw [ho] at hx ⊢
  rcases List.mem_append.mp hx with hx | hx
  · rcases h x hx with h | h
    · exact Or.inl (hf_mono h (List.prefix_append _ _))
    · exact Or.inr (hR x h)
  · simp only [List.mem_singleton] at hx
    exact Or.inr (hx ▸ hm)

theorem order_same {e e' : Fpdf} (h : Order p ctx Rl e) (ho : e'.out = e.out) : Order p ctx Rl e' := by
  unfold Order
  rw [ho]; exact h

theorem order_append {e e' : Fpdf} {new : List Mark} (h : Order p ctx Rl e) (ho : e'.out = e.out ++ new)
    (hn : new.Pairwise fun m m' => Rl m m' ∨ InHeaderFooter p ctx e'.out m ∨ InHeaderFooter p ctx e'.out m')
    (hc : ∀ m ∈ e.out, ∀ m' ∈ new, Rl m m' ∨ InHeaderFooter p ctx e'.out m ∨ InHeaderFooter p ctx e'.out m') : Order p ctx Rl e' := by
  have hp : e.out <+: e'.out := ho ▸ List.prefix_append _ _
  unfold Order
  rw [ho] at hp hn hc ⊢
  refine List.pairwise_append.mpr ⟨h.imp fun hm => ?_, hn, hc⟩
  rcases hm with h | h | h
  · exact Or.inl h
  · exact Or.inr (Or.inl (hf_mono h hp))
  · exact Or.inr (Or.inr (hf_mono h hp))

theorem order_snoc [Weaker p Rl] {e e' : Fpdf} {m : Mark} (h : Order p ctx Rl e) (ho : e'.out = e.out ++ [m]) {R : Mark → Prop} (hk : AllOwn p ctx R e)
    (hR : ∀ x, R x → ComesAfter p x m) : Order p ctx Rl e' := by
  refine order_append h ho (List.pairwise_singleton _ _) fun x hx m' hm' => ?_
  simp only [List.mem_singleton] at hm'
  rcases hk x hx with g | g
  · exact Or.inr (Or.inl (hf_mono g (ho ▸ List.prefix_append _ _)))
  · exact Or.inl (hm' ▸ Weaker.of (p := p) _ _ (hR x g))

/-- A mark that is no text follows everything. -/
theorem follows_other {m m' : Mark} (h : ∀ n x y f c t, m' ≠ .text n x y f c t) : ComesAfter p m m' := by
  cases m' with
  | text n x y f c t => exact absurd rfl (h n x y f c t)
  | _ => cases m <;> trivial

variable [Weaker p Rl]

theorem order_other {e e' : Fpdf} {m : Mark} (h : Order p ctx Rl e) (ho : e'.out = e.out ++ [m]) (hm : ∀ n x y f c t, m ≠ .text n x y f c t) : Order p ctx Rl e' :=
  order_snoc (R := fun _ => True) h ho (fun _ _ => Or.inr trivial) fun _ _ => follows_other hm

/-! ### Header and footer -/

/-- The current styles are the default ones up to the font, which is one of the set. -/
def Cur (F : Font → Prop) (st : Styles) : Prop := ∃ f, F f ∧ st = { defaultStyle with font := f }

/-- From `s` to `s'` only header and footer have written. -/
structure OnlyHF (p : Paper) (ctx : Ctx) (F : Font → Prop) (s s' : PState Fpdf) : Prop where
  out : ∃ new, s'.eng.out = s.eng.out ++ new ∧ ∀ m ∈ new, InHeaderFooter p ctx s'.eng.out m
  y : 0 ≤ s.eng.y → s'.eng.y = s.eng.y
  page : s.eng.page ≤ s'.eng.page
  curr : Cur F s.curr → Cur F s'.curr

theorem quiet_own {R R' : Mark → Prop} {s s' : PState Fpdf} (q : OnlyHF p ctx F s s') (h : AllOwn p ctx R s.eng) (hR : ∀ m, R m → R' m) :
    AllOwn p ctx R' s'.eng := by
  obtain ⟨new, ho, hn⟩ := q.out
  intro m hm
  by_cases hm' : m ∈ s.eng.out
  · rcases h m hm' with h | h
    · exact Or.inl (hf_mono h (ho ▸ List.prefix_append _ _))
    · exact Or.inr (hR m h)
  · rw [ho] at hm
    rcases List.mem_append.mp hm with hm | hm
    · exact absurd hm hm'
    · exact Or.inl (hn m hm)

theorem quiet_order {s s' : PState Fpdf} (q : OnlyHF p ctx F s s') (h : Order p ctx Rl s.eng) : Order p ctx Rl s'.eng := by
  obtain ⟨new, ho, hn⟩ := q.out
  exact order_append h ho (List.pairwise_of_forall_mem_list fun m hm m' _ => Or.inr (Or.inl (hn m hm))) fun m _ m' hm' => Or.inr (Or.inr (hn m' hm'))

/-- The styles of the document keep the fonts in the set. -/
theorem sizes_closed (h : FontSizes ctx F) : Closed ctx.classes (fun st => ∃ i ∈ ctx.header ++ ctx.footer ++ ctx.body, StyleIn st i) (fun sty => F sty.font) where
  plain st ho sty hs := by
    obtain ⟨i, hi, hst⟩ := ho
    exact h.plain i hi st hst sty hs
  selected st ho sel sty hs := by
    obtain ⟨i, hi, hst⟩ := ho
    exact h.selected i hi st hst sel sty hs
  font _ _ _ hb := hb

theorem sizes_known {iss : List Instr} (hi : ∀ i ∈ iss, i ∈ ctx.header ++ ctx.footer ++ ctx.body) :
    Known (fun st => ∃ i ∈ ctx.header ++ ctx.footer ++ ctx.body, StyleIn st i) iss := fun i hm st hst => ⟨i, hi i hm, hst⟩

/-- What is kept by everything: fonts of the set, other styles as by default. -/
def CurS (F : Font → Prop) (s : PState Fpdf) : Prop := (fun _ : Fpdf => True) s.eng ∧ (fun sty : Styles => F sty.font) s.curr

/-- Everything but the font is as by default. -/
def DefS (s : PState Fpdf) : Prop := ∃ f, s.curr = { defaultStyle with font := f }

theorem curS_tracks {c : Calls Fpdf} (hw : ∀ t, Keep (CurS F) (c.writeText t)) (ha : Keep (CurS F) c.addPage) :
    Tracks (Fpdf.engine p) (fun sty => F sty.font) (CurS F) c where
  setX _ _ h := h
  setY _ _ h := h
  lineFeed _ _ h := h
  font _ _ _ h := h
  changeFont sty hs s _ := ⟨trivial, hs⟩
  color _ _ _ h := h
  image _ _ _ _ _ _ h := h
  draw _ _ _ _ _ _ cmd _ s h := h
  curr _ h := h.2
  write := hw
  add := ha

theorem true_prog {α : Type} : ∀ (pr : Prog Fpdf α), ProgOk (fun _ : Fpdf => True) (fun _ => True) (fun _ => True) pr
  | .done _ _ => trivial
  | .header _ k => ⟨trivial, fun e _ => true_prog (k e)⟩
  | .footer _ k => ⟨trivial, fun e _ => true_prog (k e)⟩

theorem curS_calls (h : FontSizes ctx F) (n : Nat) : Tracks (Fpdf.engine p) (fun sty => F sty.font) (CurS F) (callsAt (Fpdf.engine p) ctx n) := by
  induction n with
  | zero => exact curS_tracks (fun t => Le.none) Le.none
  | succ n ih =>
    refine curS_tracks (fun t => ?_) ?_
    · exact runWith_K (sizes_closed h) (D := fun _ : Fpdf => True) ih (sizes_known (by simp +contextual)) (sizes_known (by simp +contextual)) _
        fun e _ => true_prog _
    · exact runWith_K (sizes_closed h) (D := fun _ : Fpdf => True) ih (sizes_known (by simp +contextual)) (sizes_known (by simp +contextual)) _
        fun e _ => true_prog _

theorem defS_tracks {c : Calls Fpdf} (hw : ∀ t, Keep DefS (c.writeText t)) (ha : Keep DefS c.addPage) :
    Tracks (Fpdf.engine p) (fun _ => True) DefS c where
  setX _ _ h := h
  setY _ _ h := h
  lineFeed _ _ h := h
  font _ _ _ h := h
  changeFont sty _ s h := by
    obtain ⟨f, hf⟩ := h
    exact ⟨sty.font, by show { s.curr with font := sty.font } = _; rw [hf]⟩
  color _ _ _ h := h
  image _ _ _ _ _ _ h := h
  draw _ _ _ _ _ _ cmd _ s h := h
  curr _ _ := trivial
  write := hw
  add := ha

theorem callback_defS {c : Calls Fpdf} (hc : Tracks (Fpdf.engine p) (fun _ => True) DefS c) {iss : List Instr} {s s' : PState Fpdf} {a : Unit}
    (h : callback (Fpdf.engine p) ctx c iss s = some (a, s')) (hs : DefS s) : DefS s' := by
  rw [callback_eq] at h
  obtain ⟨q, hq, e⟩ := Option.map_eq_some_iff.mp h
  have := (processInstrs_K (any_style ctx.classes) hc iss (any_instr _) { s with prevent := true } hs q.1 q.2 hq).2
  simp only [Prod.mk.injEq] at e
  rw [← e.2]
  exact this

theorem runProg_defS {α : Type} {hdr ftr : M Fpdf Unit} (hh : ∀ s a s', hdr s = some (a, s') → DefS s → DefS s')
    (hf : ∀ s a s', ftr s = some (a, s') → DefS s → DefS s') : ∀ (pr : Prog Fpdf α) (s : PState Fpdf) (a : α) (s' : PState Fpdf),
    runProg hdr ftr pr s = some (a, s') → DefS s → DefS s'
  | .done e b, s, a, s', h, hs => by
    simp only [runProg, Option.some.injEq, Prod.mk.injEq] at h
    rw [← h.2]; exact hs
  | .header e k, s, a, s', h, hs => by
    simp only [runProg] at h
    split at h
    · exact absurd h (by simp)
    · rename_i s1 h1
      exact runProg_defS hh hf _ _ _ _ h (hh _ _ _ h1 hs)
  | .footer e k, s, a, s', h, hs => by
    simp only [runProg] at h
    split at h
    · exact absurd h (by simp)
    · rename_i s1 h1
      exact runProg_defS hh hf _ _ _ _ h (hf _ _ _ h1 hs)

theorem defS_calls (n : Nat) : Tracks (Fpdf.engine p) (fun _ => True) DefS (callsAt (Fpdf.engine p) ctx n) := by
  induction n with
  | zero => exact defS_tracks (fun t => Le.none) Le.none
  | succ n ih =>
    exact defS_tracks (fun t s hs a s' h => ⟨h, runProg_defS (fun _ _ _ h => callback_defS ih h) (fun _ _ _ h => callback_defS ih h) _ _ _ _ h hs⟩)
      (fun s hs a s' h => ⟨h, runProg_defS (fun _ _ _ h => callback_defS ih h) (fun _ _ _ h => callback_defS ih h) _ _ _ _ h hs⟩)

theorem callback_quiet (h : FontSizes ctx F) {n : Nat} {iss : List Instr} (hi : iss = ctx.header ∨ iss = ctx.footer) {s s' : PState Fpdf} {a : Unit}
    (hr : callback (Fpdf.engine p) ctx (callsAt (Fpdf.engine p) ctx n) iss s = some (a, s')) : OnlyHF p ctx F s s' where
  out := by
    obtain ⟨new, hn⟩ := (callback_out hr).1
    exact ⟨new, hn.symm, fun m hm => ⟨n, iss, s, s', new, hi, hr, hn.symm, hm, List.prefix_refl _⟩⟩
  y := (callback_out hr).2
  page := pages_le (fun k => callback_K (any_style ctx.classes) (D := fun e : Fpdf => k ≤ e.page) (page_calls k n) (any_instr _)) hr
  curr hc := by
    obtain ⟨f, hf, e⟩ := hc
    obtain ⟨g, hg⟩ := callback_defS (defS_calls n) hr ⟨f, e⟩
    have hk : Known (fun st => ∃ i ∈ ctx.header ++ ctx.footer ++ ctx.body, StyleIn st i) iss :=
      sizes_known (by rcases hi with rfl | rfl <;> simp +contextual)
    have := (callback_K (sizes_closed h) (D := fun _ : Fpdf => True) (curS_calls h n) hk s ⟨trivial, by show F s.curr.font; rw [e]; exact hf⟩ _ _ hr).2.2
    refine ⟨g, ?_, hg⟩
    simp only [hg] at this
    exact this

/-! ### New pages and texts -/

variable {n : Nat} {s s' : PState Fpdf} {a : Unit}

/-- Nothing of the body is on a page after the current one. -/
def UpTo (e : Fpdf) : Mark → Prop
  | .text n _ _ _ _ _ => n ≤ e.page
  | _ => True

/-- The state after a new page. -/
structure AtTop (p : Paper) (ctx : Ctx) (Rl : Mark → Mark → Prop) (F : Font → Prop) (font : Font) (s : PState Fpdf) : Prop where
  order : Order p ctx Rl s.eng
  past : AllOwn p ctx (Past s.eng) s.eng
  y : s.eng.y = p.margins.top
  font : s.eng.font = font
  curr : Cur F s.curr

theorem turn_new (h : FontSizes ctx F) (ht : 0 ≤ p.margins.top) {f : Font} {c : RGB} {e : Fpdf} (ho : Order p ctx Rl e) (hu : AllOwn p ctx (UpTo e) e) (hc : Cur F s.curr)
    (hr : runProg (callback (Fpdf.engine p) ctx (callsAt (Fpdf.engine p) ctx n) ctx.header) (callback (Fpdf.engine p) ctx (callsAt (Fpdf.engine p) ctx n) ctx.footer)
      (Fpdf.turn p f c e) s = some (a, s')) : AtTop p ctx Rl F f s' := by
  simp only [Fpdf.turn, runProg] at hr
  generalize hst : ({ s with eng := _ } : PState Fpdf) = s0 at hr
  split at hr
  · exact absurd hr (by simp)
  · rename_i s1 h1
    simp only [Option.some.injEq, Prod.mk.injEq] at hr
    have q := callback_quiet h (Or.inl rfl) h1
    have o0 : s0.eng.out = e.out ++ [.page] := by rw [← hst]
    have ho0 : Order p ctx Rl s0.eng := order_other ho o0 (by simp)
    have hp0 : AllOwn p ctx (Past s0.eng) s0.eng := by
      refine own_snoc hu o0 (fun m hm => ?_) trivial
      cases m with
      | text k x y f c t =>
        show k < s0.eng.page
        rw [← hst]
        exact Nat.lt_succ_of_le hm
      | _ => trivial
    have ho1 := quiet_order q ho0
    have hp1 := quiet_own (R' := Past s1.eng) q hp0 fun m hm => by
      cases m with
      | text k x y f c t => exact lt_of_lt_of_le hm q.page
      | _ => trivial
    rw [← hr.2]
    refine ⟨order_same ho1 rfl, own_same hp1 rfl fun m hm => ?_, ?_, rfl, q.curr (by rw [← hst]; exact hc)⟩
    · cases m <;> exact hm
    · have := q.y (by rw [← hst]; exact ht)
      show s1.eng.y = _
      rw [this, ← hst]

theorem addPage_new (h : FontSizes ctx F) (ht : 0 ≤ p.margins.top) {e : Fpdf} (ho : Order p ctx Rl e) (hu : AllOwn p ctx (UpTo e) e) (hc : Cur F s.curr)
    (hr : runProg (callback (Fpdf.engine p) ctx (callsAt (Fpdf.engine p) ctx n) ctx.header) (callback (Fpdf.engine p) ctx (callsAt (Fpdf.engine p) ctx n) ctx.footer)
      (Fpdf.addPage p e) s = some (a, s')) : AtTop p ctx Rl F e.font s' := by
  unfold Fpdf.addPage at hr
  split at hr
  · simp only [runProg] at hr
    generalize hst : ({ s with eng := _ } : PState Fpdf) = s0 at hr
    split at hr
    · exact absurd hr (by simp)
    · rename_i s1 h1
      have q := callback_quiet h (Or.inr rfl) h1
      have ho0 : Order p ctx Rl s0.eng := order_same ho (by rw [← hst])
      have hu0 : AllOwn p ctx (UpTo s0.eng) s0.eng := own_same hu (by rw [← hst]) fun m hm => by rw [← hst]; cases m <;> exact hm
      have ho1 := quiet_order q ho0
      have hu1 := quiet_own (R' := UpTo s1.eng) q hu0 fun m hm => by
        cases m with
        | text k x y f c t => exact le_trans hm q.page
        | _ => trivial
      exact turn_new h ht (e := { s1.eng with inHeaderFooter := false }) (order_same ho1 rfl) (own_same hu1 rfl fun m hm => by cases m <;> exact hm)
        (q.curr (by rw [← hst]; exact hc)) hr
  · exact turn_new h ht ho hu hc hr

/-- The state while a line is written. -/
structure InLine (p : Paper) (ctx : Ctx) (Rl : Mark → Mark → Prop) (F : Font → Prop) (H B Y : ℚ) (s : PState Fpdf) : Prop where
  order : Order p ctx Rl s.eng
  behind : AllOwn p ctx (Behind p H s.eng) s.eng
  over : AllOwn p ctx (Over B s.eng) s.eng
  top : p.margins.top ≤ s.eng.y
  y : s.eng.y ≤ Y
  curr : Cur F s.curr

theorem behind_upTo {H : ℚ} {e : Fpdf} {m : Mark} (h : Behind p H e m) : UpTo e m := by
  cases m with
  | text k x y f c t =>
    rcases h with h | ⟨h, _⟩
    · exact le_of_lt h
    · exact le_of_eq h
  | _ => trivial

/-- A text. -/
theorem put_line {H B Y : ℚ} {t : Str} (hm : 0 ≤ p.metric s.eng.font t) (h : InLine p ctx Rl F H B Y s) (hH : lineHeight s.eng.font ≤ H) (hB : Y + H ≤ B) :
    InLine p ctx Rl F H B Y { s with eng := Fpdf.put p t s.eng } where
  order := order_snoc h.order rfl h.behind fun m hm => by
    cases m with
    | text k x y f c t =>
      rcases hm with hm | ⟨hm, hm' | ⟨hy, _, hx⟩⟩
      · exact Or.inl hm
      · exact Or.inr ⟨hm, Or.inl hm'⟩
      · exact Or.inr ⟨hm, Or.inr ⟨hy, hx⟩⟩
    | _ => trivial
  behind := own_snoc h.behind rfl (fun m hb => by
    cases m with
    | text k x y f c t' =>
      rcases hb with hb | ⟨hb, hb' | ⟨hy, hh, hx⟩⟩
      · exact Or.inl hb
      · exact Or.inr ⟨hb, Or.inl hb'⟩
      · refine Or.inr ⟨hb, Or.inr ⟨hy, hh, ?_⟩⟩
        show x + p.metric f t' ≤ s.eng.x + p.metric s.eng.font t
        linarith
    | _ => trivial) (Or.inr ⟨rfl, Or.inr ⟨rfl, hH, le_refl _⟩⟩)
  over := own_snoc h.over rfl (fun m hb => by cases m <;> exact hb) (Or.inr ⟨rfl, by have := h.y; show s.eng.y + lineHeight s.eng.font ≤ B; linarith⟩)
  top := h.top
  y := h.y
  curr := h.curr

/-- What the page break in a line leads to. -/
theorem new_line {H B Y : ℚ} {font : Font} (h : AtTop p ctx Rl F font s) (hY : p.margins.top ≤ Y) : InLine p ctx Rl F H B Y s where
  order := h.order
  behind := own_same h.past rfl fun m hm => by
    cases m with
    | text k x y f c t => exact Or.inl hm
    | _ => trivial
  over := own_same h.past rfl fun m hm => by
    cases m with
    | text k x y f c t => exact Or.inl hm
    | _ => trivial
  top := le_of_eq h.y.symm
  y := by rw [h.y]; exact hY
  curr := h.curr

/-- Moving horizontally at the beginning of a page. -/
theorem newPage_x {font : Font} (h : AtTop p ctx Rl F font s) (x : ℚ) : AtTop p ctx Rl F font { s with eng := { s.eng with x := x } } where
  order := order_same h.order rfl
  past := own_same h.past rfl fun m hm => by cases m <;> exact hm
  y := h.y
  font := h.font
  curr := h.curr

theorem write_line (h : FontSizes ctx F) (hp : ∀ f t, 0 ≤ p.metric f t) (ht : 0 ≤ p.margins.top) {H B Y : ℚ} (hB : Y + H ≤ B) {t : Str}
    (hr : (callsAt (Fpdf.engine p) ctx n).writeText t s = some (a, s')) (hs : InLine p ctx Rl F H B Y s) (hH : lineHeight s.eng.font ≤ H) :
    InLine p ctx Rl F H B Y s' ∧ s'.eng.font = s.eng.font ∧ s.eng.page ≤ s'.eng.page := by
  have hpg : s.eng.page ≤ s'.eng.page := pages_le (m := (callsAt (Fpdf.engine p) ctx n).writeText t) (fun k => (page_calls k n).write t) hr
  cases n with
  | zero => exact absurd hr (by simp [callsAt])
  | succ n =>
    have hr' : runProg (callback (Fpdf.engine p) ctx (callsAt (Fpdf.engine p) ctx n) ctx.header)
        (callback (Fpdf.engine p) ctx (callsAt (Fpdf.engine p) ctx n) ctx.footer) (Fpdf.writeText p t s.eng) s = some (a, s') := hr
    unfold Fpdf.writeText at hr'
    split at hr'
    · rw [runProg_andThen (g := fun e => Fpdf.put p t { e with x := s.eng.x })] at hr'
      obtain ⟨q, hq, hr'⟩ := Option.map_eq_some_iff.mp hr'
      have hn := newPage_x (addPage_new h ht hs.order (own_same hs.behind rfl fun m hm => behind_upTo hm) hs.curr hq) s.eng.x
      have hl := put_line (t := t) (H := H) (B := B) (Y := Y) (hp _ _) (new_line hn (le_trans hs.top hs.y)) (by rw [hn.font]; exact hH) hB
      simp only [Prod.mk.injEq] at hr'
      rw [← hr'.2] at hpg ⊢
      exact ⟨hl, hn.font, hpg⟩
    · simp only [runProg, Option.some.injEq, Prod.mk.injEq] at hr'
      rw [← hr'.2]
      exact ⟨put_line (hp _ _) hs hH hB, rfl, le_refl _⟩

/-! ### Lines -/

/-- The state between lines: everything is above the position. -/
structure Rest (p : Paper) (ctx : Ctx) (Rl : Mark → Mark → Prop) (F : Font → Prop) (s : PState Fpdf) : Prop where
  order : Order p ctx Rl s.eng
  above : AllOwn p ctx (Over s.eng.y s.eng) s.eng
  top : p.margins.top ≤ s.eng.y
  curr : Cur F s.curr

theorem over_mono {b b' : ℚ} (hb : b ≤ b') {e : Fpdf} {m : Mark} (h : Over b e m) : Over b' e m := by
  cases m with
  | text k x y f c t =>
    rcases h with h | ⟨h, hy⟩
    · exact Or.inl h
    · exact Or.inr ⟨h, le_trans hy hb⟩
  | _ => trivial

theorem rest_line {H B Y : ℚ} (h : Rest p ctx Rl F s) (hB : AllOwn p ctx (Over B s.eng) s.eng) (hY : s.eng.y ≤ Y) : InLine p ctx Rl F H B Y s where
  order := h.order
  behind := own_same h.above rfl fun m hm => by
    cases m with
    | text k x y f c t =>
      rcases hm with hm | ⟨hm, hy⟩
      · exact Or.inl hm
      · exact Or.inr ⟨hm, Or.inl hy⟩
    | _ => trivial
  over := hB
  top := h.top
  y := hY
  curr := h.curr

/-- Another engine state with the same marks, page and height. -/
theorem rest_eng {e : Fpdf} (h : Rest p ctx Rl F s) (ho : e.out = s.eng.out) (hy : e.y = s.eng.y) (hp : e.page = s.eng.page) : Rest p ctx Rl F { s with eng := e } where
  order := order_same h.order ho
  above := own_same h.above ho fun m hm => by
    cases m with
    | text k x y f c t =>
      show k < e.page ∨ k = e.page ∧ y + lineHeight f ≤ e.y
      rw [hy, hp]; exact hm
    | _ => trivial
  top := by show _ ≤ e.y; rw [hy]; exact h.top
  curr := h.curr

theorem line_eng {H B Y : ℚ} {e : Fpdf} (h : InLine p ctx Rl F H B Y s) (ho : e.out = s.eng.out) (hy : e.y = s.eng.y) (hp : e.page = s.eng.page) (hx : s.eng.x ≤ e.x) :
    InLine p ctx Rl F H B Y { s with eng := e } where
  order := order_same h.order ho
  behind := own_same h.behind ho fun m hm => by
    cases m with
    | text k x y f c t =>
      show k < e.page ∨ k = e.page ∧ (y + lineHeight f ≤ e.y ∨ y = e.y ∧ lineHeight f ≤ H ∧ x + p.metric f t ≤ e.x)
      rw [hy, hp]
      rcases hm with hm | ⟨hm, hm' | ⟨h1, h2, h3⟩⟩
      · exact Or.inl hm
      · exact Or.inr ⟨hm, Or.inl hm'⟩
      · exact Or.inr ⟨hm, Or.inr ⟨h1, h2, le_trans h3 hx⟩⟩
    | _ => trivial
  over := own_same h.over ho fun m hm => by
    cases m with
    | text k x y f c t =>
      show k < e.page ∨ k = e.page ∧ y + lineHeight f ≤ B
      rw [hp]; exact hm
    | _ => trivial
  top := by show _ ≤ e.y; rw [hy]; exact h.top
  y := by show e.y ≤ _; rw [hy]; exact h.y
  curr := h.curr

theorem cur_font {f : Font} {st : Styles} (hf : F f) (h : Cur F st) : Cur F { st with font := f } := by
  obtain ⟨g, _, e⟩ := h
  exact ⟨f, hf, by rw [e]⟩

/-- The fonts of the line. -/
def Fit (F : Font → Prop) (H : ℚ) (f : Font) : Prop := F f ∧ lineHeight f = H

theorem line_font {H B Y : ℚ} {f : Font} (hf : F f) (h : InLine p ctx Rl F H B Y s) : InLine p ctx Rl F H B Y (changeFont (Fpdf.engine p) f s) := by
  have := line_eng (e := (Fpdf.engine p).changeFont f s.eng) h rfl rfl rfl (le_refl _)
  exact ⟨this.order, this.behind, this.over, this.top, this.y, cur_font hf h.curr⟩

theorem rest_font {f : Font} (hf : F f) (h : Rest p ctx Rl F s) : Rest p ctx Rl F (changeFont (Fpdf.engine p) f s) := by
  have := rest_eng (e := (Fpdf.engine p).changeFont f s.eng) h rfl rfl rfl
  exact ⟨this.order, this.above, this.top, cur_font hf h.curr⟩

section
variable (h : FontSizes ctx F) (hp : ∀ f t, 0 ≤ p.metric f t) (ht : 0 ≤ p.margins.top)
include h hp ht

theorem writeItems_line {H B Y : ℚ} (hB : Y + H ≤ B) : ∀ (items : List TextItem) (s : PState Fpdf) (a : Unit) (s' : PState Fpdf),
    writeItems (Fpdf.engine p) (callsAt (Fpdf.engine p) ctx n) items s = some (a, s') → InLine p ctx Rl F H B Y s → lineHeight s.eng.font = H →
    (∀ i ∈ items, Fit F H i.sty.font) → InLine p ctx Rl F H B Y s' ∧ lineHeight s'.eng.font = H
  | [], s, a, s', hr, hs, hH, _ => by
    simp only [writeItems, Pure.pure, StateT.pure, Option.some.injEq, Prod.mk.injEq] at hr
    rw [← hr.2]
    exact ⟨hs, hH⟩
  | i :: is, s, a, s', hr, hs, _, hf => by
    unfold writeItems at hr
    obtain ⟨_, s1, h1, hr⟩ := bind_some hr
    obtain ⟨_, s2, h2, hr⟩ := bind_some hr
    simp only [changeFontM, Option.some.injEq, Prod.mk.injEq] at h1
    obtain ⟨f1, f2⟩ := hf i (by simp)
    have k1 := line_font f1 hs
    rw [h1.2] at k1
    have e1 : s1.eng.font = i.sty.font := by rw [← h1.2]; rfl
    obtain ⟨k2, e2, _⟩ := write_line h hp ht hB h2 k1 (by rw [e1, f2])
    exact writeItems_line hB is s2 a s' hr k2 (by rw [e2, e1, f2]) fun j hj => hf j (List.mem_cons_of_mem _ hj)

theorem writeSpaced_line (hw : 0 ≤ p.width) {H B Y gap : ℚ} (hB : Y + H ≤ B) (hg : 0 ≤ gap) : ∀ (items : List TextItem) (s : PState Fpdf) (a : Unit) (s' : PState Fpdf),
    writeSpaced (Fpdf.engine p) (callsAt (Fpdf.engine p) ctx n) gap items s = some (a, s') → InLine p ctx Rl F H B Y s → lineHeight s.eng.font = H →
    (∀ i ∈ items, Fit F H i.sty.font) → InLine p ctx Rl F H B Y s' ∧ lineHeight s'.eng.font = H
  | [], s, a, s', hr, hs, hH, _ => by
    simp only [writeSpaced, Pure.pure, StateT.pure, Option.some.injEq, Prod.mk.injEq] at hr
    rw [← hr.2]
    exact ⟨hs, hH⟩
  | i :: is, s, a, s', hr, hs, _, hf => by
    unfold writeSpaced at hr
    obtain ⟨_, s1, h1, hr⟩ := bind_some hr
    obtain ⟨_, s2, h2, hr⟩ := bind_some hr
    obtain ⟨xy, s3, h3, hr⟩ := bind_some hr
    obtain ⟨_, s4, h4, hr⟩ := bind_some hr
    simp only [changeFontM, ask, upd, Option.some.injEq, Prod.mk.injEq] at h1 h3 h4
    obtain ⟨f1, f2⟩ := hf i (by simp)
    have k1 := line_font f1 hs
    rw [h1.2] at k1
    have e1 : s1.eng.font = i.sty.font := by rw [← h1.2]; rfl
    obtain ⟨k2, e2, _⟩ := write_line h hp ht hB h2 k1 (by rw [e1, f2])
    have hxy : xy.1 = s2.eng.x := by rw [← h3.1]; rfl
    have k4 : InLine p ctx Rl F H B Y s4 := by
      rw [← h4.2, ← h3.2]
      refine line_eng k2 rfl rfl rfl ?_
      show s2.eng.x ≤ if xy.1 + gap ≥ 0 then xy.1 + gap else p.width + (xy.1 + gap)
      rw [hxy]
      split <;> linarith
    exact writeSpaced_line hw hB hg is s4 a s' hr k4 (by rw [← h4.2, ← h3.2]; show lineHeight s2.eng.font = H; rw [e2, e1, f2]) fun j hj => hf j (List.mem_cons_of_mem _ hj)

omit h hp ht in
theorem alignLine_only {x W : ℚ} {ha : Str} {l : TextLine} (hr : alignLine (Fpdf.engine p) ha x W l s = some (a, s')) :
    ∃ x', s' = { s with eng := { s.eng with x := x' } } := by
  unfold alignLine at hr
  split at hr
  · simp only [upd, Option.some.injEq, Prod.mk.injEq] at hr; exact ⟨_, hr.2.symm⟩
  · split at hr
    · simp only [upd, Option.some.injEq, Prod.mk.injEq] at hr; exact ⟨_, hr.2.symm⟩
    · split at hr
      · simp only [upd, Option.some.injEq, Prod.mk.injEq] at hr; exact ⟨_, hr.2.symm⟩
      · simp only [Pure.pure, StateT.pure, Option.some.injEq, Prod.mk.injEq] at hr; exact ⟨s.eng.x, hr.2.symm⟩

omit h hp ht in
/-- The end of a line. -/
theorem feed_rest {H B Y sp : ℚ} (hs : InLine p ctx Rl F H B Y s) (hH : lineHeight s.eng.font = H) (h0 : 0 ≤ H) (h1 : 1 ≤ sp) :
    let s1 : PState Fpdf := { s with eng := (Fpdf.engine p).lineFeed sp s.eng }
    Rest p ctx Rl F s1 ∧ AllOwn p ctx (Over B s1.eng) s1.eng ∧ s1.eng.y ≤ Y + H * sp ∧ lineHeight s1.eng.font = H := by
  intro s1
  have ho : s1.eng.out = s.eng.out ++ [.feed s.eng.page] := rfl
  have hy : s1.eng.y = s.eng.y + H * sp := by rw [← hH]; rfl
  have hl : H ≤ H * sp := le_mul_of_one_le_right h0 h1
  refine ⟨⟨order_other hs.order ho (by simp), own_snoc hs.behind ho (fun m hm => ?_) trivial, ?_, hs.curr⟩, own_snoc hs.over ho (fun m hm => ?_) trivial, ?_, hH⟩
  · cases m with
    | text k x y f c t =>
      show k < s.eng.page ∨ k = s.eng.page ∧ y + lineHeight f ≤ s1.eng.y
      rw [hy]
      rcases hm with hm | ⟨hm, hm' | ⟨g1, g2, _⟩⟩
      · exact Or.inl hm
      · exact Or.inr ⟨hm, by linarith⟩
      · exact Or.inr ⟨hm, by linarith⟩
    | _ => trivial
  · rw [hy]; have := hs.top; linarith
  · cases m <;> exact hm
  · rw [hy]; have := hs.y; linarith

theorem writeLines_stack {sty : Styles} {x W H B : ℚ} (h0 : 0 ≤ H) (h1 : 1 ≤ sty.dim.lineSpacing) : ∀ (lines : List TextLine) (Y : ℚ) (s : PState Fpdf) (a : Unit)
    (s' : PState Fpdf), writeLines (Fpdf.engine p) (callsAt (Fpdf.engine p) ctx n) sty x W lines s = some (a, s') → Rest p ctx Rl F s →
    AllOwn p ctx (Over B s.eng) s.eng → s.eng.y ≤ Y → lineHeight s.eng.font = H → (∀ l ∈ lines, ∀ i ∈ l.items, Fit F H i.sty.font) →
    (lines = [] ∨ Y + (lines.length - 1) * (H * sty.dim.lineSpacing) + H ≤ B) → Rest p ctx Rl F s' ∧ AllOwn p ctx (Over B s'.eng) s'.eng
  | [], Y, s, a, s', hr, hs, hB, _, _, _, _ => by
    simp only [writeLines, Pure.pure, StateT.pure, Option.some.injEq, Prod.mk.injEq] at hr
    rw [← hr.2]
    exact ⟨hs, hB⟩
  | l :: ls, Y, s, a, s', hr, hs, hB, hY, hH, hf, hb => by
    unfold writeLines at hr
    obtain ⟨_, s1, g1, hr⟩ := bind_some hr
    obtain ⟨_, s2, g2, hr⟩ := bind_some hr
    obtain ⟨_, s3, g3, hr⟩ := bind_some hr
    have hL : 0 ≤ H * sty.dim.lineSpacing := mul_nonneg h0 (by linarith)
    have hlen : (((l :: ls).length : ℕ) : ℚ) - 1 = (ls.length : ℚ) := by simp
    rw [hlen] at hb
    have hb : Y + (ls.length : ℚ) * (H * sty.dim.lineSpacing) + H ≤ B := by
      rcases hb with hb | hb
      · exact absurd hb (by simp)
      · exact hb
    have hn : 0 ≤ (ls.length : ℚ) * (H * sty.dim.lineSpacing) := mul_nonneg (by positivity) hL
    obtain ⟨x', e1⟩ := alignLine_only g1
    have k1 : Rest p ctx Rl F s1 := by rw [e1]; exact rest_eng hs rfl rfl rfl
    have b1 : AllOwn p ctx (Over B s1.eng) s1.eng := by
      rw [e1]
      exact own_same hB rfl fun m hm => by cases m <;> exact hm
    have y1 : s1.eng.y ≤ Y := by rw [e1]; exact hY
    have t1 : lineHeight s1.eng.font = H := by rw [e1]; exact hH
    obtain ⟨k2, t2⟩ := writeItems_line h hp ht (H := H) (B := B) (Y := Y) (by linarith) _ _ _ _ g2 (rest_line k1 b1 y1) t1 (hf l (by simp))
    simp only [upd, Option.some.injEq, Prod.mk.injEq] at g3
    obtain ⟨k3, b3, y3, t3⟩ := feed_rest k2 t2 h0 h1
    rw [g3.2] at k3 b3 y3 t3
    refine writeLines_stack h0 h1 ls (Y + H * sty.dim.lineSpacing) s3 a s' hr k3 b3 y3 t3 (fun m hm => hf m (List.mem_cons_of_mem _ hm)) ?_
    by_cases hnil : ls = []
    · exact Or.inl hnil
    · right
      have : Y + H * sty.dim.lineSpacing + (ls.length - 1 : ℚ) * (H * sty.dim.lineSpacing) = Y + (ls.length : ℚ) * (H * sty.dim.lineSpacing) := by ring
      rw [this]; exact hb

/-- A line of block text does not have to be squeezed. -/
def Loose (W : ℚ) (l : TextLine) : Prop := 2 ≤ l.items.length → l.pureTextWidth ≤ W - 1 / 10

theorem writeHyphLines_stack (hw : 0 ≤ p.width) {sty : Styles} {x W H B : ℚ} (h0 : 0 ≤ H) (h1 : 1 ≤ sty.dim.lineSpacing) : ∀ (lines : List TextLine) (Y : ℚ)
    (s : PState Fpdf) (a : Unit)
    (s' : PState Fpdf), writeHyphLines (Fpdf.engine p) (callsAt (Fpdf.engine p) ctx n) sty x W lines s = some (a, s') → Rest p ctx Rl F s →
    AllOwn p ctx (Over B s.eng) s.eng → s.eng.y ≤ Y → lineHeight s.eng.font = H → (∀ l ∈ lines, Loose W l ∧ ∀ i ∈ l.items, Fit F H i.sty.font) →
    (lines = [] ∨ Y + (lines.length - 1) * (H * sty.dim.lineSpacing) + H ≤ B) → Rest p ctx Rl F s' ∧ AllOwn p ctx (Over B s'.eng) s'.eng
  | [], Y, s, a, s', hr, hs, hB, _, _, _, _ => by
    simp only [writeHyphLines, Pure.pure, StateT.pure, Option.some.injEq, Prod.mk.injEq] at hr
    rw [← hr.2]
    exact ⟨hs, hB⟩
  | l :: ls, Y, s, a, s', hr, hs, hB, hY, hH, hf, hb => by
    unfold writeHyphLines at hr
    obtain ⟨_, s1, g1, hr⟩ := bind_some hr
    obtain ⟨_, s2, g2, hr⟩ := bind_some hr
    obtain ⟨_, s3, g3, hr⟩ := bind_some hr
    have hL : 0 ≤ H * sty.dim.lineSpacing := mul_nonneg h0 (by linarith)
    have hlen : (((l :: ls).length : ℕ) : ℚ) - 1 = (ls.length : ℚ) := by simp
    rw [hlen] at hb
    have hb : Y + (ls.length : ℚ) * (H * sty.dim.lineSpacing) + H ≤ B := by
      rcases hb with hb | hb
      · exact absurd hb (by simp)
      · exact hb
    have hn : 0 ≤ (ls.length : ℚ) * (H * sty.dim.lineSpacing) := mul_nonneg (by positivity) hL
    simp only [upd, Option.some.injEq, Prod.mk.injEq] at g1 g3
    have k1 : Rest p ctx Rl F s1 := by rw [← g1.2]; exact rest_eng hs rfl rfl rfl
    have b1 : AllOwn p ctx (Over B s1.eng) s1.eng := by
      rw [← g1.2]
      exact own_same hB rfl fun m hm => by cases m <;> exact hm
    have y1 : s1.eng.y ≤ Y := by rw [← g1.2]; exact hY
    have t1 : lineHeight s1.eng.font = H := by rw [← g1.2]; exact hH
    obtain ⟨k2, t2⟩ : InLine p ctx Rl F H B Y s2 ∧ lineHeight s2.eng.font = H := by
      unfold writeHyphLine at g2
      split at g2
      · exact writeItems_line h hp ht (H := H) (B := B) (Y := Y) (by linarith) _ _ _ _ g2 (rest_line k1 b1 y1) t1 (hf l (by simp)).2
      · rename_i hcnt
        push Not at hcnt
        have h2' : 2 ≤ l.items.length := by have := hcnt.1; omega
        have hl := (hf l (by simp)).1 h2'
        have hcq : (0 : ℚ) < ((l.items.length : Int) - 1 : Int) := Int.cast_pos.mpr (by omega)
        have hgap : 0 ≤ (W - 1 / 10 - l.pureTextWidth) / (((l.items.length : Int) - 1 : Int) : ℚ) := div_nonneg (by linarith) (le_of_lt hcq)
        exact writeSpaced_line h hp ht hw (H := H) (B := B) (Y := Y) (by linarith) hgap _ _ _ _ g2 (rest_line k1 b1 y1) t1 (hf l (by simp)).2
    obtain ⟨k3, b3, y3, t3⟩ := feed_rest k2 t2 h0 h1
    rw [g3.2] at k3 b3 y3 t3
    refine writeHyphLines_stack hw h0 h1 ls (Y + H * sty.dim.lineSpacing) s3 a s' hr k3 b3 y3 t3 (fun m hm => hf m (List.mem_cons_of_mem _ hm)) ?_
    by_cases hnil : ls = []
    · exact Or.inl hnil
    · right
      have : Y + H * sty.dim.lineSpacing + (ls.length - 1 : ℚ) * (H * sty.dim.lineSpacing) = Y + (ls.length : ℚ) * (H * sty.dim.lineSpacing) := by ring
      rw [this]; exact hb

end

/-! ### Texts -/

theorem linesLoop_both {K : Styles → Prop} {P : PState Fpdf → Prop} (hP : ∀ sty s, K sty → P s → P (changeFont (Fpdf.engine p) sty.font s)) {W : ℚ}
    {sty : Styles} (hs : K sty) : ∀ (iss : List Instr), (∀ st t, .paragraph st t ∈ iss → K (st.mutatedStyles ctx.classes sty)) →
    ∀ (acc : List TextLine × TextLine) (s : PState Fpdf), AccK K acc → P s →
    AccK K (linesLoop (Fpdf.engine p) ctx.classes W sty iss acc s).1 ∧ P (linesLoop (Fpdf.engine p) ctx.classes W sty iss acc s).2 := by
  intro iss
  induction iss with
  | nil => intro _ acc s ha h; exact ⟨ha, h⟩
  | cons i iss ih =>
    intro hst acc s ha h
    have ih := ih fun st t hm => hst st t (List.mem_cons_of_mem _ hm)
    cases i with
    | textBlock t =>
      simp only [linesLoop, textOf]
      split
      · exact ih _ _ ha h
      · exact ih _ _ (foldl_K (fun _ _ ha => wrapWord_K ha hs) _ _ ha) (hP _ _ hs h)
    | paragraph st t =>
      have hk := hst st t (by simp)
      simp only [linesLoop, textOf]
      split
      · exact ih _ _ ha h
      · exact ih _ _ (foldl_K (fun _ _ ha => wrapWord_K ha hk) _ _ ha) (hP _ _ hk h)
    | lineBreak => exact ih _ _ ⟨accK_snoc ha.1 ha.2, lineK_empty⟩ h
    | _ => exact ih _ _ ha h

theorem linesLoopHyph_both {K : Styles → Prop} {P : PState Fpdf → Prop} (hP : ∀ sty s, K sty → P s → P (changeFont (Fpdf.engine p) sty.font s)) {W : ℚ}
    {sty : Styles} (hs : K sty) : ∀ (iss : List Instr), (∀ st t, .paragraph st t ∈ iss → K (st.mutatedStyles ctx.classes sty)) →
    ∀ (acc : List TextLine × TextLine) (s : PState Fpdf), AccK K acc → P s →
    AccK K (linesLoopHyph (Fpdf.engine p) ctx.hyphenate ctx.classes W sty iss acc s).1 ∧ P (linesLoopHyph (Fpdf.engine p) ctx.hyphenate ctx.classes W sty iss acc s).2 := by
  intro iss
  induction iss with
  | nil => intro _ acc s ha h; exact ⟨ha, h⟩
  | cons i iss ih =>
    intro hst acc s ha h
    have ih := ih fun st t hm => hst st t (List.mem_cons_of_mem _ hm)
    cases i with
    | textBlock t => exact ih _ _ (foldl_K (fun _ _ ha => wrapWordHyph_K ha hs) _ _ ha) (hP _ _ hs h)
    | paragraph st t =>
      have hk := hst st t (by simp)
      exact ih _ _ (foldl_K (fun _ _ ha => wrapWordHyph_K ha hk) _ _ ha) (hP _ _ hk h)
    | lineBreak => exact ih _ _ ⟨accK_snoc (markLast_K _ ha.1) ha.2, lineK_empty⟩ h
    | _ => exact ih _ _ ha h

theorem textLines_both {K : Styles → Prop} {P : PState Fpdf → Prop} (hP : ∀ sty s, K sty → P s → P (changeFont (Fpdf.engine p) sty.font s)) {W : ℚ}
    {sty : Styles} (hs : K sty) {iss : List Instr} (hst : ∀ st t, .paragraph st t ∈ iss → K (st.mutatedStyles ctx.classes sty)) (h : P s) :
    (∀ l ∈ (textLines (Fpdf.engine p) ctx.classes iss W sty s).1, LineK K l) ∧ P (textLines (Fpdf.engine p) ctx.classes iss W sty s).2 := by
  obtain ⟨h1, h2⟩ := linesLoop_both hP (W := W) hs iss hst ([], TextLine.empty) s ⟨by simp, lineK_empty⟩ h
  refine ⟨?_, h2⟩
  unfold textLines closeLines
  simp only
  split
  · exact accK_snoc h1.1 h1.2
  · exact h1.1

theorem textLinesHyph_both {K : Styles → Prop} {P : PState Fpdf → Prop} (hP : ∀ sty s, K sty → P s → P (changeFont (Fpdf.engine p) sty.font s)) {W : ℚ}
    {sty : Styles} (hs : K sty) {iss : List Instr} (hst : ∀ st t, .paragraph st t ∈ iss → K (st.mutatedStyles ctx.classes sty)) (h : P s) :
    (∀ l ∈ (textLinesHyphenated (Fpdf.engine p) ctx.hyphenate ctx.classes iss W sty s).1, LineK K l) ∧
    P (textLinesHyphenated (Fpdf.engine p) ctx.hyphenate ctx.classes iss W sty s).2 := by
  obtain ⟨h1, h2⟩ := linesLoopHyph_both (ctx := ctx) hP (W := W) hs iss hst ([], TextLine.empty) s ⟨by simp, lineK_empty⟩ h
  refine ⟨?_, h2⟩
  unfold textLinesHyphenated closeLinesHyph
  simp only
  split
  · exact accK_snoc h1.1 h1.2
  · exact h1.1

/-- How many lines the words take. -/
def lineCount (p : Paper) (ctx : Ctx) (W : ℚ) (sty : Styles) (words : List (Option Word)) : Nat :=
  if sty.align.h = b!"block" then (wrappedHyph ctx.hyphenate p.metric W words).length else (wrapped p.metric W words).length

theorem lineCount_pos {W : ℚ} {sty : Styles} {words : List (Option Word)} (h : words ≠ []) : 1 ≤ lineCount p ctx W sty words := by
  unfold lineCount
  split
  · exact List.length_pos_iff.mpr (wrappedHyph_some h)
  · exact List.length_pos_iff.mpr (wrapped_some h)

theorem textLinesHyph_loose (hsp : Spaces p 0) {iss : List Instr} {W : ℚ} {sty : Styles} (s : PState Fpdf) :
    ∀ l ∈ (textLinesHyphenated (Fpdf.engine p) ctx.hyphenate ctx.classes iss W sty s).1, Loose W l := by
  intro l hl h2
  rw [textLinesHyph_eq (measures_paper p)] at hl
  obtain ⟨ps, hps, rfl⟩ := List.mem_map.mp hl
  have hmem : ps.1 ∈ (wrappedHyph ctx.hyphenate p.metric W (blockTokens ctx.classes s.eng.page sty iss)).map (·.1) := List.mem_map_of_mem hps
  have hends := wrappedHyph_ends _ ps.1 hmem
  have h2' : 2 ≤ ps.1.length := by rw [← setPieces_length]; exact h2
  have hwhole := wrappedHyph_whole (hyph := ctx.hyphenate) (mt := p.metric) (width := W) _
    (blockTokens_nosp (cs := ctx.classes) (page := s.eng.page) (sty := sty) iss) ps.1 hmem
  have hr := room hsp.wide hsp.trims hends hwhole h2'
  have hwid := (wrappedHyph_width _ ps.1 hmem h2').1
  show ptotal p.metric ps.1 ≤ _
  linarith

/-- The state before the lines of a text. -/
structure Ready (p : Paper) (ctx : Ctx) (Rl : Mark → Mark → Prop) (F : Font → Prop) (H B Y : ℚ) (k : Nat) (s : PState Fpdf) : Prop where
  rest : Rest p ctx Rl F s
  over : AllOwn p ctx (Over B s.eng) s.eng
  y : s.eng.y = Y
  font : lineHeight s.eng.font = H
  page : s.eng.page = k

theorem ready_eng {H H' B Y : ℚ} {k : Nat} {e : Fpdf} (h : Ready p ctx Rl F H B Y k s) (ho : e.out = s.eng.out) (hy : e.y = s.eng.y) (hp : e.page = s.eng.page)
    (hH : lineHeight e.font = H') : Ready p ctx Rl F H' B Y k { s with eng := e } where
  rest := rest_eng h.rest ho hy hp
  over := own_same h.over ho fun m hm => by
    cases m with
    | text k x y f c t =>
      show k < e.page ∨ k = e.page ∧ y + lineHeight f ≤ B
      rw [hp]; exact hm
    | _ => trivial
  y := by show e.y = _; rw [hy]; exact h.y
  font := hH
  page := by show e.page = _; rw [hp]; exact h.page

theorem ready_font {H B Y : ℚ} {k : Nat} (sty : Styles) (s : PState Fpdf) (hf : Fit F H sty.font) (h : Ready p ctx Rl F H B Y k s) :
    Ready p ctx Rl F H B Y k (changeFont (Fpdf.engine p) sty.font s) := by
  have := ready_eng (e := (Fpdf.engine p).changeFont sty.font s.eng) h rfl rfl rfl hf.2
  exact ⟨rest_font hf.1 h.rest, this.over, this.y, this.font, this.page⟩

section
variable (h : FontSizes ctx F) (hsp : Spaces p 0) (ht : 0 ≤ p.margins.top) (hw : 0 ≤ p.width)
include h hsp ht hw

theorem writeTextFnc_stack {sty : Styles} {iss : List Instr} {W H H' B Y : ℚ} {k : Nat} (h1 : 1 ≤ sty.dim.lineSpacing) (hs : Fit F H sty.font)
    (hst : ∀ st t, .paragraph st t ∈ iss → Fit F H (st.mutatedStyles ctx.classes sty).font)
    (hB : lineCount p ctx W sty (wordsOn ctx k sty iss) = 0 ∨ Y + (lineCount p ctx W sty (wordsOn ctx k sty iss) - 1) * (H * sty.dim.lineSpacing) + H ≤ B)
    (hr : writeTextFnc (Fpdf.engine p) ctx (callsAt (Fpdf.engine p) ctx n) iss W sty s = some (a, s')) (hk : Ready p ctx Rl F H' B Y k s) :
    Rest p ctx Rl F s' ∧ AllOwn p ctx (Over B s'.eng) s'.eng := by
  have h0 : 0 ≤ H := by rw [← hs.2]; exact mul_nonneg (h.size _ hs.1) (by norm_num)
  unfold writeTextFnc at hr
  by_cases hb : sty.align.h = b!"block"
  · rw [if_pos hb] at hr
    unfold writeTextHyphenated at hr
    obtain ⟨_, s1, g1, hr⟩ := bind_some hr
    obtain ⟨_, s2, g2, hr⟩ := bind_some hr
    obtain ⟨lines, s3, g3, hr⟩ := bind_some hr
    obtain ⟨xy, s4, g4, hr⟩ := bind_some hr
    simp only [upd, total, ask, Option.some.injEq, Prod.mk.injEq] at g1 g2 g3 g4
    have k2 : Ready p ctx Rl F H B Y k s2 := by
      rw [← g2.2, ← g1.2]
      exact ready_eng (ready_eng (H' := H) hk rfl rfl rfl hs.2) rfl rfl rfl hs.2
    have e3 : (textLinesHyphenated (Fpdf.engine p) ctx.hyphenate ctx.classes iss W sty s2) = (lines, s3) := g3
    obtain ⟨l1, k3⟩ := textLinesHyph_both (p := p) (ctx := ctx) (K := fun sty => Fit F H sty.font) (W := W) ready_font hs hst k2
    have l2 := textLinesHyph_loose hsp (ctx := ctx) (iss := iss) (W := W) (sty := sty) s2
    have l3 := textLinesHyph_eq (measures_paper p) (hyph := ctx.hyphenate) (cs := ctx.classes) (width := W) (sty := sty) iss s2
    rw [e3] at l1 k3 l2 l3
    rw [g4.2] at k3
    refine writeHyphLines_stack h hsp.nonneg ht hw h0 h1 lines Y s4 a s' hr k3.rest k3.over (le_of_eq k3.y) k3.font (fun l hl => ⟨l2 l hl, l1 l hl⟩) ?_
    have hc : lineCount p ctx W sty (wordsOn ctx k sty iss) = lines.length := by
      unfold lineCount wordsOn
      rw [if_pos hb, if_pos hb, show lines = _ from l3, List.length_map, ← k2.page]
      rfl
    rw [hc] at hB
    exact hB.imp List.eq_nil_of_length_eq_zero id
  · rw [if_neg hb] at hr
    unfold Model.writeText at hr
    obtain ⟨_, s1, g1, hr⟩ := bind_some hr
    obtain ⟨_, s2, g2, hr⟩ := bind_some hr
    obtain ⟨lines, s3, g3, hr⟩ := bind_some hr
    obtain ⟨xy, s4, g4, hr⟩ := bind_some hr
    simp only [upd, total, ask, Option.some.injEq, Prod.mk.injEq] at g1 g2 g3 g4
    have k2 : Ready p ctx Rl F H B Y k s2 := by
      rw [← g2.2, ← g1.2]
      exact ready_eng (ready_eng (H' := H) hk rfl rfl rfl hs.2) rfl rfl rfl hs.2
    have e3 : (textLines (Fpdf.engine p) ctx.classes iss W sty s2) = (lines, s3) := g3
    obtain ⟨l1, k3⟩ := textLines_both (p := p) (ctx := ctx) (K := fun sty => Fit F H sty.font) (W := W) ready_font hs hst k2
    have l3 := textLines_eq (measures_paper p) (cs := ctx.classes) (width := W) (sty := sty) iss s2
    rw [e3] at l1 k3 l3
    rw [g4.2] at k3
    refine writeLines_stack h hsp.nonneg ht h0 h1 lines Y s4 a s' hr k3.rest k3.over (le_of_eq k3.y) k3.font (fun l hl => l1 l hl) ?_
    have hc : lineCount p ctx W sty (wordsOn ctx k sty iss) = lines.length := by
      unfold lineCount wordsOn
      rw [if_neg hb, if_neg hb, show lines = _ from l3, List.length_map, ← k2.page]
      rfl
    rw [hc] at hB
    exact hB.imp List.eq_nil_of_length_eq_zero id

/-- The state between instructions. -/
structure Idle (p : Paper) (ctx : Ctx) (Rl : Mark → Mark → Prop) (F : Font → Prop) (fresh : Bool) (s : PState Fpdf) : Prop where
  rest : Rest p ctx Rl F s
  font : 0 ≤ lineHeight s.eng.font
  past : fresh = true → AllOwn p ctx (Past s.eng) s.eng

omit hsp ht hw in
theorem reset_idle (hr : resetStyles (Fpdf.engine p) s = some (a, s')) (hk : Rest p ctx Rl F s) : Idle p ctx Rl F false s' := by
  simp only [resetStyles, Option.some.injEq, Prod.mk.injEq] at hr
  obtain ⟨f, hf, e⟩ := hk.curr
  rw [← hr.2]
  refine ⟨rest_eng hk rfl rfl rfl, ?_, by simp⟩
  show 0 ≤ lineHeight s.curr.font
  rw [e]
  exact mul_nonneg (h.size _ hf) (by norm_num)

omit ht hw hsp in
/-- The fonts in a text. -/
theorem airy_fit {st : Styled} {iss : List Instr} {i : Instr} (hi : i ∈ ctx.header ++ ctx.footer ++ ctx.body) (he : i = .text st iss ∨ i = .box st iss)
    {cur : Styles} (hc : F cur.font) (ha : Airy ctx (st.mutatedStyles ctx.classes cur) iss) :
    Fit F (lineHeight (st.mutatedStyles ctx.classes cur).font) (st.mutatedStyles ctx.classes cur).font ∧
    ∀ st' t, .paragraph st' t ∈ iss →
      Fit F (lineHeight (st.mutatedStyles ctx.classes cur).font) (st'.mutatedStyles ctx.classes (st.mutatedStyles ctx.classes cur)).font := by
  have h1 : F (st.mutatedStyles ctx.classes cur).font := by
    rcases he with rfl | rfl
    · exact h.plain _ hi st .text _ hc
    · exact h.plain _ hi st .box _ hc
  refine ⟨⟨h1, rfl⟩, fun st' t hm => ⟨?_, ?_⟩⟩
  · rcases he with rfl | rfl
    · exact h.plain _ hi st' (.textIn hm .paragraph) _ h1
    · exact h.plain _ hi st' (.boxIn hm .paragraph) _ h1
  · unfold lineHeight
    rw [ha.2 st' t hm]

theorem renderText_stack {st : Styled} {iss : List Instr} {fresh : Bool} (hi : .text st iss ∈ ctx.header ++ ctx.footer ++ ctx.body) (hS : TextStacks ctx F st iss)
    (hr : renderText (Fpdf.engine p) ctx (callsAt (Fpdf.engine p) ctx n) st iss s = some (a, s')) (hk : Idle p ctx Rl F fresh s) : Idle p ctx Rl F false s' := by
  unfold renderText at hr
  split at hr
  · simp only [Pure.pure, StateT.pure, Option.some.injEq, Prod.mk.injEq] at hr
    rw [← hr.2]
    exact ⟨hk.rest, hk.font, by simp⟩
  · replace hr := get_bind hr
    obtain ⟨pa, s2, g2, hr⟩ := bind_some hr
    obtain ⟨_, s3, g3, hr⟩ := bind_some hr
    simp only [ask, Option.some.injEq, Prod.mk.injEq] at g2
    obtain ⟨f, hf, ef⟩ := hk.rest.curr
    have ha := hS f hf
    rw [← ef] at ha
    obtain ⟨q1, q2⟩ := airy_fit h hi (Or.inl rfl) (by rw [ef]; exact hf) ha
    rw [← g2.2] at g3
    generalize st.mutatedStyles ctx.classes s.curr = sty at g3 ha q1 q2
    generalize (Page.mk pa).effectiveWidth sty.dim.width = W at g3
    let m : ℚ := s.eng.y + (lineCount p ctx W sty (wordsOn ctx s.eng.page sty iss) - 1) * (lineHeight sty.font * sty.dim.lineSpacing) + lineHeight sty.font
    have hR : Ready p ctx Rl F (lineHeight s.eng.font) (max s.eng.y m) s.eng.y s.eng.page s :=
      ⟨hk.rest, own_same hk.rest.above rfl fun x hx => over_mono (le_max_left _ _) hx, rfl, rfl, rfl⟩
    obtain ⟨r, _⟩ := writeTextFnc_stack h hsp ht hw ha.1 q1 q2 (Or.inr (le_max_right _ _)) g3 hR
    exact reset_idle h hr r

/-! ### Boxes -/

omit hsp hw in
theorem addPage_idle (hr : (callsAt (Fpdf.engine p) ctx n).addPage s = some (a, s')) (hk : Rest p ctx Rl F s) :
    AtTop p ctx Rl F s.eng.font s' := by
  cases n with
  | zero => exact absurd hr (by simp [callsAt])
  | succ n =>
    have hr' : runProg (callback (Fpdf.engine p) ctx (callsAt (Fpdf.engine p) ctx n) ctx.header)
        (callback (Fpdf.engine p) ctx (callsAt (Fpdf.engine p) ctx n) ctx.footer) (Fpdf.addPage p s.eng) s = some (a, s') := hr
    refine addPage_new h ht hk.order (own_same hk.above rfl fun m hm => ?_) hk.curr hr'
    cases m with
    | text k x y f c t =>
      rcases hm with hm | ⟨hm, _⟩
      · exact le_of_lt hm
      · exact le_of_eq hm
    | _ => trivial

omit h hsp ht hw in
theorem top_rest {font : Font} (hn : AtTop p ctx Rl F font s) : Rest p ctx Rl F s where
  order := hn.order
  above := own_same hn.past rfl fun m hm => by
    cases m with
    | text k x y f c t => exact Or.inl hm
    | _ => trivial
  top := le_of_eq hn.y.symm
  curr := hn.curr

omit h hsp ht hw in
theorem draws_over {y : ℚ} : ∀ (cmds : List DrawCmd) (e : Fpdf), Order p ctx Rl e → AllOwn p ctx (Over y e) e →
    let e' := cmds.foldl (fun e c => (Fpdf.engine p).draw c e) e
    Order p ctx Rl e' ∧ AllOwn p ctx (Over y e') e' ∧ e'.page = e.page ∧ e'.font = e.font
  | [], e, ho, hy => ⟨ho, hy, rfl, rfl⟩
  | c :: cmds, e, ho, hy => by
    have e1 : ((Fpdf.engine p).draw c e).out = e.out ++ [.draw e.page c] := by
      show (Fpdf.draw c e).out = _
      unfold Fpdf.draw; cases c <;> rfl
    have e2 : ((Fpdf.engine p).draw c e).page = e.page := by
      show (Fpdf.draw c e).page = _
      unfold Fpdf.draw; cases c <;> rfl
    have e3 : ((Fpdf.engine p).draw c e).font = e.font := by
      show (Fpdf.draw c e).font = _
      unfold Fpdf.draw; cases c <;> rfl
    obtain ⟨r1, r2, r3, r4⟩ := draws_over cmds _ (order_other ho e1 (by simp)) (own_snoc hy e1 (R' := Over y ((Fpdf.engine p).draw c e)) (fun m hm => by
      cases m with
      | text k x y f c t => unfold Over at hm ⊢; rw [e2]; exact hm
      | _ => trivial) trivial)
    exact ⟨r1, r2, r3.trans e2, r4.trans e3⟩

omit h hsp ht hw in
/-- Measuring a text. -/
theorem height_stack {sty : Styles} {iss : List Instr} {W H : ℚ} (hs : Fit F H sty.font)
    (hst : ∀ st t, .paragraph st t ∈ iss → Fit F H (st.mutatedStyles ctx.classes sty).font) (hk : Rest p ctx Rl F s) :
    (textHeightFnc (Fpdf.engine p) ctx sty iss W s).1 = linesHeight (lineCount p ctx W sty (wordsOn ctx s.eng.page sty iss)) H sty.dim.lineSpacing ∧
    Rest p ctx Rl F (textHeightFnc (Fpdf.engine p) ctx sty iss W s).2 := by
  have k2 : Ready p ctx Rl F H s.eng.y s.eng.y s.eng.page { s with eng := (Fpdf.engine p).changeFont sty.font s.eng } :=
    ready_eng (H := lineHeight s.eng.font) ⟨hk, hk.above, rfl, rfl, rfl⟩ rfl rfl rfl hs.2
  unfold textHeightFnc
  by_cases hb : sty.align.h = b!"block"
  · rw [if_pos hb]
    obtain ⟨_, k3⟩ := textLinesHyph_both (p := p) (ctx := ctx) (K := fun sty => Fit F H sty.font) (W := W) ready_font hs hst k2
    have l3 := textLinesHyph_eq (measures_paper p) (hyph := ctx.hyphenate) (cs := ctx.classes) (width := W) (sty := sty) iss
      { s with eng := (Fpdf.engine p).changeFont sty.font s.eng }
    refine ⟨?_, k3.rest⟩
    show linesHeight (textLinesHyphenated _ _ _ _ _ _ _).1.length _ _ = _
    rw [l3, List.length_map]
    unfold lineCount wordsOn
    rw [if_pos hb, if_pos hb]
    exact congrArg (fun x => linesHeight _ x _) k3.font
  · rw [if_neg hb]
    obtain ⟨_, k3⟩ := textLines_both (p := p) (ctx := ctx) (K := fun sty => Fit F H sty.font) (W := W) ready_font hs hst k2
    have l3 := textLines_eq (measures_paper p) (cs := ctx.classes) (width := W) (sty := sty) iss { s with eng := (Fpdf.engine p).changeFont sty.font s.eng }
    refine ⟨?_, k3.rest⟩
    show linesHeight (textLines _ _ _ _ _ _).1.length _ _ = _
    rw [l3, List.length_map]
    unfold lineCount wordsOn
    rw [if_neg hb, if_neg hb]
    exact congrArg (fun x => linesHeight _ x _) k3.font

omit h hsp ht hw in
/-- Moving down. -/
theorem setY_rest {y y0 : ℚ} (ho : Order p ctx Rl s.eng) (hov : AllOwn p ctx (Over y0 s.eng) s.eng) (hc : Cur F s.curr) (hy : y0 ≤ y) (h0 : 0 ≤ y) (ht : p.margins.top ≤ y) :
    Rest p ctx Rl F { s with eng := (Fpdf.engine p).setY y s.eng } ∧ ((Fpdf.engine p).setY y s.eng).y = y := by
  have e : ((Fpdf.engine p).setY y s.eng).y = y := by
    show (if y ≥ 0 then y else _) = y
    rw [if_pos h0]
  refine ⟨⟨order_same ho rfl, own_same hov rfl fun m hm => ?_, ?_, hc⟩, e⟩
  · show Over ((Fpdf.engine p).setY y s.eng).y _ m
    rw [e]
    have := over_mono hy hm
    cases m <;> exact this
  · show _ ≤ ((Fpdf.engine p).setY y s.eng).y
    rw [e]; exact ht

theorem renderTextBox_stack {st : Styled} {iss : List Instr} {fresh : Bool} (hi : .box st iss ∈ ctx.header ++ ctx.footer ++ ctx.body) (hS : BoxStacks ctx F st iss)
    {pa : Area} (hr : renderTextBox (Fpdf.engine p) ctx (callsAt (Fpdf.engine p) ctx n) st iss pa s = some (a, s')) (hk : Idle p ctx Rl F fresh s) :
    Idle p ctx Rl F false s' := by
  unfold renderTextBox at hr
  replace hr := get_bind hr
  obtain ⟨f, hf, ef⟩ := hk.rest.curr
  have hb := hS f hf
  simp only at hb
  rw [← ef] at hb
  obtain ⟨ha, hpad, hbot, hdim⟩ := hb
  obtain ⟨q1, q2⟩ := airy_fit h hi (Or.inr rfl) (by rw [ef]; exact hf) ha
  generalize st.mutatedStyles ctx.classes s.curr = sty at hr ha hpad hbot hdim q1 q2
  generalize hW : boxWidth sty pa = W at hr
  have h0 : 0 ≤ lineHeight sty.font := mul_nonneg (h.size _ q1.1) (by norm_num)
  obtain ⟨height, s2, g2, hr⟩ := bind_some hr
  obtain ⟨xy, s3, g3, hr⟩ := bind_some hr
  obtain ⟨_, s4, g4, hr⟩ := bind_some hr
  obtain ⟨_, s5, g5, hr⟩ := bind_some hr
  obtain ⟨_, s6, g6, hr⟩ := bind_some hr
  have hr : ((if iss.length > 0 then writeTextFnc (Fpdf.engine p) ctx (callsAt (Fpdf.engine p) ctx n) iss W sty else pure ()) >>= fun _ =>
      upd ((Fpdf.engine p).setY (xy.2 + sty.dim.offsetY + height + sty.box.padding.top + sty.box.padding.bottom)) >>= fun _ =>
      resetStyles (Fpdf.engine p)) s6 = some (a, s') := by
    rw [← hr]
    split <;> rfl
  obtain ⟨_, s7, g7, hr⟩ := bind_some hr
  obtain ⟨_, s8, g8, hr⟩ := bind_some hr
  -- the height
  have k2 : Rest p ctx Rl F s2 ∧ 0 ≤ height ∧ (iss ≠ [] → height = linesHeight (lineCount p ctx W sty (wordsOn ctx s.eng.page sty iss)) (lineHeight sty.font) sty.dim.lineSpacing) := by
    unfold boxHeight at g2
    split at g2
    · split at g2
      · rename_i hlen
        simp only [total, Option.some.injEq] at g2
        obtain ⟨r1, r2⟩ := height_stack (p := p) (W := W) q1 q2 hk.rest
        rw [g2] at r1 r2
        refine ⟨r2, ?_, fun _ => r1⟩
        have hne : wordsOn ctx s.eng.page sty iss ≠ [] := by
          rcases hdim with hd | hd
          · rw [hd] at hlen; simp at hlen
          · exact (hd.2 s.eng.page s.eng.page).2
        have hc : (1 : ℚ) ≤ lineCount p ctx W sty (wordsOn ctx s.eng.page sty iss) := by exact_mod_cast lineCount_pos hne
        have hL : 0 ≤ lineHeight sty.font * sty.dim.lineSpacing := mul_nonneg h0 (by linarith [ha.1])
        have := mul_nonneg (sub_nonneg.mpr hc) hL
        simp only at r1
        rw [r1]
        unfold linesHeight
        linarith
      · rename_i hlen
        simp only [ask, Option.some.injEq, Prod.mk.injEq] at g2
        have hn : iss = [] := by simpa using hlen
        exact ⟨g2.2 ▸ hk.rest, by rw [← g2.1]; exact hk.font, fun hne => absurd hn hne⟩
    · rename_i hh
      simp only [Pure.pure, StateT.pure, Option.some.injEq, Prod.mk.injEq] at g2
      refine ⟨g2.2 ▸ hk.rest, by rw [← g2.1]; linarith, fun hne => ?_⟩
      rcases hdim with hd | hd
      · exact absurd hd hne
      · exact absurd hd.1 hh
  obtain ⟨k2, hpos, hheight⟩ := k2
  have k3 : Rest p ctx Rl F s3 ∧ xy.2 = s3.eng.y := by
    unfold boxStart at g3
    replace g3 := get_bind g3
    split at g3
    · obtain ⟨_, t2, g2, g3⟩ := bind_some g3
      simp only [ask, Option.some.injEq, Prod.mk.injEq] at g3
      exact ⟨g3.2 ▸ top_rest (addPage_idle h ht g2 k2), by rw [← g3.1, ← g3.2]; rfl⟩
    · simp only [Pure.pure, StateT.pure, Option.some.injEq, Prod.mk.injEq] at g3
      exact ⟨g3.2 ▸ k2, by rw [← g3.1, ← g3.2]; rfl⟩
  simp only [drawBoxM, upd, Option.some.injEq, Prod.mk.injEq] at g4 g5 g6 g8
  have htop := k3.1.top
  have hY : xy.2 + sty.dim.offsetY + sty.box.padding.top ≥ xy.2 := by linarith
  obtain ⟨d1, d2, d3, d4⟩ := draws_over (y := s3.eng.y) (drawBox (xy.1 + sty.dim.offsetX) (xy.2 + sty.dim.offsetY)
    (xy.1 + sty.dim.offsetX + W + sty.box.padding.left + sty.box.padding.right) (xy.2 + sty.dim.offsetY + height + sty.box.padding.top + sty.box.padding.bottom) sty)
    s3.eng k3.1.order k3.1.above
  have k5 := setY_rest (s := s4) (y0 := s3.eng.y) (y := xy.2 + sty.dim.offsetY + sty.box.padding.top) (F := F) (by rw [← g4.2]; exact d1) (by rw [← g4.2]; exact d2)
    (by rw [← g4.2]; exact k3.1.curr) (by rw [← k3.2]; exact hY) (by rw [← k3.2] at htop; linarith) (by rw [← k3.2] at htop; linarith)
  rw [g5.2] at k5
  have y5 : s5.eng.y = xy.2 + sty.dim.offsetY + sty.box.padding.top := by rw [← g5.2]; exact k5.2
  have k6 : Rest p ctx Rl F s6 := by rw [← g6.2]; exact rest_eng k5.1 rfl rfl rfl
  have y6 : s6.eng.y = xy.2 + sty.dim.offsetY + sty.box.padding.top := by rw [← g6.2]; exact y5
  have k7 : Order p ctx Rl s7.eng ∧ AllOwn p ctx (Over (xy.2 + sty.dim.offsetY + height + sty.box.padding.top) s7.eng) s7.eng ∧ Cur F s7.curr := by
    split at g7
    · rename_i hlen
      have hne : iss ≠ [] := by rintro rfl; simp at hlen
      have hpg : ∀ page page', wordsOn ctx page sty iss = wordsOn ctx page' sty iss := by
        rcases hdim with hd | hd
        · exact absurd hd hne
        · exact fun page page' => (hd.2 page page').1
      have hR : Ready p ctx Rl F (lineHeight s6.eng.font) (xy.2 + sty.dim.offsetY + height + sty.box.padding.top) (xy.2 + sty.dim.offsetY + sty.box.padding.top) s6.eng.page s6 :=
        ⟨k6, own_same k6.above rfl fun m hm => over_mono (by rw [y6]; linarith) hm, y6, rfl, rfl⟩
      obtain ⟨r1, r2⟩ := writeTextFnc_stack h hsp ht hw ha.1 q1 q2 (Or.inr (by
        rw [hpg s6.eng.page s.eng.page, hheight hne]
        unfold linesHeight
        simp only
        linarith)) g7 hR
      exact ⟨r1.order, r2, r1.curr⟩
    · simp only [Pure.pure, StateT.pure, Option.some.injEq, Prod.mk.injEq] at g7
      rw [← g7.2]
      exact ⟨k6.order, own_same k6.above rfl fun m hm => over_mono (by rw [y6]; linarith) hm, k6.curr⟩
  have k8 := setY_rest (y := xy.2 + sty.dim.offsetY + height + sty.box.padding.top + sty.box.padding.bottom) k7.1 k7.2.1 k7.2.2 (by linarith)
    (by rw [← k3.2] at htop; linarith) (by rw [← k3.2] at htop; linarith)
  rw [g8.2] at k8
  exact reset_idle h hr k8.1

/-! ### Documents -/

/-- Whether nothing of the body is on the page after the instruction. -/
def freshAfter (fresh : Bool) : Instr → Bool
  | .text _ _ => false
  | .box _ _ => false
  | .table _ _ _ => false
  | .setY _ => true
  | .pageBreak => true
  | _ => fresh

omit [Weaker p Rl] h hsp ht hw in
theorem stacked_cons {fresh : Bool} {i : Instr} {is : List Instr} (hl : Stacked p ctx F fresh (i :: is)) :
    Stacked p ctx F fresh [i] ∧ Stacked p ctx F (freshAfter fresh i) is := by
  cases i with
  | text st iss => exact ⟨⟨hl.1, trivial⟩, hl.2⟩
  | box st iss => exact ⟨⟨hl.1, trivial⟩, hl.2⟩
  | table st rh rows => exact absurd hl (by simp [Stacked])
  | setY y => exact ⟨⟨hl.1, hl.2.1, trivial⟩, hl.2.2⟩
  | lineFeed k => exact ⟨⟨hl.1, trivial⟩, hl.2⟩
  | _ => exact ⟨trivial, hl⟩

theorem processInstr_stack {i : Instr} (hi : i ∈ ctx.header ++ ctx.footer ++ ctx.body) {fresh : Bool} (hl : Stacked p ctx F fresh [i]) {s1 : PState Fpdf}
    (g1 : processInstr (Fpdf.engine p) ctx (callsAt (Fpdf.engine p) ctx n) i s = some (a, s1)) (hk : Idle p ctx Rl F fresh s) : Idle p ctx Rl F (freshAfter fresh i) s1 := by
  obtain ⟨f, hf, ef⟩ := hk.rest.curr
  cases i with
  | font st =>
    simp only [processInstr] at g1
    replace g1 := get_bind g1
    simp only [changeFontM, Option.some.injEq, Prod.mk.injEq] at g1
    have hf' : F (st.mutatedStyles ctx.classes s.curr).font := h.plain _ hi st .font _ (by rw [ef]; exact hf)
    rw [← g1.2]
    exact ⟨rest_font hf' hk.rest, mul_nonneg (h.size _ hf') (by norm_num), fun hh => own_same (hk.past hh) rfl fun m hm => by cases m <;> exact hm⟩
  | lineFeed k =>
    simp only [processInstr, upd, Option.some.injEq, Prod.mk.injEq] at g1
    have hy : s1.eng.y = s.eng.y + lineHeight s.eng.font * k := by rw [← g1.2]; rfl
    have ho : s1.eng.out = s.eng.out ++ [.feed s.eng.page] := by rw [← g1.2]; rfl
    have hpg : s1.eng.page = s.eng.page := by rw [← g1.2]; rfl
    have hn : 0 ≤ lineHeight s.eng.font * k := mul_nonneg hk.font hl.1
    refine ⟨⟨order_other hk.rest.order ho (by simp), own_snoc hk.rest.above ho (fun m hm => ?_) trivial, ?_, ?_⟩, ?_, fun hh =>
      own_snoc (hk.past hh) ho (fun m hm => ?_) trivial⟩
    · have := over_mono (b' := s1.eng.y) (by rw [hy]; linarith) hm
      cases m with
      | text k x y f c t => unfold Over at this ⊢; rw [hpg]; exact this
      | _ => trivial
    · rw [hy]; linarith [hk.rest.top]
    · rw [← g1.2]; exact hk.rest.curr
    · rw [← g1.2]; exact hk.font
    · cases m with
      | text k x y f c t => unfold Past at hm ⊢; rw [hpg]; exact hm
      | _ => trivial
  | setX x =>
    simp only [processInstr, upd, Option.some.injEq, Prod.mk.injEq] at g1
    rw [← g1.2]
    exact ⟨rest_eng hk.rest rfl rfl rfl, hk.font, fun hh => own_same (hk.past hh) rfl fun m hm => by cases m <;> exact hm⟩
  | setY y =>
    simp only [processInstr, upd, Option.some.injEq, Prod.mk.injEq] at g1
    obtain ⟨rfl, hy, hl⟩ := hl
    obtain ⟨r, _⟩ := setY_rest (p := p) (ctx := ctx) (s := s) (F := F) (y := y) (y0 := y) hk.rest.order (own_same (hk.past rfl) rfl fun m hm => by
      cases m with
      | text k x y f c t => exact Or.inl hm
      | _ => trivial) hk.rest.curr (le_refl _) (le_trans ht hy) hy
    rw [g1.2] at r
    refine ⟨r, ?_, fun _ => ?_⟩
    · rw [← g1.2]; exact hk.font
    · rw [← g1.2]; exact own_same (hk.past rfl) rfl fun m hm => by cases m <;> exact hm
  | box st b =>
    simp only [processInstr] at g1
    obtain ⟨pa, s2, g2, g1⟩ := bind_some g1
    simp only [ask, Option.some.injEq, Prod.mk.injEq] at g2
    rw [← g2.2] at g1
    exact (renderTextBox_stack h hsp ht hw hi hl.1 g1 hk)
  | text st b => exact (renderText_stack h hsp ht hw hi hl.1 g1 hk)
  | table st rh rows => exact absurd hl (by simp [Stacked])
  | image st src =>
    simp only [processInstr] at g1
    obtain ⟨pa, s2, g2, g1⟩ := bind_some g1
    simp only [ask, Option.some.injEq, Prod.mk.injEq] at g2
    rw [← g2.2] at g1
    unfold renderImage at g1
    cases hd : ctx.describe (ctx.resolve src) with
    | none =>
      simp only [hd, Pure.pure, StateT.pure, Option.some.injEq, Prod.mk.injEq] at g1
      exact g1.2 ▸ hk
    | some d =>
      simp only [hd, Option.some.injEq, Prod.mk.injEq] at g1
      rw [← g1.2]
      exact ⟨⟨order_other hk.rest.order rfl (by simp), own_snoc hk.rest.above rfl (fun m hm => by cases m <;> exact hm) trivial, hk.rest.top, hk.rest.curr⟩, hk.font,
        fun hh => own_snoc (hk.past hh) rfl (fun m hm => by cases m <;> exact hm) trivial⟩
  | grid st rows g =>
    simp only [processInstr] at g1
    have e := renderGrid_at g1
    rw [← e] at hk
    exact hk
  | pageBreak =>
    simp only [processInstr] at g1
    have hn := addPage_idle h ht g1 hk.rest
    exact ⟨top_rest hn, by rw [hn.font]; exact hk.font, fun _ => hn.past⟩
  | _ =>
    simp only [processInstr, Pure.pure, StateT.pure, Option.some.injEq, Prod.mk.injEq] at g1
    rw [g1.2] at hk
    exact hk

theorem processInstrs_stack : ∀ (iss : List Instr) (_ : ∀ i ∈ iss, i ∈ ctx.header ++ ctx.footer ++ ctx.body) (fresh : Bool)
    (_ : Stacked p ctx F fresh iss) (s : PState Fpdf) (a : Unit) (s' : PState Fpdf)
    (_ : processInstrs (Fpdf.engine p) ctx (callsAt (Fpdf.engine p) ctx n) iss s = some (a, s')) (_ : Idle p ctx Rl F fresh s), Order p ctx Rl s'.eng
  | [], _, _, _, s, a, s', hr, hk => by
    simp only [processInstrs, Pure.pure, StateT.pure, Option.some.injEq, Prod.mk.injEq] at hr
    exact hr.2 ▸ hk.rest.order
  | i :: iss, hF, fresh, hl, s, a, s', hr, hk => by
    unfold processInstrs at hr
    obtain ⟨_, s1, g1, hr⟩ := bind_some hr
    obtain ⟨l1, l2⟩ := stacked_cons hl
    exact processInstrs_stack iss (fun j hj => hF j (List.mem_cons_of_mem _ hj)) _ l2 s1 a s' hr (processInstr_stack h hsp ht hw (hF i (by simp)) l1 g1 hk)

omit hsp hw in
/-- A document whose body keeps the order. -/
theorem process_order (hb : ∀ s s4, (callsAt (Fpdf.engine p) ctx n).addPage s = some ((), s4) → Idle p ctx Rl F true s4 → ∀ s',
      processInstrs (Fpdf.engine p) ctx (callsAt (Fpdf.engine p) ctx n) ctx.body s4 = some ((), s') → Order p ctx Rl s'.eng) {r : PdfResult}
    (hr : process (Fpdf.engine p) ctx n (newProcessor (Fpdf.new p)) = some (r, s')) : Order p ctx Rl s'.eng := by
  unfold process at hr
  obtain ⟨_, s1, h1, hr⟩ := bind_some hr
  replace hr := get_bind hr
  obtain ⟨_, s2, h2, hr⟩ := bind_some hr
  obtain ⟨_, s3, h3, hr⟩ := bind_some hr
  obtain ⟨_, s4, h4, hr⟩ := bind_some hr
  obtain ⟨failed, s5, h5, hr⟩ := bind_some hr
  simp only [upd, changeFontM, Option.some.injEq, Prod.mk.injEq] at h1 h2
  have o2 : s2.eng.out = [] := by rw [← h2.2, ← h1.2]; rfl
  have c2 : Cur F s2.curr := by rw [← h2.2, ← h1.2]; exact ⟨_, h.default, rfl⟩
  have f2 : s2.eng.font = defaultStyle.font := by rw [← h2.2, ← h1.2]; rfl
  have n3 : AtTop p ctx Rl F s2.eng.font s3 := by
    cases n with
    | zero => exact absurd h3 (by simp [callsAt])
    | succ n =>
      have h3' : runProg (callback (Fpdf.engine p) ctx (callsAt (Fpdf.engine p) ctx n) ctx.header)
          (callback (Fpdf.engine p) ctx (callsAt (Fpdf.engine p) ctx n) ctx.footer) (Fpdf.addPage p s2.eng) s2 = some ((), s3) := h3
      exact addPage_new h ht (by unfold Order; rw [o2]; exact List.Pairwise.nil) (by intro m hm; rw [o2] at hm; simp at hm) c2 h3'
  have k4 := hb s2 s3 h3 ⟨top_rest n3, by rw [n3.font, f2]; exact mul_nonneg (h.size _ h.default) (by norm_num), fun _ => n3.past⟩ s4 h4
  simp only [ask, Option.some.injEq, Prod.mk.injEq] at h5
  rw [h5.2] at k4
  split at hr
  · simp only [Pure.pure, StateT.pure, Option.some.injEq, Prod.mk.injEq] at hr
    rw [← hr.2]
    exact k4
  · have hr' : runProg (callback (Fpdf.engine p) ctx (callsAt (Fpdf.engine p) ctx (n - 1)) ctx.header)
          (callback (Fpdf.engine p) ctx (callsAt (Fpdf.engine p) ctx (n - 1)) ctx.footer) (Fpdf.writePDF s5.eng) s5 = some (r, s') := hr
    simp only [Fpdf.writePDF, runProg] at hr'
    generalize hst : ({ s5 with eng := _ } : PState Fpdf) = s0 at hr'
    split at hr'
    · exact absurd hr' (by simp)
    · rename_i s6 hh
      simp only [Option.some.injEq, Prod.mk.injEq] at hr'
      have q := callback_quiet h (Or.inr rfl) hh
      have := quiet_order q (order_same k4 (by rw [← hst]))
      rw [← hr'.2]
      exact order_same this rfl

theorem process_stack (hb : Stacked p ctx F true ctx.body) {r : PdfResult}
    (hr : process (Fpdf.engine p) ctx n (newProcessor (Fpdf.new p)) = some (r, s')) : Order p ctx Rl s'.eng :=
  process_order h ht (fun _ s4 _ hk s' h4 => processInstrs_stack h hsp ht hw ctx.body (by simp +contextual) true hb s4 _ s' h4 hk) hr

end
end Verif.Proofs
