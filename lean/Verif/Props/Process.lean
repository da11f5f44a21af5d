import Verif.Proofs.Process
import Verif.Model.Fpdf
/-
Properties C42-C44, C47 and C53-C56: processing a document (/repo/process.go).
-/
namespace Verif.Props
open Verif.Go Verif.Model Verif.Proofs Verif.Spec

variable {E : Type} {eng : Engine E} {ctx : Ctx} {Q : E → Prop} {n : Nat} {s s' : PState E}

/-! ### C43: termination -/

/-- In header and footer. -/
def Within (Q : E → Prop) (s : PState E) : Prop := Q s.eng ∧ s.prevent = true

theorem quiet_run (hq : Quiet eng Q) (n : Nat) (t : Str) (s : PState E) (hs : Q s.eng) :
    ∃ e', Q e' ∧ eng.writeText t s.eng = .done e' () ∧ (callsAt eng ctx (n + 1)).writeText t s = some ((), { s with eng := e' }) := by
  obtain ⟨e', h1, h2⟩ := hq.quiet t s.eng hs
  refine ⟨e', h2, h1, ?_⟩
  show runProg _ _ (eng.writeText t s.eng) s = _
  rw [h1]
  rfl

theorem within_rel (hq : Quiet eng Q) (n m : Nat) :
    Rel eng (Within Q) (fun _ => True) (callsAt eng ctx (n + 1)) (callsAt eng ctx (m + 1)) where
  setX x s h := ⟨hq.setX x _ h.1, h.2⟩
  setY x s h := ⟨hq.setY x _ h.1, h.2⟩
  lineFeed x s h := ⟨hq.lineFeed x _ h.1, h.2⟩
  font f s h := ⟨hq.changeFont f _ h.1, h.2⟩
  changeFont f s h := ⟨hq.changeFont f _ h.1, h.2⟩
  color c s h := ⟨hq.setTextColor c _ h.1, h.2⟩
  image src x y w h s hs := ⟨hq.putImage src x y w h _ hs.1, hs.2⟩
  draw c s h := ⟨hq.draw c _ h.1, h.2⟩
  write t _ := by
    intro s hs a s' hr
    obtain ⟨e', h2, h1, h4⟩ := quiet_run (ctx := ctx) hq n t s hs.1
    obtain ⟨e'', _, h1', h3⟩ := quiet_run (ctx := ctx) hq m t s hs.1
    obtain rfl : e' = e'' := by rw [h1] at h1'; injection h1'
    rw [h4] at hr
    simp only [Option.some.injEq, Prod.mk.injEq] at hr
    exact ⟨by rw [h3, ← hr.2], by rw [← hr.2]; exact ⟨h2, hs.2⟩⟩
  add := Or.inl fun s h => h.2

private theorem within_rets (hq : Quiet eng Q) (n : Nat) : Rets (Within Q) (callsAt eng ctx (n + 1)) where
  write t s hs := by
    obtain ⟨e', _, _, h⟩ := quiet_run (ctx := ctx) hq n t s hs.1
    exact ⟨_, _, h⟩
  add := Or.inl fun s h => h.2

private theorem callback_leT (hq : Quiet eng Q) (n m : Nat) (iss : List Instr) (hn : .pageBreak ∉ iss) :
    LeT (Body Q fun _ _ => True) (Body (fun _ => True) fun _ _ => True) (callback eng ctx (callsAt eng ctx (n + 1)) iss)
      (callback eng ctx (callsAt eng ctx (m + 1)) iss) :=
  callback_le (within_rel hq n m) (Texts.all _) iss (Or.inr hn) (fun _ hs => ⟨hs.1, rfl⟩) fun _ _ _ _ => ⟨trivial, trivial⟩

private theorem anyRel {c c' : Calls E} (hw : ∀ t, Le (fun _ => True) (c.writeText t) (c'.writeText t)) (ha : Le (fun _ => True) c.addPage c'.addPage) :
    Rel eng (fun _ => True) (fun _ => True) c c' :=
  ⟨fun _ _ _ => trivial, fun _ _ _ => trivial, fun _ _ _ => trivial, fun _ _ _ => trivial, fun _ _ _ => trivial, fun _ _ _ => trivial,
   fun _ _ _ _ _ _ _ => trivial, fun _ _ _ => trivial, fun t _ => hw t, Or.inr ha⟩

private theorem runWith_le (hq : Quiet eng Q) (hh : .pageBreak ∉ ctx.header) (hf : .pageBreak ∉ ctx.footer) (n m : Nat) {α : Type}
    {op : E → Prog E α} (ho : ∀ e, CallsIn Q (op e)) :
    Le (fun _ => True) (runWith eng ctx (callsAt eng ctx (n + 1)) op) (runWith eng ctx (callsAt eng ctx (m + 1)) op) := by
  intro s _ a s' hr
  refine ⟨(runProg_le (callback_leT hq n m _ hh) (callback_leT hq n m _ hf) (op s.eng) (progOk_of_callsIn (ho _)) s trivial a s' hr).1, trivial⟩

private theorem process_le (hq : Quiet eng Q) (hh : .pageBreak ∉ ctx.header) (hf : .pageBreak ∉ ctx.footer) (n m : Nat) :
    Le (fun _ => True) (process eng ctx (n + 2)) (process eng ctx (m + 2)) := by
  have ha : Le (fun _ => True) (callsAt eng ctx (n + 2)).addPage (callsAt eng ctx (m + 2)).addPage := runWith_le hq hh hf n m hq.addPage
  have hrel : Rel eng (fun _ => True) (fun _ => True) (callsAt eng ctx (n + 2)) (callsAt eng ctx (m + 2)) :=
    anyRel (fun t => runWith_le hq hh hf n m (hq.writeText t)) ha
  unfold process
  exact (Le.upd fun _ _ => trivial).bind fun _ => Le.get.bind fun _ => (changeFontM_le hrel _).bind fun _ => ha.bind fun _ =>
    (processInstrs_le hrel (Texts.all _) _ (Or.inl ha)).bind fun _ => (Le.ask _).bind fun _ => Le.ite (fun _ => Le.pure _)
    fun _ => runWith_le hq hh hf n m hq.writePDF

/-- C43: without page breaks in header and footer, processing returns; calls of the header and footer functions are never nested. -/
theorem C43_returns (hq : Quiet eng Q) (hh : .pageBreak ∉ ctx.header) (hf : .pageBreak ∉ ctx.footer) (s : PState E) :
    ∃ r s', ∀ n, 2 ≤ n → process eng ctx n s = some (r, s') := by
  have hcb : ∀ iss, .pageBreak ∉ iss → Ret (fun s => Q s.eng) (callback eng ctx (callsAt eng ctx 1) iss) := fun iss hn =>
    callback_ret (within_rel hq 0 0) (within_rets hq 0) iss (Or.inr hn) fun s hs => ⟨hs, rfl⟩
  have hop : ∀ {α : Type} (op : E → Prog E α), (∀ e, CallsIn Q (op e)) → Ret (fun _ => True) (runWith eng ctx (callsAt eng ctx 1) op) :=
    fun op ho s _ => runProg_ret (hcb _ hh) (hcb _ hf) (op s.eng) (ho _) s trivial
  have ha : Le (fun _ => True) (callsAt eng ctx 2).addPage (callsAt eng ctx 2).addPage := runWith_le hq hh hf 0 0 hq.addPage
  have hrel : Rel eng (fun _ => True) (fun _ => True) (callsAt eng ctx 2) (callsAt eng ctx 2) :=
    anyRel (fun t => runWith_le hq hh hf 0 0 (hq.writeText t)) ha
  have hret : Rets (fun _ => True) (callsAt eng ctx 2) := ⟨fun t => hop _ (hq.writeText t), Or.inr (hop _ hq.addPage)⟩
  have h2 : Ret (fun _ => True) (process eng ctx 2) := by
    unfold process
    exact Ret.upd.bind (Le.upd fun _ _ => trivial) fun _ => Ret.get.bind Le.get fun _ =>
      Ret.bind (fun _ _ => ⟨_, _, rfl⟩) (changeFontM_le hrel _) fun _ => (hop _ hq.addPage).bind ha fun _ =>
      (processInstrs_ret hrel hret _ (Or.inl ⟨hop _ hq.addPage, ha⟩)).bind (processInstrs_le hrel (Texts.all _) _ (Or.inl ha)) fun _ =>
      (Ret.ask _).bind (Le.ask _) fun _ => Ret.ite (fun _ => Ret.pure _) fun _ => hop _ hq.writePDF
  obtain ⟨r, s', h⟩ := h2 s trivial
  refine ⟨r, s', fun n hn => ?_⟩
  obtain ⟨m, rfl⟩ : ∃ m, n = m + 2 := ⟨n - 2, by omega⟩
  exact (process_le hq hh hf 0 m s trivial r s' h).1

private theorem processInstrs_none {c : Calls E} (hc : ∀ s, c.addPage s = none) : ∀ (iss : List Instr), .pageBreak ∈ iss → ∀ s,
    processInstrs eng ctx c iss s = none
  | [], h, _ => by simp at h
  | i :: is, h, s => by
    unfold processInstrs
    rw [bind_eq]
    rcases List.mem_cons.mp h with rfl | h
    · show (c.addPage s).bind _ = none
      rw [hc]; rfl
    · cases processInstr eng ctx c i s with
      | none => rfl
      | some q => exact processInstrs_none hc is h q.2

private theorem callback_none {c : Calls E} (hc : ∀ s, c.addPage s = none) {iss : List Instr} (h : .pageBreak ∈ iss) (s : PState E) :
    callback eng ctx c iss s = none := by
  rw [callback_eq, processInstrs_none hc iss h]; rfl

private theorem runProg_none {α : Type} {hdr ftr : M E Unit} (hh : ∀ s, hdr s = none) : ∀ (pr : Prog E α), CallsHeader pr → ∀ s, runProg hdr ftr pr s = none
  | .done _ _, h, _ => h.elim
  | .header e k, _, s => by unfold runProg; rw [hh]
  | .footer e k, h, s => by
    unfold runProg
    cases ftr { s with eng := e } with
    | none => rfl
    | some q => exact runProg_none hh _ (h q.2.eng) q.2

/-- C43: with a page break in the header, adding a page does not return at any depth of nesting; so processing never returns. -/
theorem C43_header (ha : ∀ e, CallsHeader (eng.addPage e)) (hh : .pageBreak ∈ ctx.header) (n : Nat) (s : PState E) :
    (callsAt eng ctx n).addPage s = none ∧ process eng ctx n s = none := by
  have key : ∀ n s, (callsAt eng ctx n).addPage s = none := by
    intro n
    induction n with
    | zero => intro s; rfl
    | succ n ih => intro s; exact runProg_none (callback_none ih hh) _ (ha _) s
  refine ⟨key n s, ?_⟩
  unfold process
  rw [bind_eq]
  simp only [upd, Option.bind_some]
  rw [bind_eq]
  simp only [MonadState.get, getThe, MonadStateOf.get, StateT.get, Pure.pure, Option.bind_some]
  rw [bind_eq]
  simp only [changeFontM, Option.bind_some]
  rw [bind_eq, key]
  rfl

private theorem runProg_some {α : Type} {hdr ftr : M E Unit} (hh : ∀ s, ∃ s', hdr s = some ((), s')) (hf : ∀ s, ∃ s', ftr s = some ((), s')) :
    ∀ (pr : Prog E α) s, ∃ a s', runProg hdr ftr pr s = some (a, s')
  | .done _ _, _ => ⟨_, _, rfl⟩
  | .header e k, s => by
    unfold runProg
    obtain ⟨s1, h⟩ := hh { s with eng := e }
    rw [h]
    exact runProg_some hh hf _ s1
  | .footer e k, s => by
    unfold runProg
    obtain ⟨s1, h⟩ := hf { s with eng := e }
    rw [h]
    exact runProg_some hh hf _ s1

/-- C43: what does not return there is the page added by the header of the header of the header...: if the innermost call returned, all would. -/
theorem C43_cause (hh : ctx.header = [.pageBreak]) (hf : ctx.footer = []) (base : Calls E) (hb : ∀ s, ∃ s', base.addPage s = some ((), s'))
    (n : Nat) (s : PState E) :
    callsOn eng ctx { addPage := fun _ => none, writeText := fun _ _ => none } n = callsAt eng ctx n ∧
    ∃ s', (callsOn eng ctx base n).addPage s = some ((), s') := by
  constructor
  · induction n with
    | zero => rfl
    | succ n ih => simp only [callsOn, callsAt, ih]
  · induction n generalizing s with
    | zero => exact hb s
    | succ n ih =>
      have hcb : ∀ iss, iss = [.pageBreak] ∨ iss = [] → ∀ s, ∃ s', callback eng ctx (callsOn eng ctx base n) iss s = some ((), s') := by
        intro iss hi s
        have hp : ∃ s', processInstrs eng ctx (callsOn eng ctx base n) iss { s with prevent := true } = some ((), s') := by
          rcases hi with rfl | rfl
          · obtain ⟨s1, h1⟩ := ih { s with prevent := true }
            refine ⟨s1, ?_⟩
            unfold processInstrs
            rw [bind_eq]
            show ((callsOn eng ctx base n).addPage _).bind _ = _
            rw [h1]; rfl
          · exact ⟨_, rfl⟩
        obtain ⟨s1, h1⟩ := hp
        exact ⟨_, by rw [callback_eq, h1]; rfl⟩
      obtain ⟨a, s', h⟩ := runProg_some (hcb _ (Or.inl hh)) (hcb _ (Or.inr hf)) (eng.addPage s.eng) s
      exact ⟨s', h⟩

/-! ### The engine of the repository -/

section
variable {p : Paper} {f f' : PState Fpdf}

/-- The engine of the repository knows when it is in header or footer. -/
theorem quiet_fpdf (p : Paper) : Quiet (Fpdf.engine p) (fun e => e.inHeaderFooter = true) where
  addPage e := by
    show CallsIn _ (Fpdf.addPage p e)
    unfold Fpdf.addPage Fpdf.turn
    split
    · exact ⟨rfl, fun e' => ⟨rfl, fun _ => trivial⟩⟩
    · exact ⟨rfl, fun _ => trivial⟩
  writePDF e := ⟨rfl, fun _ => trivial⟩
  writeText t e := by
    show CallsIn _ (Fpdf.writeText p t e)
    unfold Fpdf.writeText Fpdf.addPage Fpdf.turn
    split
    · split
      · exact ⟨rfl, fun e' => ⟨rfl, fun _ => trivial⟩⟩
      · exact ⟨rfl, fun _ => trivial⟩
    · trivial
  quiet t e h := by
    refine ⟨Fpdf.put p t e, ?_, h⟩
    show Fpdf.writeText p t e = _
    unfold Fpdf.writeText
    rw [if_neg (by rw [h]; simp)]
  setX x e h := h
  setY y e h := h
  lineFeed n e h := h
  changeFont f e h := h
  setTextColor c e h := h
  putImage src x y w h e hq := hq
  draw c e h := by cases c <;> exact h

/-- It always calls the header function when it adds a page. -/
theorem header_fpdf (p : Paper) (e : Fpdf) : CallsHeader ((Fpdf.engine p).addPage e) := by
  show CallsHeader (Fpdf.addPage p e)
  unfold Fpdf.addPage Fpdf.turn
  split
  · exact fun _ => trivial
  · trivial

/-- In header or footer of page `k`. -/
private def On (k : Nat) (s : PState Fpdf) : Prop := s.eng.inHeaderFooter = true ∧ s.prevent = true ∧ s.eng.page = k

private theorem on_rel (p : Paper) (k n : Nat) : Rel (Fpdf.engine p) (On k) (fun _ => True) (callsAt (Fpdf.engine p) ctx n) (callsAt (Fpdf.engine p) ctx n) where
  setX x s h := h
  setY x s h := h
  lineFeed x s h := h
  font f s h := h
  changeFont f s h := h
  color c s h := h
  image src x y w h s hs := hs
  draw c s h := by cases c <;> exact h
  write t _ := by
    intro s hs a s' hr
    refine ⟨hr, ?_⟩
    cases n with
    | zero => exact absurd hr (by simp [callsAt])
    | succ n =>
      have e : Fpdf.writeText p t s.eng = .done (Fpdf.put p t s.eng) () := by
        unfold Fpdf.writeText
        rw [if_neg (by rw [hs.1]; simp)]
      have e2 : (callsAt (Fpdf.engine p) ctx (n + 1)).writeText t s = some ((), { s with eng := Fpdf.put p t s.eng }) := by
        show runProg _ _ (Fpdf.writeText p t s.eng) s = _
        rw [e]; rfl
      rw [e2] at hr
      simp only [Option.some.injEq, Prod.mk.injEq] at hr
      rw [← hr.2]
      exact hs
  add := Or.inl fun s h => h.2.1

/-- The processing of instructions does not return if that of a page break does not. -/
private theorem processInstrs_none' {P : PState E → Prop} {c : Calls E} (h : Rel eng P (fun _ => True) c c) (hc : ∀ s, P s → c.addPage s = none) :
    ∀ (iss : List Instr), .pageBreak ∈ iss → ∀ s, P s → processInstrs eng ctx c iss s = none
  | [], h, _, _ => by simp at h
  | i :: is, hm, s, hs => by
    unfold processInstrs
    rw [bind_eq]
    rcases List.mem_cons.mp hm with rfl | hm
    · show (c.addPage s).bind _ = none
      rw [hc s hs]; rfl
    · cases hi : processInstr eng ctx c i s with
      | none => rfl
      | some q =>
        have ha : Le P c.addPage c.addPage := fun s hs a s' hr => absurd hr (by rw [hc s hs]; simp)
        exact processInstrs_none' h hc is hm q.2 (processInstr_le h (Texts.all _) i (Or.inl ha) s hs q.1 q.2 hi).2

private theorem footer_none (p : Paper) (hf : .pageBreak ∈ ctx.footer) : ∀ (n : Nat) (s : PState Fpdf), s.eng.page > 0 →
    (callsAt (Fpdf.engine p) ctx n).addPage s = none := by
  intro n
  induction n with
  | zero => intro s _; rfl
  | succ n ih =>
    intro s hs
    show runProg _ _ (Fpdf.addPage p s.eng) s = none
    unfold Fpdf.addPage
    rw [if_pos hs]
    unfold runProg
    have := processInstrs_none' (ctx := ctx) (on_rel (ctx := ctx) p s.eng.page n) (fun s' hs' => ih s' (by rw [hs'.2.2]; exact hs)) _ hf
      { s with prevent := true, eng := { s.eng with inHeaderFooter := true } } ⟨rfl, rfl, rfl⟩
    rw [callback_eq]
    simp only [this, Option.map_none]

/-- Header and footer functions that return keep the page number. -/
private theorem callback_page {n : Nat} {iss : List Instr} {s s' : PState Fpdf}
    (hb : .pageBreak ∈ iss → ∀ s1 : PState Fpdf, s1.eng.page = s.eng.page → (callsAt (Fpdf.engine p) ctx n).addPage s1 = none)
    (h : callback (Fpdf.engine p) ctx (callsAt (Fpdf.engine p) ctx n) iss s = some ((), s')) (hh : s.eng.inHeaderFooter = true) :
    s'.eng.page = s.eng.page := by
  by_cases hm : .pageBreak ∈ iss
  · have := processInstrs_none' (ctx := ctx) (on_rel (ctx := ctx) p s.eng.page n) (fun s1 h1 => hb hm s1 h1.2.2) _ hm { s with prevent := true } ⟨hh, rfl, rfl⟩
    rw [callback_eq, this] at h
    exact absurd h (by simp)
  · have := callback_le (ctx := ctx) (P0 := fun s1 => s1.eng.inHeaderFooter = true ∧ s1.eng.page = s.eng.page) (P1 := fun s1 => s1.eng.page = s.eng.page)
      (on_rel (ctx := ctx) p s.eng.page n) (Texts.all _) iss (Or.inr hm) (fun s hs => ⟨hs.1, rfl, hs.2⟩) (fun s0 s _ hs => hs.2.2)
    exact (this s ⟨hh, rfl⟩ () s' h).2

theorem header_page {n : Nat} {s s' : PState Fpdf} (h : callback (Fpdf.engine p) ctx (callsAt (Fpdf.engine p) ctx n) ctx.header s = some ((), s'))
    (hh : s.eng.inHeaderFooter = true) : s'.eng.page = s.eng.page :=
  callback_page (fun hm s1 _ => (C43_header (header_fpdf p) hm n s1).1) h hh

theorem footer_page {n : Nat} {s s' : PState Fpdf} (h : callback (Fpdf.engine p) ctx (callsAt (Fpdf.engine p) ctx n) ctx.footer s = some ((), s'))
    (hh : s.eng.inHeaderFooter = true) (hp : 0 < s.eng.page) : s'.eng.page = s.eng.page :=
  callback_page (fun hm s1 h1 => footer_none p hm n s1 (by rw [h1]; exact hp)) h hh

/-- A footer function that returns has no page breaks. -/
theorem footer_breaks {n : Nat} {s s' : PState Fpdf} (h : callback (Fpdf.engine p) ctx (callsAt (Fpdf.engine p) ctx n) ctx.footer s = some ((), s'))
    (hh : s.eng.inHeaderFooter = true) (hp : 0 < s.eng.page) : .pageBreak ∉ ctx.footer := by
  intro hm
  have := processInstrs_none' (ctx := ctx) (on_rel (ctx := ctx) p s.eng.page n)
    (fun s1 h1 => footer_none p hm n s1 (by rw [h1.2.2]; exact hp)) _ hm { s with prevent := true } ⟨hh, rfl, rfl⟩
  rw [callback_eq, this] at h
  exact absurd h (by simp)

/-- What the header function does on a new page: page number and position stay. -/
private theorem header_call {m : Nat} {iss : List Instr} (hn : .pageBreak ∉ iss) (h : callback (Fpdf.engine p) ctx (callsAt (Fpdf.engine p) ctx m) iss f = some ((), f'))
    (hh : f.eng.inHeaderFooter = true) (hx : 0 ≤ f.eng.x) (hy : 0 ≤ f.eng.y) :
    f'.eng.page = f.eng.page ∧ f'.eng.x = f.eng.x ∧ f'.eng.y = f.eng.y ∧ f'.prevent = false := by
  have := callback_le (ctx := ctx) (P0 := fun s => s.eng.inHeaderFooter = true ∧ s.eng.page = f.eng.page ∧ s.eng.x = f.eng.x ∧ s.eng.y = f.eng.y)
    (P1 := fun s => s.eng.page = f.eng.page ∧ s.eng.x = f.eng.x ∧ s.eng.y = f.eng.y ∧ s.prevent = false)
    (on_rel (ctx := ctx) p f.eng.page m) (Texts.all _) iss (Or.inr hn) (fun s hs => ⟨hs.1, rfl, hs.2.1⟩) ?_
  · exact (this f ⟨hh, rfl, rfl, rfl⟩ () f' h).2
  · intro s0 s h0 hs
    refine ⟨hs.2.2, ?_, ?_, rfl⟩
    · show (Fpdf.setX p _ { Fpdf.setX p _ s.eng with y := _ }).x = _
      simp only [Fpdf.setX, Fpdf.engine, h0.2.2.1, ge_iff_le, hx, if_true]
    · show (Fpdf.setX p _ { Fpdf.setX p _ s.eng with y := _ }).y = _
      simp only [Fpdf.setX, Fpdf.engine, h0.2.2.2, ge_iff_le, hy, if_true]

/-- C42: whatever header and footer contain, if adding a page returns, the page number grew by one, the write position is the top left
corner of the printable area, font and color are those of before, and page breaks are allowed. -/
theorem C42_newpage (hl : 0 ≤ p.margins.left) (ht : 0 ≤ p.margins.top) (n : Nat)
    (h : (callsAt (Fpdf.engine p) ctx n).addPage f = some ((), f')) :
    f'.eng.page = f.eng.page + 1 ∧
    (Fpdf.engine p).getXY f'.eng = (((Fpdf.engine p).printableArea f'.eng).x0, ((Fpdf.engine p).printableArea f'.eng).y0) ∧
    f'.eng.font = f.eng.font ∧ f'.eng.color = f.eng.color ∧ f'.prevent = false := by
  cases n with
  | zero => exact absurd h (by simp [callsAt])
  | succ n =>
    have hh : .pageBreak ∉ ctx.header := by
      intro hm
      rw [(C43_header (header_fpdf p) hm (n + 1) f).1] at h
      exact absurd h (by simp)
    have turn : ∀ (g : PState Fpdf) (fo : Font) (co : RGB) (g' : PState Fpdf),
        runProg (callback (Fpdf.engine p) ctx (callsAt (Fpdf.engine p) ctx n) ctx.header) (callback (Fpdf.engine p) ctx (callsAt (Fpdf.engine p) ctx n) ctx.footer)
          (Fpdf.turn p fo co g.eng) g = some ((), g') →
        g'.eng.page = g.eng.page + 1 ∧ g'.eng.x = p.margins.left ∧ g'.eng.y = p.margins.top ∧ g'.eng.font = fo ∧ g'.eng.color = co ∧ g'.prevent = false := by
      intro g fo co g' hr
      unfold Fpdf.turn runProg at hr
      split at hr
      · exact absurd hr (by simp)
      · rename_i s1 hc
        obtain ⟨h1, h2, h3, h4⟩ := header_call hh hc rfl hl ht
        simp only [runProg, Option.some.injEq, Prod.mk.injEq, true_and] at hr
        rw [← hr]
        exact ⟨h1, h2, h3, rfl, rfl, h4⟩
    have key : f'.eng.page = f.eng.page + 1 ∧ f'.eng.x = p.margins.left ∧ f'.eng.y = p.margins.top ∧ f'.eng.font = f.eng.font ∧
        f'.eng.color = f.eng.color ∧ f'.prevent = false := by
      by_cases hp : f.eng.page > 0
      · have hf : .pageBreak ∉ ctx.footer := by
          intro hm
          rw [footer_none p hm (n + 1) f hp] at h
          exact absurd h (by simp)
        change runProg _ _ (Fpdf.addPage p f.eng) f = _ at h
        unfold Fpdf.addPage at h
        rw [if_pos hp] at h
        unfold runProg at h
        split at h
        · exact absurd h (by simp)
        · rename_i s1 hc
          have h1 : s1.eng.page = f.eng.page := by
            have := callback_le (ctx := ctx) (P0 := fun s => s.eng.inHeaderFooter = true ∧ s.eng.page = f.eng.page) (P1 := fun s => s.eng.page = f.eng.page)
              (on_rel (ctx := ctx) p f.eng.page n) (Texts.all _) ctx.footer (Or.inr hf) (fun s hs => ⟨hs.1, rfl, hs.2⟩) (fun s0 s _ hs => hs.2.2)
            exact (this { f with eng := { f.eng with inHeaderFooter := true } } ⟨rfl, rfl⟩ () s1 hc).2
          have := turn { s1 with eng := { s1.eng with inHeaderFooter := false } } f.eng.font f.eng.color f' ?_
          · rw [← h1]; exact this
          · refine Eq.trans ?_ h
            unfold Fpdf.turn runProg
            rfl
      · change runProg _ _ (Fpdf.addPage p f.eng) f = _ at h
        unfold Fpdf.addPage at h
        rw [if_neg hp] at h
        exact turn f _ _ f' h
    exact ⟨key.1, Prod.ext key.2.1 key.2.2.1, key.2.2.2⟩

/-- Adding a page leaves at least one page. -/
private theorem addPage_pages (n : Nat) (h : (callsAt (Fpdf.engine p) ctx n).addPage f = some ((), f')) (hl : 0 ≤ p.margins.left) (ht : 0 ≤ p.margins.top) :
    f'.eng.page > 0 := by
  rw [(C42_newpage hl ht n h).1]; omega

private theorem pages_rel (hf : .pageBreak ∈ ctx.footer) (n : Nat) :
    Rel (Fpdf.engine p) (fun s => s.eng.page > 0) (fun _ => True) (callsAt (Fpdf.engine p) ctx n) (callsAt (Fpdf.engine p) ctx n) where
  setX x s h := h
  setY x s h := h
  lineFeed x s h := h
  font f s h := h
  changeFont f s h := h
  color c s h := h
  image src x y w h s hs := hs
  draw c s h := by cases c <;> exact h
  write t _ := by
    intro s hs a s' hr
    refine ⟨hr, ?_⟩
    cases n with
    | zero => exact absurd hr (by simp [callsAt])
    | succ n =>
      change runProg _ _ (Fpdf.writeText p t s.eng) s = _ at hr
      unfold Fpdf.writeText at hr
      split at hr
      · have := footer_none p hf (n + 1) s hs
        change runProg _ _ (Fpdf.addPage p s.eng) s = _ at this
        unfold Fpdf.addPage at hr this
        rw [if_pos hs] at hr this
        unfold Fpdf.andThen runProg at hr
        unfold runProg at this
        cases hc : callback (Fpdf.engine p) ctx (callsAt (Fpdf.engine p) ctx n) ctx.footer { s with eng := { s.eng with inHeaderFooter := true } } with
        | none => rw [hc] at hr; exact absurd hr (by simp)
        | some q =>
          exfalso
          rw [callback_eq] at hc
          obtain ⟨q', hq', _⟩ := Option.map_eq_some_iff.mp hc
          rw [processInstrs_none' (ctx := ctx) (on_rel (ctx := ctx) p s.eng.page n)
            (fun s' hs' => footer_none p hf n s' (by rw [hs'.2.2]; exact hs)) _ hf
            { s with prevent := true, eng := { s.eng with inHeaderFooter := true } } ⟨rfl, rfl, rfl⟩] at hq'
          exact absurd hq' (by simp)
      · simp only [runProg, Option.some.injEq, Prod.mk.injEq] at hr
        rw [← hr.2]
        exact hs
  add := Or.inr fun s hs a s' hr => by rw [footer_none p hf n s hs] at hr; exact absurd hr (by simp)

/-- C43: with a page break in the footer, processing never returns either, unless the engine failed before. -/
theorem C43_footer (hl : 0 ≤ p.margins.left) (ht : 0 ≤ p.margins.top) (hf : .pageBreak ∈ ctx.footer) (n : Nat) {r : PdfResult}
    (h : process (Fpdf.engine p) ctx n f = some (r, f')) : r = { written := [], failed := true } ∧ f'.eng.failed = true := by
  unfold process at h
  obtain ⟨_, s1, _, h⟩ := bind_some h
  obtain ⟨_, s2, _, h⟩ := bind_some h
  obtain ⟨_, s3, _, h⟩ := bind_some h
  obtain ⟨_, s4, h4, h⟩ := bind_some h
  have p4 : s4.eng.page > 0 := addPage_pages n h4 hl ht
  obtain ⟨_, s5, h5, h⟩ := bind_some h
  have p5 : s5.eng.page > 0 := (processInstrs_le (pages_rel hf n) (Texts.all _) ctx.body
    (Or.inl fun s hs a s' hr => by rw [footer_none p hf n s hs] at hr; exact absurd hr (by simp)) s4 p4 _ s5 h5).2
  obtain ⟨b, s6, h6, h⟩ := bind_some h
  simp only [ask, Option.some.injEq, Prod.mk.injEq] at h6
  obtain ⟨rfl, rfl⟩ := h6
  split at h
  · rename_i hfail
    simp only [Pure.pure, StateT.pure, Option.some.injEq, Prod.mk.injEq] at h
    exact ⟨h.1.symm, h.2 ▸ hfail⟩
  · exfalso
    change runProg _ _ (Fpdf.writePDF s5.eng) s5 = _ at h
    unfold Fpdf.writePDF runProg at h
    have := processInstrs_none' (ctx := ctx) (on_rel (ctx := ctx) p s5.eng.page (n - 1))
      (fun s' hs' => footer_none p hf (n - 1) s' (by rw [hs'.2.2]; exact p5)) _ hf
      { s5 with prevent := true, eng := { s5.eng with inHeaderFooter := true } } ⟨rfl, rfl, rfl⟩
    rw [callback_eq] at h
    simp only [this, Option.map_none] at h
    exact absurd h (by simp)

/-- C43: altogether, for the engine of the repository: processing returns without error only if there is no page break in header and
footer, and then it always returns. -/
theorem C43_iff (hl : 0 ≤ p.margins.left) (ht : 0 ≤ p.margins.top) (f : PState Fpdf) :
    ((∃ n r f', process (Fpdf.engine p) ctx n f = some (r, f') ∧ r.failed = false) → .pageBreak ∉ ctx.header ∧ .pageBreak ∉ ctx.footer) ∧
    (.pageBreak ∉ ctx.header ∧ .pageBreak ∉ ctx.footer → ∃ n r f', process (Fpdf.engine p) ctx n f = some (r, f')) := by
  refine ⟨?_, ?_⟩
  · rintro ⟨n, r, f', h, hr⟩
    refine ⟨fun hm => ?_, fun hm => ?_⟩
    · rw [(C43_header (header_fpdf p) hm n f).2] at h; exact absurd h (by simp)
    · rw [(C43_footer hl ht hm n h).1] at hr; exact absurd hr (by simp)
  · rintro ⟨h1, h2⟩
    obtain ⟨r, f', h⟩ := C43_returns (quiet_fpdf p) h1 h2 f
    exact ⟨2, r, f', h 2 (by omega)⟩

end

/-! ### C44: what outlives an element -/

/-- The default styles, but for the font. -/
def FontOnly (c : Styles) : Prop := ∃ f, c = { defaultStyle with font := f }

private theorem font_rel (eng : Engine E) {c : Calls E} (hw : ∀ t, Le (fun s => FontOnly s.curr) (c.writeText t) (c.writeText t))
    (ha : Le (fun s => FontOnly s.curr) c.addPage c.addPage) : Rel eng (fun s => FontOnly s.curr) (fun _ => True) c c where
  setX x s h := h
  setY x s h := h
  lineFeed x s h := h
  font f s h := h
  changeFont f s h := ⟨f, by obtain ⟨g, hg⟩ := h; simp only [changeFont, hg]⟩
  color c s h := h
  image src x y w h s hs := hs
  draw c s h := h
  write t _ := hw t
  add := Or.inr ha

private theorem progOk_all {α : Type} : ∀ (pr : Prog E α), ProgOk (fun _ => True) (fun _ => True) (fun _ => True) pr
  | .done _ _ => trivial
  | .header _ _ => ⟨trivial, fun e' _ => progOk_all _⟩
  | .footer _ _ => ⟨trivial, fun e' _ => progOk_all _⟩

private theorem font_calls (eng : Engine E) (ctx : Ctx) : ∀ n, (∀ t, Le (fun s => FontOnly s.curr) ((callsAt eng ctx n).writeText t) ((callsAt eng ctx n).writeText t)) ∧
    Le (fun s => FontOnly s.curr) (callsAt eng ctx n).addPage (callsAt eng ctx n).addPage ∧
    ∀ {α : Type} (op : E → Prog E α), Le (fun s => FontOnly s.curr) (runWith eng ctx (callsAt eng ctx n) op) (runWith eng ctx (callsAt eng ctx n) op) := by
  have run : ∀ n, (∀ t, Le (fun s => FontOnly s.curr) ((callsAt eng ctx n).writeText t) ((callsAt eng ctx n).writeText t)) →
      Le (fun s => FontOnly s.curr) (callsAt eng ctx n).addPage (callsAt eng ctx n).addPage →
      ∀ {α : Type} (op : E → Prog E α), Le (fun s => FontOnly s.curr) (runWith eng ctx (callsAt eng ctx n) op) (runWith eng ctx (callsAt eng ctx n) op) := by
    intro n hw ha α op s hs a s' hr
    have hcb : ∀ iss, LeT (Body (fun _ => True) fun c _ => FontOnly c) (Body (fun _ => True) fun c _ => FontOnly c)
        (callback eng ctx (callsAt eng ctx n) iss) (callback eng ctx (callsAt eng ctx n) iss) := fun iss =>
      callback_le (font_rel eng hw ha) (Texts.all _) iss (Or.inl ha) (fun s hs => hs.2) fun s0 s _ hs => ⟨trivial, hs⟩
    obtain ⟨h1, h2⟩ := runProg_le (hcb _) (hcb _) (op s.eng) (progOk_all _) s hs a s' hr
    exact ⟨h1, h2.2⟩
  intro n
  induction n with
  | zero =>
    have hw : ∀ t, Le (fun s => FontOnly s.curr) ((callsAt eng ctx 0).writeText t) ((callsAt eng ctx 0).writeText t) := fun t => Le.none
    have ha : Le (fun s => FontOnly s.curr) (callsAt eng ctx 0).addPage (callsAt eng ctx 0).addPage := Le.none
    exact ⟨hw, ha, run 0 hw ha⟩
  | succ n ih =>
    have hw : ∀ t, Le (fun s => FontOnly s.curr) ((callsAt eng ctx (n + 1)).writeText t) ((callsAt eng ctx (n + 1)).writeText t) :=
      fun t => ih.2.2 (eng.writeText t)
    have ha : Le (fun s => FontOnly s.curr) (callsAt eng ctx (n + 1)).addPage (callsAt eng ctx (n + 1)).addPage := ih.2.2 eng.addPage
    exact ⟨hw, ha, run (n + 1) hw ha⟩

theorem fontOnly_rel (eng : Engine E) (ctx : Ctx) (n : Nat) :
    Rel eng (fun s => FontOnly s.curr) (fun _ => True) (callsAt eng ctx n) (callsAt eng ctx n) :=
  font_rel eng (font_calls eng ctx n).1 (font_calls eng ctx n).2.1

/-- C44, first part: whatever was processed - any instructions, with pages, headers and footers in between -, the current styles are the
default styles but for the font. -/
theorem C44_only_font_partial (iss : List Instr) (n : Nat) (hs : FontOnly s.curr)
    (h : processInstrs eng ctx (callsAt eng ctx n) iss s = some ((), s')) : FontOnly s'.curr := by
  obtain ⟨hw, ha, _⟩ := font_calls eng ctx n
  exact (processInstrs_le (font_rel eng hw ha) (Texts.all _) iss (Or.inl ha) s hs _ _ h).2

/-- C44: and so it is at the end, when a new processor was started. -/
theorem C44_process_partial {e : E} {r : PdfResult} (h : process eng ctx n (newProcessor e) = some (r, s')) : FontOnly s'.curr := by
  obtain ⟨hw, ha, _⟩ := font_calls eng ctx n
  have hrun := (font_calls eng ctx (n - 1)).2.2 eng.writePDF
  have hr := font_rel eng hw ha
  refine (show Le (fun s => FontOnly s.curr) (process eng ctx n) (process eng ctx n) from ?_) (newProcessor e) ⟨_, rfl⟩ r s' h |>.2
  unfold process
  exact (Le.upd fun _ h => h).bind fun _ => Le.get.bind fun _ => (changeFontM_le hr _).bind fun _ => ha.bind fun _ =>
    (processInstrs_le hr (Texts.all _) _ (Or.inl ha)).bind fun _ => (Le.ask _).bind fun _ => Le.ite (fun _ => Le.pure _) fun _ => hrun

/-! ### C47: errors -/

/-- C47: the PDF is written by the engine, in the state after processing the body, if there was no error; otherwise nothing is written and
an error is returned. -/
theorem C47_written {r : PdfResult} (h : process eng ctx n s = some (r, s')) :
    ∃ s1, (eng.failed s1.eng = true → r = { written := [], failed := true } ∧ s' = s1) ∧
      (eng.failed s1.eng = false → runWith eng ctx (callsAt eng ctx (n - 1)) eng.writePDF s1 = some (r, s')) ∧
      ((callsAt eng ctx n).addPage (changeFont eng s.curr.font { s with eng := eng.setPageCountAlias b!"{np}" s.eng })).bind
        (fun q => processInstrs eng ctx (callsAt eng ctx n) ctx.body q.2) = some ((), s1) := by
  unfold process at h
  obtain ⟨_, s1, h1, h⟩ := bind_some h
  simp only [upd, Option.some.injEq, Prod.mk.injEq, true_and] at h1
  obtain ⟨c, s2, h2, h⟩ := bind_some h
  simp only [MonadState.get, getThe, MonadStateOf.get, StateT.get, Pure.pure, Option.some.injEq, Prod.mk.injEq] at h2
  obtain ⟨_, s3, h3, h⟩ := bind_some h
  simp only [changeFontM, Option.some.injEq, Prod.mk.injEq, true_and] at h3
  obtain ⟨_, s4, h4, h⟩ := bind_some h
  obtain ⟨_, s5, h5, h⟩ := bind_some h
  obtain ⟨b, s6, h6, h⟩ := bind_some h
  simp only [ask, Option.some.injEq, Prod.mk.injEq] at h6
  obtain ⟨rfl, rfl⟩ := h6
  refine ⟨s5, ?_, ?_, ?_⟩
  · intro hf
    rw [if_pos hf] at h
    simp only [Pure.pure, StateT.pure, Option.some.injEq, Prod.mk.injEq] at h
    exact ⟨h.1.symm, h.2.symm⟩
  · intro hf
    rw [if_neg (by rw [hf]; simp)] at h
    exact h
  · have e : changeFont eng s.curr.font { s with eng := eng.setPageCountAlias b!"{np}" s.eng } = s3 := by
      rw [← h3, ← h2.1, ← h2.2, ← h1]
    rw [e, h4]
    exact h5

end Verif.Props
