import Verif.Spec.Leaflets
import Verif.Proofs.Sim
import Verif.Proofs.Wordwise
import Verif.Props.InStep
import Verif.Props.Bottom
import Verif.Props.Joined
import Verif.Props.Overlap
/-
Property C111: header and footer leave the body where it is (/repo/process.go).
-/
namespace Verif.Props
open Verif.Go Verif.Model Verif.Proofs Verif.Spec

variable {p : Paper} {ctx : Ctx} {n : Nat} {s s' : PState Fpdf}

/-! ### What header and footer do -/

/-- In header or footer: marks are added to the page, and of the current styles only the font changes. -/
private structure Adding (s0 s : PState Fpdf) : Prop where
  inside : s.eng.inHeaderFooter = true
  prevent : s.prevent = true
  page : s.eng.page = s0.eng.page
  out : ∃ ms, s.eng.out = s0.eng.out ++ ms ∧ .page ∉ ms
  curr : ∃ f, s.curr = { s0.curr with font := f }
  failed : s0.eng.failed = true → s.eng.failed = true

private theorem out_more {o o' : List Mark} {m : Mark} (hm : .page ≠ m) (h : ∃ ms, o = o' ++ ms ∧ .page ∉ ms) : ∃ ms, o ++ [m] = o' ++ ms ∧ .page ∉ ms := by
  obtain ⟨ms, rfl, h⟩ := h
  exact ⟨ms ++ [m], by rw [List.append_assoc], by simp [h, hm]⟩

private theorem adding_rel (p : Paper) (s0 : PState Fpdf) (n : Nat) :
    Rel (Fpdf.engine p) (Adding s0) (fun _ => True) (callsAt (Fpdf.engine p) ctx n) (callsAt (Fpdf.engine p) ctx n) where
  setX x s h := ⟨h.inside, h.prevent, h.page, h.out, h.curr, h.failed⟩
  setY x s h := ⟨h.inside, h.prevent, h.page, h.out, h.curr, h.failed⟩
  lineFeed x s h := ⟨h.inside, h.prevent, h.page, out_more (by simp) h.out, h.curr, h.failed⟩
  font f s h := ⟨h.inside, h.prevent, h.page, h.out, h.curr, fun hf => by
    show (s.eng.failed || _) = true
    rw [h.failed hf]; rfl⟩
  changeFont f s h := ⟨h.inside, h.prevent, h.page, h.out, by
    obtain ⟨g, hg⟩ := h.curr
    exact ⟨f, by simp only [changeFont, hg]⟩, fun hf => by
    show (s.eng.failed || _) = true
    rw [h.failed hf]; rfl⟩
  color c s h := ⟨h.inside, h.prevent, h.page, h.out, h.curr, h.failed⟩
  image src x y w ht s h := ⟨h.inside, h.prevent, h.page, out_more (by simp) h.out, h.curr, h.failed⟩
  draw c s h := by
    have : ∃ ms, s.eng.out ++ [.draw s.eng.page c] = s0.eng.out ++ ms ∧ .page ∉ ms := out_more (by simp) h.out
    cases c <;> exact ⟨h.inside, h.prevent, h.page, this, h.curr, h.failed⟩
  write t _ := by
    intro s hs a s' hr
    refine ⟨hr, ?_⟩
    cases n with
    | zero => exact absurd hr (by simp [callsAt])
    | succ n =>
      have e : Fpdf.writeText p t s.eng = .done (Fpdf.put p t s.eng) () := by
        unfold Fpdf.writeText
        rw [if_neg (by rw [hs.inside]; simp)]
      have e2 : (callsAt (Fpdf.engine p) ctx (n + 1)).writeText t s = some ((), { s with eng := Fpdf.put p t s.eng }) := by
        show runProg _ _ (Fpdf.writeText p t s.eng) s = _
        rw [e]; rfl
      rw [e2] at hr
      simp only [Option.some.injEq, Prod.mk.injEq] at hr
      rw [← hr.2]
      exact ⟨hs.inside, hs.prevent, hs.page, out_more (by simp) hs.out, hs.curr, hs.failed⟩
  add := Or.inl fun s h => h.prevent

/-- The position after the header or footer: that of before, as the engine sets it. -/
private def resetX (p : Paper) (x : ℚ) : ℚ :=
  let x := if x ≥ 0 then x else p.width + x
  if x ≥ 0 then x else p.width + x

private def resetY (p : Paper) (y : ℚ) : ℚ := if y ≥ 0 then y else p.height + y

/-- A header or footer that leaves the font adds marks to the page; nothing else that matters for the body changes. -/
private theorem callback_adds (hh : FontFree ctx.classes ctx.header) (hf : FontFree ctx.classes ctx.footer) {iss : List Instr}
    (hi : FontFree ctx.classes iss) (hn : .pageBreak ∉ iss) (h : callback (Fpdf.engine p) ctx (callsAt (Fpdf.engine p) ctx n) iss s = some ((), s'))
    (hs : s.eng.inHeaderFooter = true) :
    s'.eng.page = s.eng.page ∧ (∃ ms, s'.eng.out = s.eng.out ++ ms ∧ .page ∉ ms) ∧ s'.curr = s.curr ∧ s'.prevent = false ∧
      s'.eng.x = resetX p s.eng.x ∧ s'.eng.y = resetY p s.eng.y ∧ (s.eng.failed = true → s'.eng.failed = true) := by
  rw [callback_eq] at h
  obtain ⟨q, hq, he⟩ := Option.map_eq_some_iff.mp h
  have h1 := (processInstrs_le (ctx := ctx) (adding_rel (ctx := ctx) p { s with prevent := true } n) (Texts.all _) iss (Or.inr hn) { s with prevent := true }
    ⟨hs, rfl, rfl, ⟨[], by simp⟩, ⟨s.curr.font, rfl⟩, id⟩ _ _ hq).2
  have hk : Known (LeavesFont ctx.classes) iss := fun i hi' st hst m hm => hi i hi' st hst m hm
  have h2 := (processInstrs_K (leaves_closed ctx.classes s.curr.font) (leaves_calls (p := p) hh hf s.curr.font n) iss hk
    { s with prevent := true } ⟨trivial, rfl⟩ q.1 q.2 hq).2.2
  simp only [Prod.mk.injEq, true_and] at he
  subst he
  refine ⟨h1.page, h1.out, ?_, rfl, rfl, rfl, h1.failed⟩
  obtain ⟨f, hf'⟩ := h1.curr
  show q.2.curr = s.curr
  rw [hf'] at h2 ⊢
  simp only at h2
  rw [h2]

/-- No header or footer. -/
private theorem callback_nothing (ctx : Ctx) (c : Calls Fpdf) (s : PState Fpdf) :
    callback (Fpdf.engine p) ctx c [] s = some ((), { s with eng := { s.eng with x := resetX p s.eng.x, y := resetY p s.eng.y }, prevent := false }) := by
  rw [callback_eq]
  rfl

/-! ### Both runs side by side -/

/-- With header and footer (first), and without them. -/
private structure Beside (e e' : Fpdf) : Prop where
  page : e'.page = e.page
  x : e'.x = e.x
  y : e'.y = e.y
  font : e'.font = e.font
  color : e'.color = e.color
  inside : e.inHeaderFooter = false
  inside' : e'.inHeaderFooter = false
  failed : e'.failed = true → e.failed = true
  out : ∃ ls h b, e.out = dressed ls ++ .page :: (h ++ b) ∧ e'.out = undressed ls ++ .page :: b ∧ (∀ l ∈ ls, Leaflet.Clean l) ∧ .page ∉ h ∧ .page ∉ b ∧
    e.page = ls.length + 1

private theorem out_both {o o' : List Mark} {k : Nat} {m : Mark} (hm : .page ≠ m)
    (h : ∃ ls h b, o = dressed ls ++ .page :: (h ++ b) ∧ o' = undressed ls ++ .page :: b ∧ (∀ l ∈ ls, Leaflet.Clean l) ∧ .page ∉ h ∧ .page ∉ b ∧ k = ls.length + 1) :
    ∃ ls h b, o ++ [m] = dressed ls ++ .page :: (h ++ b) ∧ o' ++ [m] = undressed ls ++ .page :: b ∧ (∀ l ∈ ls, Leaflet.Clean l) ∧ .page ∉ h ∧ .page ∉ b ∧
      k = ls.length + 1 := by
  obtain ⟨ls, h, b, rfl, rfl, h1, h2, h3, h4⟩ := h
  exact ⟨ls, h, b ++ [m], by simp, by simp, h1, h2, by simp [h3, hm], h4⟩

/-- The pages that are done. -/
private structure Done (e e' : Fpdf) : Prop where
  page : e'.page = e.page
  failed : e'.failed = true → e.failed = true
  out : ∃ ls, e.out = dressed ls ∧ e'.out = undressed ls ∧ (∀ l ∈ ls, Leaflet.Clean l) ∧ e.page = ls.length

private theorem dressed_snoc (ls : List Leaflet) (l : Leaflet) : dressed (ls ++ [l]) = dressed ls ++ .page :: (l.head ++ l.body ++ l.foot) := by
  simp [dressed]

private theorem undressed_snoc (ls : List Leaflet) (l : Leaflet) : undressed (ls ++ [l]) = undressed ls ++ .page :: l.body := by
  simp [undressed]

private abbrev hdr (p : Paper) (ctx : Ctx) (n : Nat) : M Fpdf Unit := callback (Fpdf.engine p) ctx (callsAt (Fpdf.engine p) ctx n) ctx.header
private abbrev ftr (p : Paper) (ctx : Ctx) (n : Nat) : M Fpdf Unit := callback (Fpdf.engine p) ctx (callsAt (Fpdf.engine p) ctx n) ctx.footer

variable {u : PState Fpdf}

/-- The footer of a page. -/
private theorem footer_beside (hh : FontFree ctx.classes ctx.header) (hf : FontFree ctx.classes ctx.footer) (hs : PRel Beside s u)
    (h : ftr p ctx n { s with eng := { s.eng with inHeaderFooter := true } } = some ((), s')) :
    ∃ u', ftr p (bodyOnly ctx) n { u with eng := { u.eng with inHeaderFooter := true } } = some ((), u') ∧ PRel Done s' u' := by
  refine ⟨_, callback_nothing _ _ _, ?_⟩
  have h0 : 0 < s.eng.page := by obtain ⟨ls, _, _, _, _, _, _, _, h⟩ := hs.1.out; omega
  obtain ⟨h1, ⟨ms, h2, h2'⟩, h3, h4, _, _, h5⟩ := callback_adds hh hf hf (footer_breaks h rfl h0) h rfl
  obtain ⟨ls, hd, b, ho, ho', hc, hhd, hb, hl⟩ := hs.1.out
  refine ⟨⟨?_, ?_, ls ++ [⟨hd, b, ms⟩], ?_, ?_, ?_, ?_⟩, ?_, ?_⟩
  · show u.eng.page = _
    rw [h1]; exact hs.1.page
  · exact fun h => h5 (hs.1.failed h)
  · rw [dressed_snoc, h2]
    show s.eng.out ++ ms = _
    rw [ho]; simp
  · rw [undressed_snoc]; exact ho'
  · intro l hl
    rcases List.mem_append.mp hl with hl | hl
    · exact hc l hl
    · simp only [List.mem_singleton] at hl
      subst hl
      exact ⟨hhd, hb, h2'⟩
  · rw [h1]; simp only [List.length_append, List.length_singleton]; exact hl
  · show u.curr = s'.curr
    rw [h3]; exact hs.2.1
  · exact h4.symm

/-- The next page. -/
private theorem turn_beside (hh : FontFree ctx.classes ctx.header) (hf : FontFree ctx.classes ctx.footer) (hb : .pageBreak ∉ ctx.header) (f : Font) (c : RGB)
    {e e' : Fpdf} (hd : Done e e') (hs : u.curr = s.curr) (h : runProg (hdr p ctx n) (ftr p ctx n) (Fpdf.turn p f c e) s = some ((), s')) :
    ∃ u', runProg (hdr p (bodyOnly ctx) n) (ftr p (bodyOnly ctx) n) (Fpdf.turn p f c e') u = some ((), u') ∧ PRel Beside s' u' := by
  unfold Fpdf.turn at h ⊢
  simp only [runProg] at h ⊢
  rw [show hdr p (bodyOnly ctx) n = callback (Fpdf.engine p) (bodyOnly ctx) (callsAt (Fpdf.engine p) (bodyOnly ctx) n) [] from rfl, callback_nothing]
  split at h
  · exact absurd h (by simp)
  · rename_i s1 h1
    simp only [Option.some.injEq, Prod.mk.injEq, true_and] at h
    subst h
    refine ⟨_, rfl, ?_⟩
    obtain ⟨g1, ⟨ms, g2, g2'⟩, g3, g4, g5, g6, g7⟩ := callback_adds hh hf hh hb h1 rfl
    obtain ⟨ls, ho, ho', hc, hl⟩ := hd.out
    refine ⟨⟨?_, g5.symm, g6.symm, rfl, rfl, rfl, rfl, fun h => g7 (hd.failed h), ls, ms, [], ?_, ?_, hc, g2', by simp, ?_⟩, ?_, g4.symm⟩
    · show e'.page + 1 = s1.eng.page
      rw [g1, hd.page]
    · show s1.eng.out = _
      rw [g2]
      simp [ho]
    · show e'.out ++ [.page] = _
      rw [ho']
    · show s1.eng.page = _
      rw [g1]
      show e.page + 1 = _
      rw [hl]
    · show u.curr = s1.curr
      rw [g3]; exact hs

private theorem addPage_beside (hh : FontFree ctx.classes ctx.header) (hf : FontFree ctx.classes ctx.footer) (hb : .pageBreak ∉ ctx.header)
    (hs : PRel Beside s u) (h : runProg (hdr p ctx n) (ftr p ctx n) (Fpdf.addPage p s.eng) s = some ((), s')) :
    ∃ u', runProg (hdr p (bodyOnly ctx) n) (ftr p (bodyOnly ctx) n) (Fpdf.addPage p u.eng) u = some ((), u') ∧ PRel Beside s' u' := by
  have h0 : 0 < s.eng.page := by obtain ⟨ls, _, _, _, _, _, _, _, h⟩ := hs.1.out; omega
  unfold Fpdf.addPage at h ⊢
  rw [if_pos h0] at h
  rw [if_pos (by rw [hs.1.page]; exact h0)]
  simp only [runProg] at h ⊢
  split at h
  · exact absurd h (by simp)
  · rename_i s1 h1
    obtain ⟨u1, h2, h3⟩ := footer_beside hh hf hs h1
    simp only [h2]
    rw [hs.1.font, hs.1.color]
    exact turn_beside hh hf hb _ _ ⟨h3.1.page, h3.1.failed, h3.1.out⟩ h3.2.1 h

private theorem write_beside (hh : FontFree ctx.classes ctx.header) (hf : FontFree ctx.classes ctx.footer) (hb : .pageBreak ∉ ctx.header) (t : Str)
    (hs : PRel Beside s u) (h : runProg (hdr p ctx n) (ftr p ctx n) (Fpdf.writeText p t s.eng) s = some ((), s')) :
    ∃ u', runProg (hdr p (bodyOnly ctx) n) (ftr p (bodyOnly ctx) n) (Fpdf.writeText p t u.eng) u = some ((), u') ∧ PRel Beside s' u' := by
  have put : ∀ {e e' : Fpdf}, Beside e e' → Beside (Fpdf.put p t e) (Fpdf.put p t e') := by
    intro e e' h
    refine ⟨h.page, ?_, h.y, h.font, h.color, h.inside, h.inside', h.failed, ?_⟩
    · show e'.x + p.metric e'.font t = e.x + p.metric e.font t
      rw [h.x, h.font]
    · show ∃ ls hd b, e.out ++ [_] = _ ∧ e'.out ++ [_] = _ ∧ _
      rw [h.page, h.x, h.y, h.font, h.color]
      exact out_both (by simp) h.out
  unfold Fpdf.writeText at h ⊢
  have hfh : Fpdf.fontHeight u.eng = Fpdf.fontHeight s.eng := by simp only [Fpdf.fontHeight, hs.1.font]
  rw [hs.1.y, hfh, hs.1.inside', hs.1.x]
  rw [hs.1.inside] at h
  split at h
  · rename_i hc
    rw [if_pos hc]
    rw [runProg_andThen (g := fun e => Fpdf.put p t { e with x := s.eng.x })] at h ⊢
    obtain ⟨q, h1, h2⟩ := Option.map_eq_some_iff.mp h
    obtain ⟨u1, h3, h4⟩ := addPage_beside hh hf hb hs h1
    rw [h3]
    refine ⟨_, rfl, ?_⟩
    simp only [Prod.mk.injEq, true_and] at h2
    subst h2
    exact ⟨put ⟨h4.1.page, rfl, h4.1.y, h4.1.font, h4.1.color, h4.1.inside, h4.1.inside', h4.1.failed, h4.1.out⟩, h4.2⟩
  · rename_i hc
    rw [if_neg hc]
    simp only [runProg, Option.some.injEq, Prod.mk.injEq, true_and] at h ⊢
    subst h
    exact ⟨_, rfl, put hs.1, hs.2⟩

private theorem two_beside {c c' : Calls Fpdf} (hw : ∀ t, Sim Beside (c.writeText t) (c'.writeText t)) (ha : Sim Beside c.addPage c'.addPage) :
    Two (Fpdf.engine p) (Fpdf.engine p) Beside (fun _ => True) c c' where
  getXY e e' h := by show (e'.x, e'.y) = (e.x, e.y); rw [h.x, h.y]
  area _ _ _ := rfl
  height _ _ _ := rfl
  margins _ _ _ := rfl
  fontHeight e e' h := by show Fpdf.fontHeight e' = Fpdf.fontHeight e; simp only [Fpdf.fontHeight, h.font]
  textWidth t e e' h := by show p.metric e'.font t = p.metric e.font t; rw [h.font]
  norm t e e' _ h := by
    have : (Fpdf.engine p).currentPage e' = (Fpdf.engine p).currentPage e := by
      show (e'.page : Int) = e.page
      rw [h.page]
    simp only [norm, tr, this]
  setX x e e' h := ⟨h.page, rfl, h.y, h.font, h.color, h.inside, h.inside', h.failed, h.out⟩
  setY y e e' h := ⟨h.page, by show (if e'.x ≥ 0 then e'.x else p.width + e'.x) = if e.x ≥ 0 then e.x else p.width + e.x; rw [h.x],
    rfl, h.font, h.color, h.inside, h.inside', h.failed, h.out⟩
  lineFeed k e e' h := by
    refine ⟨h.page, rfl, ?_, h.font, h.color, h.inside, h.inside', h.failed, ?_⟩
    · show e'.y + Fpdf.fontHeight e' * k = e.y + Fpdf.fontHeight e * k
      simp only [Fpdf.fontHeight, h.font, h.y]
    · show ∃ ls hd b, e.out ++ [_] = _ ∧ e'.out ++ [_] = _ ∧ _
      rw [h.page]
      exact out_both (by simp) h.out
  font f e e' h := by
    refine ⟨h.page, h.x, h.y, rfl, h.color, h.inside, h.inside', ?_, h.out⟩
    show (e'.failed || !p.known f) = true → (e.failed || !p.known f) = true
    rw [Bool.or_eq_true, Bool.or_eq_true]
    exact Or.imp_left h.failed
  color col e e' h := ⟨h.page, h.x, h.y, h.font, rfl, h.inside, h.inside', h.failed, h.out⟩
  image src x y w ht e e' h := by
    refine ⟨h.page, h.x, h.y, h.font, h.color, h.inside, h.inside', h.failed, ?_⟩
    show ∃ ls hd b, e.out ++ [_] = _ ∧ e'.out ++ [_] = _ ∧ _
    rw [h.page]
    exact out_both (by simp) h.out
  draw cmd e e' h := by
    have ho : ∃ ls hd b, e.out ++ [.draw e.page cmd] = dressed ls ++ .page :: (hd ++ b) ∧ e'.out ++ [.draw e'.page cmd] = undressed ls ++ .page :: b ∧
        (∀ l ∈ ls, Leaflet.Clean l) ∧ .page ∉ hd ∧ .page ∉ b ∧ e.page = ls.length + 1 := by
      rw [h.page]
      exact out_both (by simp) h.out
    cases cmd <;> first
      | exact ⟨h.page, h.x, h.y, h.font, h.color, h.inside, h.inside', h.failed, ho⟩
      | exact ⟨h.page, rfl, rfl, h.font, h.color, h.inside, h.inside', h.failed, ho⟩
  write := hw
  add := ha

private theorem calls_beside (hh : FontFree ctx.classes ctx.header) (hf : FontFree ctx.classes ctx.footer) (hb : .pageBreak ∉ ctx.header) :
    ∀ n, Two (Fpdf.engine p) (Fpdf.engine p) Beside (fun _ => True) (callsAt (Fpdf.engine p) ctx n) (callsAt (Fpdf.engine p) (bodyOnly ctx) n)
  | 0 => two_beside (fun _ => Sim.none) Sim.none
  | _ + 1 => two_beside (fun t _ _ hs _ _ h => write_beside hh hf hb t hs h) fun _ _ hs _ _ h => addPage_beside hh hf hb hs h

/-! ### The document -/

/-- The state in which the first page is started. -/
private def begin (p : Paper) : PState Fpdf :=
  { eng := Fpdf.changeFont p defaultStyle.font { Fpdf.new p with pageCountAlias := b!"{np}" }, curr := defaultStyle, prevent := false }

private theorem process_steps (ctx : Ctx) (n : Nat) : process (Fpdf.engine p) ctx n (newProcessor (Fpdf.new p)) =
    ((callsAt (Fpdf.engine p) ctx n).addPage (begin p)).bind fun q => (processInstrs (Fpdf.engine p) ctx (callsAt (Fpdf.engine p) ctx n) ctx.body q.2).bind fun q =>
      if q.2.eng.failed then some (⟨[], true⟩, q.2) else runWith (Fpdf.engine p) ctx (callsAt (Fpdf.engine p) ctx (n - 1)) (Fpdf.engine p).writePDF q.2 := by
  have e : process (Fpdf.engine p) ctx n (newProcessor (Fpdf.new p)) = ((callsAt (Fpdf.engine p) ctx n).addPage >>= fun _ =>
      processInstrs (Fpdf.engine p) ctx (callsAt (Fpdf.engine p) ctx n) ctx.body >>= fun _ => ask (Fpdf.engine p).failed >>= fun failed =>
        if failed then pure { written := [], failed := true } else runWith (Fpdf.engine p) ctx (callsAt (Fpdf.engine p) ctx (n - 1)) (Fpdf.engine p).writePDF) (begin p) := rfl
  rw [e, bind_eq]
  congr 1; funext q
  rw [bind_eq]
  congr 1; funext q
  rw [bind_eq]
  show (if q.2.eng.failed then _ else _ : M Fpdf PdfResult) q.2 = _
  split <;> rfl

private theorem begin_beside (hh : FontFree ctx.classes ctx.header) (hf : FontFree ctx.classes ctx.footer) (hb : .pageBreak ∉ ctx.header)
    (h : (callsAt (Fpdf.engine p) ctx n).addPage (begin p) = some ((), s)) :
    ∃ u, (callsAt (Fpdf.engine p) (bodyOnly ctx) n).addPage (begin p) = some ((), u) ∧ PRel Beside s u := by
  cases n with
  | zero => exact absurd h (by simp [callsAt])
  | succ n =>
    exact turn_beside (s := begin p) (u := begin p) hh hf hb _ _ (e := (begin p).eng) (e' := (begin p).eng) ⟨rfl, id, [], rfl, rfl, by simp, rfl⟩ rfl h

private theorem body_beside (hh : FontFree ctx.classes ctx.header) (hf : FontFree ctx.classes ctx.footer) {r : PdfResult}
    (h : process (Fpdf.engine p) ctx n (newProcessor (Fpdf.new p)) = some (r, s)) (hr : r.failed = false) :
    ∃ r' u, process (Fpdf.engine p) (bodyOnly ctx) n (newProcessor (Fpdf.new p)) = some (r', u) ∧ r'.failed = false ∧ PRel Done s u := by
  have hb : .pageBreak ∉ ctx.header := by
    intro hm
    rw [(C43_header (header_fpdf p) hm n _).2] at h
    exact absurd h (by simp)
  rw [process_steps] at h
  rw [process_steps]
  obtain ⟨⟨_, s1⟩, h1, h⟩ := Option.bind_eq_some_iff.mp h
  obtain ⟨⟨_, s2⟩, h2, h⟩ := Option.bind_eq_some_iff.mp h
  obtain ⟨u1, g1, k1⟩ := begin_beside hh hf hb h1
  obtain ⟨u2, g2, k2⟩ := processInstrs_sim (ctx := ctx) (calls_beside hh hf hb n) (iss := ctx.body) (fun _ _ _ _ => trivial) s1 u1 k1 _ _ h2
  have g2' : processInstrs (Fpdf.engine p) (bodyOnly ctx) (callsAt (Fpdf.engine p) (bodyOnly ctx) n) (bodyOnly ctx).body u1 = some ((), u2) := by
    rw [← g2]
    exact congrFun (processInstrs_parts (Fpdf.engine p) ctx (callsAt (Fpdf.engine p) (bodyOnly ctx) n) [] [] ctx.body ctx.body) u1
  rw [g1, Option.bind_some, g2', Option.bind_some]
  simp only at h
  split at h
  · simp only [Option.some.injEq, Prod.mk.injEq] at h
    rw [← h.1] at hr
    exact absurd hr (by simp)
  · rename_i hnf
    have hnf' : ¬ u2.eng.failed = true := fun h => hnf (k2.1.failed h)
    rw [if_neg hnf']
    simp only [runWith, Fpdf.engine, Fpdf.writePDF, runProg] at h ⊢
    split at h
    · exact absurd h (by simp)
    · rename_i s3 h3
      obtain ⟨u3, h4, h5⟩ := footer_beside hh hf k2 h3
      have h4' := h4
      simp only [ftr, Fpdf.engine] at h4'
      simp only [h4']
      simp only [Option.some.injEq, Prod.mk.injEq] at h
      obtain ⟨rfl, rfl⟩ := h
      refine ⟨_, _, rfl, ?_, ⟨h5.1.page, h5.1.failed, h5.1.out⟩, h5.2⟩
      simp only at hr ⊢
      by_contra hc
      rw [h5.1.failed (by simpa using hc)] at hr
      exact absurd hr (by simp)

/-- C111: header and footer - no style in them sets a part of the font - leave the body where it is: the document without header and footer comes
out on the same number of pages; and each page of the document with header and footer consists of what the header put there, of exactly what is on the page
without header and footer, at the same places and with the same looks, and of what the footer put there. -/
theorem C111_body (hh : FontFree ctx.classes ctx.header) (hf : FontFree ctx.classes ctx.footer) {body : List Instr} {pages : Nat} {out : List Mark}
    (h : ComesOut (Fpdf.engine p) p ctx n body pages out) : ∃ ls, (∀ l ∈ ls, Leaflet.Clean l) ∧ ls.length = pages ∧ out = dressed ls ∧
      ComesOut (Fpdf.engine p) p (bodyOnly ctx) n body pages (undressed ls) := by
  obtain ⟨r, s, h, hr, rfl, rfl⟩ := h
  obtain ⟨r', u, h1, h2, h3⟩ := body_beside (ctx := { ctx with body := body }) hh hf h hr
  obtain ⟨ls, h4, h5, h6, h7⟩ := h3.1.out
  exact ⟨ls, h6, h7.symm, h4, r', u, h1, h2, h3.1.page, h5⟩

/-! ### Other headers and footers -/

private theorem page_starts (ls : List Leaflet) : undressed ls = [] ∨ ∃ o, undressed ls = .page :: o := by
  cases ls with
  | nil => exact Or.inl rfl
  | cons l ls => exact Or.inr ⟨_, rfl⟩

private theorem split_page {a b : List Mark} : ∀ {x y : List Mark}, .page ∉ x → .page ∉ y → (a = [] ∨ ∃ o, a = .page :: o) → (b = [] ∨ ∃ o, b = .page :: o) →
    x ++ a = y ++ b → x = y ∧ a = b
  | [], [], _, _, _, _, h => ⟨rfl, h⟩
  | [], m :: y, _, hy, ha, _, h => by
    rcases ha with rfl | ⟨o, rfl⟩
    · exact absurd h (by simp)
    · simp only [List.nil_append, List.cons_append, List.cons.injEq] at h
      exact absurd h.1 (fun e => hy (by simp [e]))
  | m :: x, [], hx, _, _, hb, h => by
    rcases hb with rfl | ⟨o, rfl⟩
    · exact absurd h (by simp)
    · simp only [List.nil_append, List.cons_append, List.cons.injEq] at h
      exact absurd h.1 (fun e => hx (by simp [e]))
  | m :: x, k :: y, hx, hy, ha, hb, h => by
    simp only [List.cons_append, List.cons.injEq] at h
    obtain ⟨h1, h2⟩ := split_page (fun hm => hx (List.mem_cons_of_mem _ hm)) (fun hm => hy (List.mem_cons_of_mem _ hm)) ha hb h.2
    exact ⟨by rw [h.1, h1], h2⟩

private theorem bodies_of : ∀ {ls ls' : List Leaflet}, (∀ l ∈ ls, Leaflet.Clean l) → (∀ l ∈ ls', Leaflet.Clean l) → undressed ls = undressed ls' →
    ls.map (·.body) = ls'.map (·.body)
  | [], [], _, _, _ => rfl
  | [], _ :: _, _, _, h => absurd h (by simp [undressed])
  | _ :: _, [], _, _, h => absurd h (by simp [undressed])
  | l :: ls, l' :: ls', hl, hl', h => by
    have h' : l.body ++ undressed ls = l'.body ++ undressed ls' := (List.cons.inj h).2
    obtain ⟨h1, h2⟩ := split_page (hl l (by simp)).2.1 (hl' l' (by simp)).2.1 (page_starts ls) (page_starts ls') h'
    rw [List.map_cons, List.map_cons, h1, bodies_of (fun x hx => hl x (List.mem_cons_of_mem _ hx)) (fun x hx => hl' x (List.mem_cons_of_mem _ hx)) h2]

/-- C111: with another header and another footer the document has the same number of pages, and on each page the same body. -/
theorem C111_same {h₁ f₁ h₂ f₂ : List Instr} (hh₁ : FontFree ctx.classes h₁) (hf₁ : FontFree ctx.classes f₁) (hh₂ : FontFree ctx.classes h₂)
    (hf₂ : FontFree ctx.classes f₂) {body : List Instr} {pages₁ pages₂ : Nat} {out₁ out₂ : List Mark}
    (h1 : ComesOut (Fpdf.engine p) p { ctx with header := h₁, footer := f₁ } n body pages₁ out₁)
    (h2 : ComesOut (Fpdf.engine p) p { ctx with header := h₂, footer := f₂ } n body pages₂ out₂) :
    pages₁ = pages₂ ∧ ∃ ls₁ ls₂, (∀ l ∈ ls₁, Leaflet.Clean l) ∧ (∀ l ∈ ls₂, Leaflet.Clean l) ∧ out₁ = dressed ls₁ ∧ out₂ = dressed ls₂ ∧
      ls₁.map (·.body) = ls₂.map (·.body) := by
  obtain ⟨ls, c1, _, o1, r, s, e1, _, q1, u1⟩ := C111_body (ctx := { ctx with header := h₁, footer := f₁ }) hh₁ hf₁ h1
  obtain ⟨ls', c2, _, o2, r', s', e2, _, q2, u2⟩ := C111_body (ctx := { ctx with header := h₂, footer := f₂ }) hh₂ hf₂ h2
  have e : some (r, s) = some (r', s') := e1.symm.trans e2
  simp only [Option.some.injEq, Prod.mk.injEq] at e
  obtain ⟨_, rfl⟩ := e
  exact ⟨q1.symm.trans q2, ls, ls', c1, c2, o1, o2, bodies_of c1 c2 (u1.symm.trans u2)⟩

/-- C111: a header and a footer without page breaks can be added to every document that comes out; if their fonts are found, what is on the pages
stays there. -/
theorem C111_adding (hh : FontFree ctx.classes ctx.header) (hf : FontFree ctx.classes ctx.footer) (nh : .pageBreak ∉ ctx.header) (nf : .pageBreak ∉ ctx.footer)
    (hn : 2 ≤ n) {body : List Instr} {pages : Nat} {out : List Mark} (h : ComesOut (Fpdf.engine p) p (bodyOnly ctx) n body pages out) :
    ∃ r s, process (Fpdf.engine p) { ctx with body := body } n (newProcessor (Fpdf.new p)) = some (r, s) ∧ (r.failed = false → s.eng.page = pages ∧
      ∃ ls, (∀ l ∈ ls, Leaflet.Clean l) ∧ s.eng.out = dressed ls ∧ out = undressed ls) := by
  obtain ⟨r, s, hr⟩ := C43_returns (ctx := { ctx with body := body }) (quiet_fpdf p) nh nf (newProcessor (Fpdf.new p))
  refine ⟨r, s, hr n hn, fun hf' => ?_⟩
  obtain ⟨ls, h1, _, h3, r1, s1, h4, _, h5, h6⟩ := C111_body hh hf ⟨r, s, hr n hn, hf', rfl, rfl⟩
  obtain ⟨r2, s2, h7, _, h8, h9⟩ := h
  have e : some (r1, s1) = some (r2, s2) := h4.symm.trans h7
  simp only [Option.some.injEq, Prod.mk.injEq] at e
  obtain ⟨_, rfl⟩ := e
  exact ⟨h5.symm.trans h8, ls, h1, h3, h9.symm.trans h6⟩

private theorem bodies_sub (ls : List Leaflet) : (ls.flatMap (·.body)).Sublist (undressed ls) := by
  induction ls with
  | nil => exact List.Sublist.refl _
  | cons l ls ih =>
    show (l.body ++ ls.flatMap (·.body)).Sublist ((.page :: l.body) ++ undressed ls)
    exact (List.sublist_cons_self _ _).append ih

/-- C111, with C101: in a document with header and footer, with a body of texts, boxes and tables as in C101, no text of the body is put over another one. -/
theorem C111_apart (hh : FontFree ctx.classes ctx.header) (hf : FontFree ctx.classes ctx.footer) {F : Font → Prop} {body : List Instr}
    (hm : Metrics (Fpdf.engine p) ctx.hyphenate p.metric lineHeight) (hsp : Spaces p 0) (hl : 0 ≤ p.margins.left) (ht : 0 ≤ p.margins.top) (hw : 0 ≤ p.width)
    (hF : FontSizes { bodyOnly ctx with body := body } F) (hb : Tidy p { bodyOnly ctx with body := body } F true body) {pages : Nat} {out : List Mark} (h : ComesOut (Fpdf.engine p) p ctx n body pages out) :
    ∃ ls, (∀ l ∈ ls, Leaflet.Clean l) ∧ ls.length = pages ∧ out = dressed ls ∧ (ls.flatMap (·.body)).Pairwise (Separate p) := by
  obtain ⟨ls, h1, h2, h3, r, s, h4, _, _, h5⟩ := C111_body hh hf h
  refine ⟨ls, h1, h2, h3, ?_⟩
  have h6 := C101_apart (ctx := { bodyOnly ctx with body := body }) hm hsp hl ht hw hF hb rfl rfl h4
  rw [h5] at h6
  refine h6.sublist ?_
  exact bodies_sub ls

/-- C111, with C90: in a document with header and footer every text of the body ends above the bottom margin, or stands at the top of its page. -/
theorem C111_above (hh : FontFree ctx.classes ctx.header) (hf : FontFree ctx.classes ctx.footer) (ht : 0 ≤ p.margins.top) {body : List Instr}
    {pages : Nat} {out : List Mark} (h : ComesOut (Fpdf.engine p) p ctx n body pages out) :
    ∃ ls, (∀ l ∈ ls, Leaflet.Clean l) ∧ ls.length = pages ∧ out = dressed ls ∧ ∀ l ∈ ls, ∀ page x y f c t, .text page x y f c t ∈ l.body →
      y + lineHeight f ≤ p.height - p.margins.bottom ∨ y = p.margins.top := by
  obtain ⟨ls, h1, h2, h3, r, s, h4, _, _, h5⟩ := C111_body hh hf h
  refine ⟨ls, h1, h2, h3, fun l hl page x y f c t hm => ?_⟩
  refine C90_body (ctx := { bodyOnly ctx with body := body }) ht rfl rfl h4 (page := page) (x := x) (c := c) (t := t) ?_
  rw [h5]
  exact (bodies_sub ls).subset (List.mem_flatMap.mpr ⟨l, hl, hm⟩)

/-! ### Examples -/

private def plain : Styled := ⟨[], []⟩
private def red : Styled := ⟨[[([5, 1], .rgb ⟨255, 0, 0⟩)]], []⟩

/-- A line at the top and a red one at the bottom of each page. -/
private def exCtx : Ctx :=
  { classes := [], header := [.setY 2, .text plain [.textBlock b!"page {cp}"]], footer := [.setY 95, .text red [.textBlock b!"end"]], body := [],
    hyphenate := exHyph, resolve := id, describe := fun _ => none }

private def exBody : List Instr := [.text plain [.textBlock b!"one"], .lineFeed 1, .text plain [.textBlock b!"two"], .pageBreak, .text plain [.textBlock b!"three"]]

private structure Placed where
  page : Nat
  x : ℚ
  y : ℚ
  size : ℚ
  text : Str
deriving DecidableEq

private def run (ctx : Ctx) : Option (Bool × List Placed) :=
  (process (Fpdf.engine exPaper) { ctx with body := exBody } 2 (newProcessor (Fpdf.new exPaper))).map fun x => (x.1.failed,
    x.2.eng.out.filterMap fun | .text n x y f _ t => some ⟨n, x, y, f.pointSize, t⟩ | _ => none)

/-- With header and footer, and without them. -/
example : run exCtx = some (false, [⟨1, 10, 2, 12, b!"page"⟩, ⟨1, 18, 2, 12, b!" 1"⟩, ⟨1, 10, 10, 12, b!"one"⟩, ⟨1, 10, 247 / 12, 12, b!"two"⟩, ⟨1, 10, 95, 12, b!"end"⟩,
    ⟨2, 10, 2, 12, b!"page"⟩, ⟨2, 18, 2, 12, b!" 2"⟩, ⟨2, 10, 10, 12, b!"three"⟩, ⟨2, 10, 95, 12, b!"end"⟩]) := by
  decide +kernel

example : run (bodyOnly exCtx) = some (false, [⟨1, 10, 10, 12, b!"one"⟩, ⟨1, 10, 247 / 12, 12, b!"two"⟩, ⟨2, 10, 10, 12, b!"three"⟩]) := by
  decide +kernel

/-- With a size in the header the body comes out differently: its texts are larger, and the second one is further down. -/
example : run { exCtx with header := [.text ⟨[[([0, 1], .flt 20)]], []⟩ [.textBlock b!"big"]], footer := [] } = some (false, [⟨1, 10, 10, 20, b!"big"⟩,
    ⟨1, 10, 10, 20, b!"one"⟩, ⟨1, 10, 995 / 36, 20, b!"two"⟩, ⟨2, 10, 10, 20, b!"big"⟩, ⟨2, 10, 10, 20, b!"three"⟩]) := by
  decide +kernel

private theorem line_free {st : Styled} {y : ℚ} {w : Str} (h : st = plain ∨ st = red) : FontFree [] [.setY y, .text st [.textBlock w]] := by
  intro i hi st' hst m hm sty
  simp only [List.mem_cons, List.not_mem_nil, or_false] at hi
  rcases hi with rfl | rfl
  · cases hst
  · cases hst with
    | text =>
      rcases h with rfl | rfl
      · cases hm with
        | inline h => simp [plain] at h
        | own h => simp [plain] at h
        | selector h => simp [plain] at h
      · cases hm with
        | inline h =>
          simp only [red, List.mem_singleton] at h
          subst h
          rfl
        | own h => simp [red] at h
        | selector h => simp [red] at h
    | textIn h h' =>
      simp only [List.mem_singleton] at h
      subst h
      cases h'

/-- The hypotheses of `C111_body` and `C111_adding` hold here. -/
example : FontFree exCtx.classes exCtx.header ∧ FontFree exCtx.classes exCtx.footer ∧ .pageBreak ∉ exCtx.header ∧ .pageBreak ∉ exCtx.footer ∧
    (∃ pages out, ComesOut (Fpdf.engine exPaper) exPaper exCtx 2 exBody pages out) ∧
    ∃ pages out, ComesOut (Fpdf.engine exPaper) exPaper (bodyOnly exCtx) 2 exBody pages out := by
  refine ⟨line_free (Or.inl rfl), line_free (Or.inr rfl), by simp [exCtx], by simp [exCtx], ?_, ?_⟩
  · have h : (process (Fpdf.engine exPaper) { exCtx with body := exBody } 2 (newProcessor (Fpdf.new exPaper))).map (fun x => x.1.failed) = some false := by
      decide +kernel
    obtain ⟨q, h1, h2⟩ := Option.map_eq_some_iff.mp h
    exact ⟨_, _, q.1, q.2, h1, h2, rfl, rfl⟩
  · have h : (process (Fpdf.engine exPaper) { bodyOnly exCtx with body := exBody } 2 (newProcessor (Fpdf.new exPaper))).map (fun x => x.1.failed) = some false := by
      decide +kernel
    obtain ⟨q, h1, h2⟩ := Option.map_eq_some_iff.mp h
    exact ⟨_, _, q.1, q.2, h1, h2, rfl, rfl⟩

/-- Those of `C111_same`, for other lines at the top and at the bottom. -/
example : FontFree exCtx.classes [.setY 1, .text red [.textBlock b!"Title"]] ∧ ∃ pages out, ComesOut (Fpdf.engine exPaper) exPaper
    { exCtx with header := [.setY 1, .text red [.textBlock b!"Title"]], footer := exCtx.footer } 2 exBody pages out := by
  refine ⟨line_free (Or.inr rfl), ?_⟩
  have h : (process (Fpdf.engine exPaper) { exCtx with header := [.setY 1, .text red [.textBlock b!"Title"]], footer := exCtx.footer, body := exBody } 2
      (newProcessor (Fpdf.new exPaper))).map (fun x => x.1.failed) = some false := by
    decide +kernel
  obtain ⟨q, h1, h2⟩ := Option.map_eq_some_iff.mp h
  exact ⟨_, _, q.1, q.2, h1, h2, rfl, rfl⟩

private theorem exBody_tidy : Tidy exPaper { bodyOnly exCtx with body := exBody } (· = defaultStyle.font) true exBody := by
  have text : ∀ w, TextStacks { bodyOnly exCtx with body := exBody } (· = defaultStyle.font) plain [.textBlock w] := by
    intro w f hf
    subst hf
    exact ⟨by decide +kernel, fun st' t hm => absurd hm (by simp)⟩
  exact ⟨text _, by norm_num, text _, text _, trivial⟩

private theorem exBody_fonts : FontSizes { bodyOnly exCtx with body := exBody } (· = defaultStyle.font) := by
  have key : ∀ i ∈ exBody, ∀ st, StyleIn st i → st = plain := by
    intro i hi st hs
    simp only [exBody, List.mem_cons, List.not_mem_nil, or_false] at hi
    have text : ∀ {w}, StyleIn st (.text plain [.textBlock w]) → st = plain := by
      intro w hs
      cases hs with
      | text => rfl
      | textIn h h' =>
        simp only [List.mem_singleton] at h
        subst h
        cases h'
    rcases hi with rfl | rfl | rfl | rfl | rfl
    · exact text hs
    · nomatch hs
    · exact text hs
    · nomatch hs
    · exact text hs
  exact ⟨rfl, fun i hi st hs sty h => by rw [key i (by simpa [bodyOnly] using hi) st hs]; exact h,
    fun i hi st hs sel sty h => by rw [key i (by simpa [bodyOnly] using hi) st hs]; exact h, fun f hf => by rw [hf]; decide +kernel⟩

/-- `C111_apart` and `C111_above` apply to it. -/
example {pages : Nat} {out : List Mark} (h : ComesOut (Fpdf.engine exPaper) exPaper exCtx 2 exBody pages out) :
    (∃ ls, (∀ l ∈ ls, Leaflet.Clean l) ∧ ls.length = pages ∧ out = dressed ls ∧ (ls.flatMap (·.body)).Pairwise (Separate exPaper)) ∧
    ∃ ls, (∀ l ∈ ls, Leaflet.Clean l) ∧ ls.length = pages ∧ out = dressed ls ∧ ∀ l ∈ ls, ∀ page x y f c t, .text page x y f c t ∈ l.body →
      y + lineHeight f ≤ exPaper.height - exPaper.margins.bottom ∨ y = exPaper.margins.top := by
  have sp : Spaces exPaper 0 := ⟨exPaper_spaces.nonneg, fun f w => by have := exPaper_spaces.space f w; linarith, exPaper_spaces.wide, exPaper_spaces.trims⟩
  exact ⟨C111_apart (line_free (Or.inl rfl)) (line_free (Or.inr rfl)) metrics_example sp (by decide +kernel) (by decide +kernel) (by decide +kernel)
    exBody_fonts exBody_tidy h, C111_above (line_free (Or.inl rfl)) (line_free (Or.inr rfl)) (by decide +kernel) h⟩

end Verif.Props
