import Verif.Proofs.Agree
import Verif.Spec.Margins
/-
The engine with the line breaks of the library, where every text fits on its line.
-/
namespace Verif.Proofs
open Verif.Go Verif.Model Verif.Spec

variable {E : Type} {α β : Type}

/-! ### The processor asks the engine for texts only through its calls -/

section
variable (eng : Engine E) (w : Str → E → Prog E Unit) (ctx : Ctx) (c : Calls E)

/-- The engine with another way to write. -/
abbrev Engine.withWrite : Engine E := { eng with writeText := w }

theorem linesLoop_with (cs : Classes) (width : ℚ) (sty : Styles) : ∀ (iss : List Instr) (acc : List TextLine × TextLine) (s : PState E),
    linesLoop (Engine.withWrite eng w) cs width sty iss acc s = linesLoop eng cs width sty iss acc s := by
  intro iss
  induction iss with
  | nil => intro acc s; rfl
  | cons is iss ih =>
    intro acc s
    have key : ∀ (t : Str) (isty : Styles), (if norm eng s.eng t = [] then linesLoop (Engine.withWrite eng w) cs width sty iss acc s
        else linesLoop (Engine.withWrite eng w) cs width sty iss ((split 32 (norm eng s.eng t)).foldl
          (wrapWord (fun w => eng.textWidth w (changeFont eng isty.font s).eng) width isty) acc) (changeFont eng isty.font s)) =
        (if norm eng s.eng t = [] then linesLoop eng cs width sty iss acc s
        else linesLoop eng cs width sty iss ((split 32 (norm eng s.eng t)).foldl
          (wrapWord (fun w => eng.textWidth w (changeFont eng isty.font s).eng) width isty) acc) (changeFont eng isty.font s)) := by
      intro t isty
      rw [ih, ih]
    cases is with
    | textBlock t => exact key t sty
    | paragraph st t => exact key t (st.mutatedStyles cs sty)
    | lineBreak => exact ih _ _
    | _ => exact ih _ _

theorem linesLoopHyph_with (hyph : Str → List Str) (cs : Classes) (width : ℚ) (sty : Styles) : ∀ (iss : List Instr) (acc : List TextLine × TextLine)
    (s : PState E), linesLoopHyph (Engine.withWrite eng w) hyph cs width sty iss acc s = linesLoopHyph eng hyph cs width sty iss acc s := by
  intro iss
  induction iss with
  | nil => intro acc s; rfl
  | cons is iss ih =>
    intro acc s
    cases is <;> first | exact ih _ _ | rfl

theorem textLines_with (cs : Classes) (iss : List Instr) (width : ℚ) (sty : Styles) :
    textLines (Engine.withWrite eng w) cs iss width sty = textLines eng cs iss width sty := by
  funext s
  unfold textLines
  rw [linesLoop_with]

theorem textLinesHyph_with (hyph : Str → List Str) (cs : Classes) (iss : List Instr) (width : ℚ) (sty : Styles) :
    textLinesHyphenated (Engine.withWrite eng w) hyph cs iss width sty = textLinesHyphenated eng hyph cs iss width sty := by
  funext s
  unfold textLinesHyphenated
  rw [linesLoopHyph_with]

theorem textHeight_with (cs : Classes) (iss : List Instr) (width : ℚ) (sty : Styles) :
    textHeight (Engine.withWrite eng w) cs iss width sty = textHeight eng cs iss width sty := by
  funext s
  unfold textHeight
  rw [textLines_with]
  
theorem textHeightHyph_with (hyph : Str → List Str) (cs : Classes) (iss : List Instr) (width : ℚ) (sty : Styles) :
    textHeightHyphenated (Engine.withWrite eng w) hyph cs iss width sty = textHeightHyphenated eng hyph cs iss width sty := by
  funext s
  unfold textHeightHyphenated
  rw [textLinesHyph_with]

theorem textHeightFnc_with : textHeightFnc (Engine.withWrite eng w) ctx = textHeightFnc eng ctx := by
  funext sty iss width s
  unfold textHeightFnc
  rw [textHeightHyph_with, textHeight_with]

theorem writeItems_with : ∀ (items : List TextItem), writeItems (Engine.withWrite eng w) c items = writeItems eng c items
  | [] => rfl
  | i :: is => by
    unfold writeItems
    rw [writeItems_with is]
    rfl

theorem writeSpaced_with (gap : ℚ) : ∀ (items : List TextItem), writeSpaced (Engine.withWrite eng w) c gap items = writeSpaced eng c gap items
  | [] => rfl
  | i :: is => by
    unfold writeSpaced
    rw [writeSpaced_with gap is]
    rfl

theorem writeLines_with (sty : Styles) (x width : ℚ) : ∀ (lines : List TextLine),
    writeLines (Engine.withWrite eng w) c sty x width lines = writeLines eng c sty x width lines
  | [] => rfl
  | l :: ls => by
    unfold writeLines
    rw [writeLines_with sty x width ls, writeItems_with]
    rfl

theorem writeHyphLines_with (sty : Styles) (x width : ℚ) : ∀ (lines : List TextLine),
    writeHyphLines (Engine.withWrite eng w) c sty x width lines = writeHyphLines eng c sty x width lines
  | [] => rfl
  | l :: ls => by
    unfold writeHyphLines writeHyphLine
    simp only [writeHyphLines_with sty x width ls, writeItems_with, writeSpaced_with]

theorem writeTextFnc_with (iss : List Instr) (width : ℚ) (sty : Styles) :
    writeTextFnc (Engine.withWrite eng w) ctx c iss width sty = writeTextFnc eng ctx c iss width sty := by
  unfold writeTextFnc writeTextHyphenated Model.writeText
  simp only [textLines_with, textLinesHyph_with, writeLines_with, writeHyphLines_with]

theorem renderText_with (st : Styled) (iss : List Instr) : renderText (Engine.withWrite eng w) ctx c st iss = renderText eng ctx c st iss := by
  unfold renderText
  simp only [writeTextFnc_with]
  rfl

theorem boxHeight_with (sty : Styles) (iss : List Instr) (width : ℚ) :
    boxHeight (Engine.withWrite eng w) ctx sty iss width = boxHeight eng ctx sty iss width := by
  unfold boxHeight
  simp only [textHeightFnc_with]

theorem renderTextBox_with (st : Styled) (iss : List Instr) (pa : Area) :
    renderTextBox (Engine.withWrite eng w) ctx c st iss pa = renderTextBox eng ctx c st iss pa := by
  unfold renderTextBox
  simp only [writeTextFnc_with, boxHeight_with]
  rfl

theorem textBoxHeight_with (st : Styled) (iss : List Instr) (pa : Area) :
    textBoxHeight (Engine.withWrite eng w) ctx st iss pa = textBoxHeight eng ctx st iss pa := by
  unfold textBoxHeight
  simp only [boxHeight_with]
  rfl

theorem renderCellItems_with (v : Str) (pa : Area) : ∀ (iss : List Instr),
    renderCellItems (Engine.withWrite eng w) ctx c v pa iss = renderCellItems eng ctx c v pa iss := by
  intro iss
  induction iss with
  | nil => rfl
  | cons is iss ih =>
    cases is <;> simp only [renderCellItems, ih, textBoxHeight_with, renderTextBox_with]
    rfl

theorem renderCell_with (pa : Area) (sty : Styles) (iss : List Instr) :
    renderCell (Engine.withWrite eng w) ctx c pa sty iss = renderCell eng ctx c pa sty iss := by
  unfold renderCell renderCellText
  simp only [renderCellItems_with, writeTextFnc_with, textHeight_with]
  rfl

theorem tableOps_with (t : Tab) : tableOps (Engine.withWrite eng w) ctx c t = tableOps eng ctx c t := by
  unfold tableOps
  simp only [renderCell_with]

theorem renderTable_with (st : Styled) (rh : Int) (rows : List TableRow) :
    renderTable (Engine.withWrite eng w) ctx c st rh rows = renderTable eng ctx c st rh rows := by
  unfold renderTable
  simp only [tableOps_with, textHeightFnc_with]
  rfl

theorem processInstrs_with : ∀ (iss : List Instr), processInstrs (Engine.withWrite eng w) ctx c iss = processInstrs eng ctx c iss
  | [] => rfl
  | i :: is => by
    unfold processInstrs
    rw [processInstrs_with is]
    congr 1
    cases i <;> simp only [processInstr, renderTextBox_with, renderText_with, renderTable_with]
    all_goals rfl

theorem callback_with (iss : List Instr) : callback (Engine.withWrite eng w) ctx c iss = callback eng ctx c iss := by
  unfold callback
  rw [processInstrs_with]

end

/-! ### A text that fits -/

open Fpdf

theorem writeLoop_fits (p : Paper) (cw : Str → ℚ) (h wmax : ℚ) (e : Fpdf) (hnn : ∀ c, 0 ≤ cw c) : ∀ (rest line : List Str) (l : ℚ) (first : Bool),
    [10] ∉ rest → l + (rest.map cw).sum ≤ wmax → line ++ rest ≠ [] →
    writeLoop p cw h line rest l wmax first e = cell p h (l + (rest.map cw).sum) false (line ++ rest).flatten e
  | [], line, l, first, _, _, hne => by
    rw [writeLoop]
    simp only [List.append_nil] at hne
    rw [if_neg hne]
    simp
  | c :: rest, line, l, first, h10, hw, hne => by
    rw [writeLoop]
    simp only [List.map_cons, List.sum_cons] at hw ⊢
    have h0 : 0 ≤ (rest.map cw).sum := List.sum_nonneg (by intro x hx; obtain ⟨y, _, rfl⟩ := List.mem_map.mp hx; exact hnn y)
    rw [if_neg (by intro e; exact h10 (by simp [e])), if_neg (by push Not; linarith)]
    rw [writeLoop_fits p cw h wmax e hnn rest (line ++ [c]) (l + cw c) first (by intro hm; exact h10 (List.mem_cons_of_mem _ hm)) (by linarith) (by simp)]
    rw [List.append_assoc, add_assoc]
    rfl

theorem filter_cr {t : Str} (h : (13 : UInt8) ∉ t) : t.filter (· != 13) = t := by
  rw [List.filter_eq_self]
  intro a ha
  simp only [bne_iff_ne, ne_eq]
  rintro rfl
  exact h ha

theorem cell_put (p : Paper) (t : Str) (e : Fpdf) : cell p (fontHeight e) (p.metric e.font t) false t e = Fpdf.writeText p t e := by
  unfold cell Fpdf.writeText
  have : ∀ e' : Fpdf, e'.font = e.font → place (fontHeight e) (p.metric e.font t) false t e' = put p t e' := by
    intro e' h
    unfold place put
    rw [h]
    simp
  split
  · unfold Fpdf.addPage turn
    split
    · rfl
    · rfl
  · rw [this e rfl]

theorem libWrite_fits {p : Paper} {g : Glyphs} (ha : Adds p g) {t : Str} {e : Fpdf} (h : FitsLine p g e.x e.font t) :
    libWrite p g (fontHeight e) t e = Fpdf.writeText p t e := by
  obtain ⟨h1, h2, h3, h4, h5⟩ := h
  unfold libWrite
  simp only [filter_cr h4]
  rw [if_neg h2, writeLoop_fits p (p.metric e.font) (fontHeight e) (Fpdf.room p e.x) e (ha.nonneg e.font)]
  · rw [zero_add, ← ha.metric, List.nil_append, ha.flatten, cell_put]
  · intro hm
    apply h3
    rw [← ha.flatten e.font t]
    exact List.mem_flatten.mpr ⟨_, hm, by simp⟩
  · rw [zero_add, ← ha.metric]
    unfold Fpdf.room
    linarith
  · rw [List.nil_append]
    intro hn
    apply h1
    rw [← ha.flatten e.font t, hn]
    rfl

/-! ### Every text on the pages fits -/

/-- All texts so far fit. -/
def OutFitsLine (p : Paper) (g : Glyphs) (e : Fpdf) : Prop := ∀ m ∈ e.out, MarkFitsLine p g m

theorem OutFitsLine.prev {p : Paper} {g : Glyphs} {e e' : Fpdf} (h : OutFitsLine p g e') (hs : ∀ m ∈ e.out, m ∈ e'.out) : OutFitsLine p g e :=
  fun m hm => h m (hs m hm)

theorem turn_back (p : Paper) (g : Glyphs) (f : Font) (col : RGB) (e e0 : Fpdf) (h : ∀ m ∈ e0.out, m ∈ e.out) (k : Fpdf → Unit → Prog Fpdf Unit)
    (hk : ∀ e' : Fpdf, ProgBack (OutFitsLine p g) e' (k { e' with font := f, color := col, inHeaderFooter := false } ())) :
    ProgBack (OutFitsLine p g) e0 (andThen (turn p f col e) k) := by
  unfold turn
  simp only [andThen, ProgBack]
  exact ⟨fun hg => hg.prev fun m hm => List.mem_append_left _ (h m hm), fun e2 => hk e2⟩

theorem addPage_back (p : Paper) (g : Glyphs) (e : Fpdf) (k : Fpdf → Unit → Prog Fpdf Unit)
    (hk : ∀ e' : Fpdf, ProgBack (OutFitsLine p g) e' (k { e' with font := e.font, color := e.color, inHeaderFooter := false } ())) :
    ProgBack (OutFitsLine p g) e (andThen (Fpdf.addPage p e) k) := by
  unfold Fpdf.addPage
  split
  · simp only [andThen, ProgBack]
    exact ⟨fun hg => hg.prev fun m hm => hm, fun e2 => turn_back p g _ _ _ _ (fun _ hm => hm) k hk⟩
  · exact turn_back p g _ _ _ _ (fun m hm => hm) k hk

theorem andThen_end {E α : Type} : ∀ (pr : Prog E α), andThen pr .done = pr
  | .done _ _ => rfl
  | .header e k => by
    simp only [andThen]
    congr 1; funext e'; exact andThen_end (k e')
  | .footer e k => by
    simp only [andThen]
    congr 1; funext e'; exact andThen_end (k e')

theorem put_back (p : Paper) (g : Glyphs) (t : Str) (e : Fpdf) (h : OutFitsLine p g (put p t e)) : OutFitsLine p g e :=
  h.prev fun m hm => List.mem_append_left _ hm

theorem writeText_back (p : Paper) (g : Glyphs) (t : Str) (e : Fpdf) : ProgBack (OutFitsLine p g) e (Fpdf.writeText p t e) := by
  unfold Fpdf.writeText
  split
  · refine addPage_back p g e _ fun e' => ?_
    simp only [ProgBack]
    intro hg
    exact (put_back _ _ _ _ hg).prev fun m hm => hm
  · exact put_back p g t e

/-- What was written is on the pages. -/
theorem runProg_written {hdr ftr : M Fpdf Unit} {p : Paper} {t : Str} {e : Fpdf} {s s' : PState Fpdf} {a : Unit}
    (h : runProg hdr ftr (Fpdf.writeText p t e) s = some (a, s')) : ∃ page y col, Mark.text page e.x y e.font col t ∈ s'.eng.out := by
  have fin : ∀ (e1 : Fpdf) (s1 : PState Fpdf), e1.x = e.x → e1.font = e.font → runProg hdr ftr (.done (put p t e1) ()) s1 = some (a, s') →
      ∃ page y col, Mark.text page e.x y e.font col t ∈ s'.eng.out := by
    intro e1 s1 hx hf hr
    simp only [runProg, Option.some.injEq, Prod.mk.injEq] at hr
    refine ⟨e1.page, e1.y, e1.color, ?_⟩
    rw [← hr.2]
    simp [put, hx, hf]
  have hturn : ∀ (e0 : Fpdf) (s1 : PState Fpdf), runProg hdr ftr (andThen (turn p e.font e.color e0) fun e' _ => .done (put p t { e' with x := e.x }) ()) s1
      = some (a, s') → ∃ page y col, Mark.text page e.x y e.font col t ∈ s'.eng.out := by
    intro e0 s1 hr
    simp only [turn, andThen, runProg] at hr
    split at hr
    · exact absurd hr (by simp)
    · rename_i s2 _
      exact fin { s2.eng with font := e.font, color := e.color, inHeaderFooter := false, x := e.x } s2 rfl rfl hr
  unfold Fpdf.writeText at h
  split at h
  · unfold Fpdf.addPage at h
    split at h
    · simp only [andThen] at h
      unfold runProg at h
      split at h
      · exact absurd h (by simp)
      · exact hturn _ _ h
    · exact hturn _ _ h
  · exact fin e s rfl rfl h

variable {p : Paper} {g : Glyphs} {ctx : Ctx}

theorem back_of {c c' : Calls Fpdf} (hw : ∀ t, Ag (OutFitsLine p g) (c.writeText t) (c'.writeText t)) (ha : Ag (OutFitsLine p g) c.addPage c'.addPage) :
    Back (engine p) (OutFitsLine p g) c c' where
  setX x e h := h
  setY y e h := h
  lineFeed n e h := h.prev fun m hm => List.mem_append_left _ hm
  font f e h := h
  color col e h := h
  image src x y w hh e h := h.prev fun m hm => List.mem_append_left _ hm
  draw cmd e h := h.prev fun m hm => by
    show m ∈ (Fpdf.draw cmd e).out
    have : (Fpdf.draw cmd e).out = e.out ++ [.draw e.page cmd] := by unfold Fpdf.draw; cases cmd <;> rfl
    rw [this]
    exact List.mem_append_left _ hm
  write := hw
  add := ha

theorem callsAt_back (hadd : Adds p g) : ∀ n, Back (engine p) (OutFitsLine p g) (callsAt (engine p) ctx n) (callsAt (fullEngine p g) ctx n)
  | 0 => back_of (fun _ => Ag.none) Ag.none
  | n + 1 => by
    have ih := callsAt_back hadd n
    have hh : ∀ iss, Ag (OutFitsLine p g) (callback (engine p) ctx (callsAt (engine p) ctx n) iss)
        (callback (fullEngine p g) ctx (callsAt (fullEngine p g) ctx n) iss) := by
      intro iss
      have : callback (fullEngine p g) ctx (callsAt (fullEngine p g) ctx n) iss = callback (engine p) ctx (callsAt (fullEngine p g) ctx n) iss :=
        callback_with _ _ _ _ _
      rw [this]
      exact callback_ag ih iss
    refine back_of (fun t => ?_) ?_
    · intro s a s' hr hg
      have hr' : runProg (callback (engine p) ctx (callsAt (engine p) ctx n) ctx.header) (callback (engine p) ctx (callsAt (engine p) ctx n) ctx.footer)
          (Fpdf.writeText p t s.eng) s = some (a, s') := hr
      obtain ⟨page, y, col, hm⟩ := runProg_written hr'
      have hf : FitsLine p g s.eng.x s.eng.font t := hg _ hm
      obtain ⟨h1, h2⟩ := runProg_ag (hh ctx.header) (hh ctx.footer) _ s.eng (writeText_back p g t s.eng) s a s' hr' hg
      refine ⟨?_, h2⟩
      show runProg (callback (fullEngine p g) ctx (callsAt (fullEngine p g) ctx n) ctx.header)
        (callback (fullEngine p g) ctx (callsAt (fullEngine p g) ctx n) ctx.footer) (libWrite p g (fontHeight s.eng) t s.eng) s = some (a, s')
      rw [libWrite_fits hadd hf]
      exact h1
    · intro s a s' hr hg
      refine runProg_ag (hh ctx.header) (hh ctx.footer) (Fpdf.addPage p s.eng) s.eng ?_ s a s' hr hg
      have := addPage_back p g s.eng .done fun e' => (fun h => h : OutFitsLine p g _ → OutFitsLine p g e')
      rwa [andThen_end] at this

theorem process_full (hadd : Adds p g) (n : Nat) : Ag (OutFitsLine p g) (process (engine p) ctx n) (process (fullEngine p g) ctx n) := by
  have hb := callsAt_back (p := p) (g := g) (ctx := ctx) hadd
  have hp : processInstrs (fullEngine p g) ctx (callsAt (fullEngine p g) ctx n) ctx.body = processInstrs (engine p) ctx (callsAt (fullEngine p g) ctx n) ctx.body :=
    processInstrs_with _ _ _ _ _
  unfold process
  rw [hp]
  refine (Ag.upd (f := (engine p).setPageCountAlias _) fun e h => (h : OutFitsLine p g e)).bind fun _ => Ag.get.bind fun s => (changeFontM_ag (hb n) _).bind fun _ => (hb n).add.bind fun _ =>
    (processInstrs_ag (hb n) _).bind fun _ => (Ag.ask _).bind fun failed => Ag.ite (p := failed = true) (fun _ => Ag.pure _) fun _ => ?_
  have hh : ∀ iss, Ag (OutFitsLine p g) (callback (engine p) ctx (callsAt (engine p) ctx (n - 1)) iss)
      (callback (fullEngine p g) ctx (callsAt (fullEngine p g) ctx (n - 1)) iss) := by
    intro iss
    have : callback (fullEngine p g) ctx (callsAt (fullEngine p g) ctx (n - 1)) iss = callback (engine p) ctx (callsAt (fullEngine p g) ctx (n - 1)) iss :=
      callback_with _ _ _ _ _
    rw [this]
    exact callback_ag (hb (n - 1)) iss
  intro s a s' hr hg
  refine runProg_ag (hh ctx.header) (hh ctx.footer) (Fpdf.writePDF s.eng) s.eng ?_ s a s' hr hg
  exact ⟨fun h => h, fun e2 h => h⟩

/-! ### The same with a bound on the number of steps, to compute examples -/

namespace Bounded

/-- `writeLoop` with at most `n` steps. -/
def loop (p : Paper) (cw : Str → ℚ) (h : ℚ) : Nat → List Str → List Str → ℚ → ℚ → Bool → Fpdf → Prog Fpdf Unit
  | 0, _, _, _, _, _, e => .done e ()
  | n + 1, line, rest, l, wmax, first, e =>
    match rest with
    | [] => if line = [] then .done e () else cell p h l false line.flatten e
    | c :: rest' =>
      let next (e' : Fpdf) (r : List Str) : Prog Fpdf Unit :=
        if first then loop p cw h n [] r 0 (Fpdf.room p p.margins.left) false { e' with x := p.margins.left } else loop p cw h n [] r 0 wmax false e'
      if c = [10] then andThen (cell p h wmax true line.flatten e) fun e' _ => next e' rest'
      else if l + cw c > wmax then
        match lastSpace (line ++ [c]) with
        | some (before, after) => andThen (cell p h wmax true before.flatten e) fun e' _ => next e' (after ++ rest')
        | none =>
          if e.x > p.margins.left then
            loop p cw h n (line ++ [c]) rest' (l + cw c) (Fpdf.room p p.margins.left) false { e with x := p.margins.left, y := e.y + h }
          else if line = [] then andThen (cell p h wmax true c e) fun e' _ => next e' rest'
          else andThen (cell p h wmax true line.flatten e) fun e' _ => next e' (c :: rest')
      else loop p cw h n (line ++ [c]) rest' (l + cw c) wmax first e

/-- `writeLoop` needs at most this many steps. -/
def steps (line rest : List Str) : Nat := (line.length + rest.length) * (line.length + rest.length + 1) + rest.length + 1

theorem steps_less {a b c d : List Str} (h : a.length + b.length < c.length + d.length) : steps a b < steps c d := by
  unfold steps
  have h1 : (a.length + b.length) * (a.length + b.length + 1) + b.length ≤ (a.length + b.length) * (a.length + b.length + 2) := by nlinarith
  have h2 : (a.length + b.length) * (a.length + b.length + 2) < (c.length + d.length) * (c.length + d.length + 1) := by nlinarith
  omega

theorem loop_eq (p : Paper) (cw : Str → ℚ) (h : ℚ) : ∀ (n : Nat) (line rest : List Str) (l wmax : ℚ) (first : Bool) (e : Fpdf), steps line rest ≤ n →
    loop p cw h n line rest l wmax first e = writeLoop p cw h line rest l wmax first e
  | 0, line, rest, l, wmax, first, e, hn => by unfold steps at hn; omega
  | n + 1, line, rest, l, wmax, first, e, hn => by
    have down : ∀ (a b : List Str), a.length + b.length < line.length + rest.length → ∀ l w f e,
        loop p cw h n a b l w f e = writeLoop p cw h a b l w f e := by
      intro a b hab l w f e
      have := steps_less hab
      exact loop_eq p cw h n a b l w f e (by omega)
    have step : ∀ c rest', rest = c :: rest' → ∀ l w f e, loop p cw h n (line ++ [c]) rest' l w f e = writeLoop p cw h (line ++ [c]) rest' l w f e := by
      intro c rest' hr l w f e
      refine loop_eq p cw h n _ _ l w f e ?_
      have : line.length + rest.length = (line ++ [c]).length + rest'.length := by rw [hr]; simp; omega
      unfold steps at hn ⊢
      rw [← this]
      rw [hr] at hn ⊢
      simp only [List.length_cons] at hn ⊢
      omega
    rw [loop.eq_def, writeLoop.eq_def]
    cases rest with
    | nil => rfl
    | cons c rest' =>
      simp only
      have d1 := down [] rest' (by simp; omega)
      have s1 := step c rest' rfl
      split
      · simp only [d1]
      · split
        · cases hs : lastSpace (line ++ [c]) with
          | some ab =>
            obtain ⟨a, b⟩ := ab
            have hl := lastSpace_length hs
            have d2 := down [] (b ++ rest') (by simp at hl ⊢; omega)
            simp only [d2]
          | none =>
            simp only
            split
            · exact s1 _ _ _ _
            · split
              · simp only [d1]
              · rename_i hne
                have hpos : 0 < line.length := List.length_pos_of_ne_nil hne
                have d3 := down [] (c :: rest') (by simp; omega)
                simp only [d3]
        · exact s1 _ _ _ _

/-- `libWrite`, computed. -/
def write (p : Paper) (g : Glyphs) (h : ℚ) (t : Str) (e : Fpdf) : Prog Fpdf Unit :=
  let s := t.filter (· != 13)
  if g.utf8 e.font = true ∧ s = [32] then .done { e with x := e.x + p.metric e.font s } ()
  else loop p (p.metric e.font) h (steps [] (g.cut e.font s)) [] (g.cut e.font s) 0 (Fpdf.room p e.x) true e

theorem full_eq (p : Paper) (g : Glyphs) : fullEngine p g = { engine p with writeText := fun t e => write p g (fontHeight e) t e } := by
  have : (fun (t : Str) (e : Fpdf) => libWrite p g (fontHeight e) t e) = fun t e => write p g (fontHeight e) t e := by
    funext t e
    unfold write libWrite
    simp only [loop_eq p _ _ _ _ _ _ _ _ _ (le_refl _)]
  unfold fullEngine
  rw [this]

end Bounded
end Verif.Proofs
