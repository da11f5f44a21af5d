import Verif.Proofs.Matters
import Verif.Props.Alike
import Verif.Props.Origin
import Verif.Props.Content
/-
Property C86: which style properties have an effect (/repo/process.go, /repo/text.go, /repo/text-hyph.go, /repo/table.go, /repo/image.go,
/repo/draw.go).
-/
namespace Verif.Props
open Verif.Go Verif.Model Verif.Spec Verif.Proofs

/-- C86: documents that differ only in styles, and only in properties that do not matter for the element that has them, are processed the
same way, by every engine, from every state, with every hyphenator and whatever files there are. -/
theorem C86_process {E : Type} (eng : Engine E) (hyphenate : Str → List Str) (resolve : Str → Str) (images : Str → Option ImageDesc)
    {d d' : Document} (h : SameInEffect d d') (n : Nat) :
    process eng (ctxOf hyphenate resolve images d) n = process eng (ctxOf hyphenate resolve images d') n :=
  (process_agree (sees_matters eng) (ctx := ctxOf hyphenate resolve images d) (ctx' := ctxOf hyphenate resolve images d')
    ⟨rfl, rfl, rfl, h.header, h.footer, h.body⟩ n).symm

/-! ### Styles that agree -/

/-- A mutator works on each property for itself. -/
theorem mutate_same {k : StyledKind → Prp → Bool} {e : StyledKind} (m : Mutator) {s s' : Styles} (h : SameBy k e s s') : SameBy k e (mutate m s) (mutate m s') := by
  induction m generalizing s s' with
  | nil => exact h
  | cons f m ih =>
    refine ih (s := (setAt f.1 f.2 s).getD s) (s' := (setAt f.1 f.2 s').getD s') fun p hp => ?_
    rcases setAt_get f.1 f.2 p with ⟨w, hw⟩ | hk
    · rw [hw, hw]
    · rw [hk, hk, h p hp]

private theorem mutators_same {k : StyledKind → Prp → Bool} {e : StyledKind} : ∀ (ms : List Mutator) {s s' : Styles}, SameBy k e s s' →
    SameBy k e (ms.foldl (fun s m => mutate m s) s) (ms.foldl (fun s m => mutate m s) s')
  | [], _, _, h => h
  | m :: ms, _, _, h => mutators_same ms (mutate_same m h)

private theorem classes_same {k : StyledKind → Prp → Bool} {e : StyledKind} (cs : Classes) : ∀ (use : List Str) {s s' : Styles}, SameBy k e s s' →
    SameBy k e (cs.mutate use s) (cs.mutate use s')
  | [], _, _, h => h
  | cn :: use, s, s', h => by
      simp only [Classes.mutate]
      cases mapGet cn cs with
      | none => exact classes_same cs use h
      | some c => exact classes_same cs use (mutate_same c.mutator h)

private theorem selected_same {k : StyledKind → Prp → Bool} {e : StyledKind} (cs : Classes) (sel : Str) : ∀ (use : List Str) {s s' : Styles}, SameBy k e s s' →
    SameBy k e (cs.mutateWithSelector sel use s) (cs.mutateWithSelector sel use s')
  | [], _, _, h => h
  | cn :: use, s, s', h => by
      simp only [Classes.mutateWithSelector]
      cases mapGet cn cs with
      | none => exact selected_same cs sel use h
      | some c =>
        refine selected_same cs sel use ?_
        simp only [Class.mutateWithSelector]
        split <;> exact mutate_same _ h

/-- C86: a style agrees with itself, whatever the properties are that count. -/
theorem C86_refl (k : StyledKind → Prp → Bool) (cs : Classes) (e : StyledKind) (st : Styled) : AgreeBy k cs cs e st st := fun _ _ h =>
  ⟨mutators_same _ (classes_same cs _ h), fun sel => mutators_same _ (selected_same cs sel _ h)⟩

/-- C86: two style texts for an element agree if each property that counts for it has the same last declaration in both, or none in both:
other declarations can be added, changed and left out. -/
theorem C86_texts (k : StyledKind → Prp → Bool) {fl : Floats} {o o' : MapOrder} {s s' : Str} {ds ds' : List (Str × Str)} {m m' : Mutator} (hs : Decls s ds)
    (hs' : Decls s' ds') (hm : decodeMutator fl o s = some m) (hm' : decodeMutator fl o' s' = some m') (cs : Classes) (use : List Str)
    (e : StyledKind) (h : ∀ p, k e p = true → lastValue p.name ds = lastValue p.name ds') :
    AgreeBy k cs cs e ⟨[m], use⟩ ⟨[m'], use⟩ := by
  have key : ∀ {a a' : Styles}, SameBy k e a a' → SameBy k e (mutate m a) (mutate m' a') := by
    intro a a' ha p hp
    have h1 := C14_effect hs hm a p
    have h2 := C14_effect hs' hm' a' p
    cases hv : lastValue p.name ds with
    | none => rw [h1.2 hv, h2.2 (by rw [← h p hp, hv]), ha p hp]
    | some v =>
      obtain ⟨x, hx, hx'⟩ := h1.1 v hv
      obtain ⟨y, hy, hy'⟩ := h2.1 v (by rw [← h p hp, hv])
      rw [hx', hy']
      exact Option.some.inj (hx.symm.trans hy)
  exact fun a a' ha => ⟨key (classes_same cs use ha), fun sel => key (selected_same cs sel use ha)⟩

/-! ### Nothing else can be left out -/

private def plain : Styled := ⟨[], []⟩

/-- A document with an element of the given kind and style. -/
def probe (st : Styled) : StyledKind → List Instr
  | .font => [.font st, .text plain [.textBlock b!"a"]]
  | .text => [.text st [.textBlock b!"some words"], .text plain [.textBlock b!"a"]]
  | .paragraph => [.text plain [.paragraph st b!"a"]]
  | .box => [.box st [.textBlock b!"a", .lineBreak, .textBlock b!"b"]]
  | .image => [.image st b!"pic"]
  | .table => [.table st 0 [.mk plain [.mk plain 1 1 [.textBlock b!"a"], .mk plain 1 1 [.textBlock b!"b", .lineBreak, .textBlock b!"c"]]]]
  | .row => [.table plain 0 [.mk st [.mk plain 1 1 [.textBlock b!"a"], .mk plain 1 1 [.textBlock b!"b", .lineBreak, .textBlock b!"c"]]]]
  | .cell => [.table plain 0 [.mk plain [.mk st 1 1 [.textBlock b!"a", .lineBreak, .textBlock b!"b"],
      .mk plain 1 1 [.textBlock b!"b", .lineBreak, .textBlock b!"c", .lineBreak, .textBlock b!"d"]]]]
  | _ => []

private def probeCtx (body : List Instr) : Ctx :=
  { classes := [], header := [], footer := [], body := body, hyphenate := exHyph, resolve := id, describe := fun _ => some ⟨100, 50⟩ }

/-- What is put on its pages. -/
def probed (e : StyledKind) (st : Styled) : Option (List Mark) :=
  (process (Fpdf.engine exPaper) (probeCtx (probe st e)) 2 (newProcessor (Fpdf.new exPaper))).map fun r => r.2.eng.out

/-- Two values for each property. -/
def twoValues : Prp → Leaf × Leaf
  | .fontFamily => (.str b!"f", .str b!"g") | .fontPointSize => (.flt 10, .flt 20) | .fontStyle => (.str b!"normal", .str b!"italic")
  | .fontWeight => (.str b!"normal", .str b!"bold") | .fontDecoration => (.str b!"normal", .str b!"underline")
  | .border => (.border ⟨0, 0, 0, 0⟩, .border ⟨1, 1, 1, 1⟩) | .padding => (.quad ⟨0, 0, 0, 0⟩, .quad ⟨1, 1, 1, 1⟩)
  | .margin => (.quad ⟨0, 0, 0, 0⟩, .quad ⟨1, 1, 1, 1⟩)
  | .width => (.flt 10, .flt 20) | .height => (.flt 20, .flt 30) | .lineSpacing => (.flt 1, .flt 2) | .offsetX => (.flt 0, .flt 1)
  | .offsetY => (.flt 0, .flt 1) | .columnWidth => (.flt 10, .flt 20) | .hAlign => (.str b!"left", .str b!"center")
  | .vAlign => (.str b!"top", .str b!"bottom") | .color => (.rgb ⟨0, 0, 0⟩, .rgb ⟨1, 2, 3⟩) | .textColor => (.rgb ⟨0, 0, 0⟩, .rgb ⟨1, 2, 3⟩)
  | .backgroundColor => (.rgb ⟨0, 0, 0⟩, .rgb ⟨1, 2, 3⟩) | .lineWidth => (.flt 1, .flt 2)

/-- C86: each property that is said to matter does: for each element and each such property there are two values that give different pages. -/
theorem C86_exact (e : StyledKind) (p : Prp) (h : matters e p = true) :
    ∃ v v' : Leaf, probed e ⟨[[(path p, v)]], []⟩ ≠ probed e ⟨[[(path p, v')]], []⟩ := by
  refine ⟨(twoValues p).1, (twoValues p).2, ?_⟩
  revert h
  cases e <;> cases p <;> decide +kernel

/-! ### Examples -/

/-- Setting a property that does not matter. -/
theorem agree_unset {k : StyledKind → Prp → Bool} {e : StyledKind} {p : Prp} {v : Leaf} (cs : Classes)
    (h : ∀ q, k e q = true → ∀ s, q.get ((setAt (path p) v s).getD s) = q.get s) : AgreeBy k cs cs e ⟨[[(path p, v)]], []⟩ ⟨[], []⟩ := by
  refine fun s s' hs => ⟨fun q hq => ?_, fun _ q hq => ?_⟩ <;> exact (h q hq s).trans (hs q hq)

private def exMargin : Styled := ⟨[[(path .margin, .quad ⟨1, 2, 3, 4⟩)]], []⟩
private def exColor : Styled := ⟨[[(path .textColor, .rgb ⟨255, 0, 0⟩)]], []⟩

private def fl0 : Floats := { parseFloat := fun s => (parseInt s).map (fun n => (n : ℚ)), convertFloat := fun s => (parseInt s).map (fun n => (n : ℚ)) }
private def ordId : MapOrder := ⟨id, fun _ => .refl _⟩

private def exDocument (st st' : Styled) : Document :=
  { styleClasses := [], info := ⟨[], [], []⟩, page := ⟨[], [], ⟨10, 10, 10, 10⟩⟩, header := [], footer := [],
    body := [.box st [.paragraph st' b!"a"]] }

/-- The assumption of C86 holds for two different documents: a margin and the color of a paragraph make no difference. -/
example : SameInEffect (exDocument exMargin exColor) (exDocument plain plain) := by
  refine ⟨.nil, .nil, .cons (.box ?_ (.cons (.paragraph ?_ rfl) .nil)) .nil⟩
  · exact agree_unset [] fun q hq s => by revert hq; cases q <;> simp [matters, Prp.get, setAt, path]
  · exact agree_unset [] fun q hq s => by revert hq; cases q <;> simp [matters, Prp.ofFont, Prp.get, setAt, path]

/-- The assumption of `C86_texts` holds for two texts for a box. -/
example : (∃ ds ds' m m', Decls b!"margin:1,2,3,4" ds ∧ Decls [] ds' ∧ decodeMutator fl0 ordId b!"margin:1,2,3,4" = some m ∧
    decodeMutator fl0 ordId [] = some m' ∧ ∀ p, matters .box p = true → lastValue p.name ds = lastValue p.name ds') := by
  refine ⟨[(b!"margin", b!"1,2,3,4")], [], [([1, 2], .quad ⟨1, 2, 3, 4⟩)], [], ?_, ?_, by decide, by decide, ?_⟩
  · refine .last (by decide) (.decl (k := b!"margin") (v := b!"1,2,3,4") rfl (by decide) (by decide) ⟨[], [], rfl, ?_⟩ ⟨[], [], rfl, ?_⟩) <;>
    simp [Blank]
  · exact .last (by decide) (.blank (by simp))
  · intro p; cases p <;> decide

end Verif.Props
