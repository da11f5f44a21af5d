import Verif.Proofs.Spacing
import Verif.Props.Alike
import Verif.Props.Load
import Verif.Model.Fpdf
/-
Property C102: how the XML file is broken into lines and indented, and the comments in it, make no difference to the result.
-/
namespace Verif.Props
open Verif.Go Verif.Model Verif.Spec Verif.Proofs

/-- C102: a text is the same to the processor, on every page, as long as its words are the same. -/
theorem C102_text {E : Type} (eng : Engine E) (e : E) {t t' : Str} (h : SameWords t t') : norm eng e t = norm eng e t' :=
  (sameNorm_words eng h e).symm

/-- C102: documents that are the same but for white space in their texts are processed the same way, by every engine, from every
state: the same engine calls, the same result. -/
theorem C102_process {E : Type} (eng : Engine E) (hyphenate : Str → List Str) (resolve : Str → Str) (images : Str → Option ImageDesc)
    {d d' : Document} (h : DocSpaced d d') (n : Nat) :
    process eng (ctxOf hyphenate resolve images d) n = process eng (ctxOf hyphenate resolve images d') n := by
  have hm : ∀ (k : StyledKind) (a b : Styled), a = b → SameEffect d.styleClasses d'.styleClasses a b := by
    rintro _ a _ rfl
    rw [← h.classes]
    exact ⟨fun _ => rfl, fun _ _ => rfl⟩
  exact (process_alike (sameNorm_words eng) (ctx := ctxOf hyphenate resolve images d) (ctx' := ctxOf hyphenate resolve images d')
    ⟨rfl, rfl, rfl, AlikeAll.mono hm h.header, AlikeAll.mono hm h.footer, AlikeAll.mono hm h.body⟩ n).symm

/-- C102: files that differ in white space and comments only give documents that are the same but for white space in texts. -/
theorem C102_load (fl : Floats) (o so : Nat → MapOrder) {misc misc' : List Tok} (hm : misc.all isMisc = true)
    (hm' : misc'.all isMisc = true) (as as' : List Attr) {kids kids' : List Node} (h : DocRespaced kids kids') (post post' : List Tok) :
    (load fl o so (misc ++ ((Node.elem b!"document" as kids).toks ++ post)) = none ∧
      load fl o so (misc' ++ ((Node.elem b!"document" as' kids').toks ++ post')) = none) ∨
    ∃ d d', load fl o so (misc ++ ((Node.elem b!"document" as kids).toks ++ post)) = some d ∧
      load fl o so (misc' ++ ((Node.elem b!"document" as' kids').toks ++ post')) = some d' ∧ DocSpaced d d' := by
  rw [C61_exact so misc hm, C61_exact so misc' hm']
  have := loaded_like (fl := fl) (ord := o) so h
  revert this
  cases loaded fl o so kids <;> cases loaded fl o so kids' <;> intro h
  · exact .inl ⟨rfl, rfl⟩
  · exact h.elim
  · exact h.elim
  · exact .inr ⟨_, _, rfl, rfl, h⟩

/-- C102: files that differ in white space and comments only give the same result with every engine. -/
theorem C102_same {E : Type} (fl : Floats) (o so : Nat → MapOrder) {misc misc' : List Tok} (hm : misc.all isMisc = true)
    (hm' : misc'.all isMisc = true) (as as' : List Attr) {kids kids' : List Node} (h : DocRespaced kids kids') (post post' : List Tok)
    (eng : Engine E) (start : Meta → DocPage → E) (hyphenate : Str → List Str) (resolve : Str → Str)
    (images : Str → Option ImageDesc) (n : Nat) :
    loadAndProcess fl o so (misc ++ ((Node.elem b!"document" as kids).toks ++ post)) eng start hyphenate resolve images n =
      loadAndProcess fl o so (misc' ++ ((Node.elem b!"document" as' kids').toks ++ post')) eng start hyphenate resolve images n := by
  unfold loadAndProcess
  rcases C102_load fl o so hm hm' as as' h post post' with ⟨h, h'⟩ | ⟨d, d', h, h', hl⟩
  · rw [h, h']
  · rw [h, h']
    simp only [Option.bind_some]
    rw [C102_process eng hyphenate resolve images hl, hl.info, hl.page]

/-! ### Examples -/

private def fl0 : Floats := { parseFloat := fun s => (parseInt s).map (fun n => (n : ℚ)), convertFloat := fun s => (parseInt s).map (fun n => (n : ℚ)) }
private def ord0 : Nat → MapOrder := fun _ => ⟨id, fun _ => .refl _⟩

/-- `<body><text>Page {cp}: one two</text><table><tr><td><text>a</text></td></tr></table><p>x y</p></body>` -/
private def tight : List Node :=
  [.elem b!"body" [] [.elem b!"text" [] [.chars b!"Page {cp}: one two"],
    .elem b!"table" [] [.elem b!"tr" [] [.elem b!"td" [] [.elem b!"text" [] [.chars b!"a"]]]], .elem b!"p" [] [.chars b!"x y"]]]

/-- The same over several lines, with a comment. -/
private def loose : List Node :=
  [.chars b!"\n  ", .elem b!"body" [] [.elem b!"text" [] [.chars b!"\n      Page {cp}:\n      one\ttwo\n    "],
    .elem b!"table" [] [.chars b!"\n      ", .elem b!"tr" [] [.chars b!"\n        ", .elem b!"td" [] [.elem b!"text" [] [.chars b!"a"]],
      .chars b!"\n      "], .other, .chars b!"\n    "], .elem b!"p" [] [.chars b!"x\n y"]], .chars b!"\n"]

private theorem tight_loose : DocRespaced tight loose :=
  .textRight (.part (.inr (.inr rfl))
    (.elem (by decide) (.chars (by unfold SameWords; decide +kernel) (by decide) .nil)
    (.elem (by decide) (.textRight (.elem (by decide) (.textRight (.same (.textRight .nil))) (.commentRight (.textRight .nil))))
    (.paragraph (by unfold SameWords; decide +kernel) .nil)))
    (.textRight .nil))

example (eng : Engine Unit) (n : Nat) :
    loadAndProcess fl0 ord0 ord0 ([] ++ ((Node.elem b!"document" [] tight).toks ++ [])) eng (fun _ _ => ()) (fun w => [w]) id (fun _ => none) n =
    loadAndProcess fl0 ord0 ord0 ([.other, .chars b!"\n"] ++ ((Node.elem b!"document" [] loose).toks ++ [.chars b!"\n"])) eng (fun _ _ => ()) (fun w => [w]) id
      (fun _ => none) n :=
  C102_same fl0 ord0 ord0 rfl rfl [] [] tight_loose _ _ eng _ _ _ _ n

example : (load fl0 ord0 ord0 ([] ++ ((Node.elem b!"document" [] tight).toks ++ []))).isSome = true := by decide +kernel

example : SameWords b!"\n one\n  two" b!"one two" ∧ ¬ SameWords b!"one two" b!"onetwo" := by unfold SameWords; decide +kernel

end Verif.Props
