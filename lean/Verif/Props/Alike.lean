import Verif.Proofs.Alike
import Verif.Proofs.AlikeLoad
import Verif.Model.Describe
/-
Property C72: what xpdf makes of a document depends on what the styles do, not on how they are represented; so it does not depend
on the iteration order of Go's maps (/repo/style/decode.go:71, the only place where a map is iterated while a document is loaded).
-/
namespace Verif.Props
open Verif.Go Verif.Model Verif.Spec Verif.Proofs

/-- The processor's view of a document (process.go:24-33). -/
def ctxOf (hyphenate : Str → List Str) (resolve : Str → Str) (images : Str → Option ImageDesc) (d : Document) : Ctx :=
  { classes := d.styleClasses, header := d.header, footer := d.footer, body := d.body, hyphenate := hyphenate, resolve := resolve,
    describe := images }

/-- C72: documents that look the same are processed the same way, by every engine, from every state, with every hyphenator and
whatever files there are: the same engine calls, the same result. -/
theorem C72_process {E : Type} (eng : Engine E) (hyphenate : Str → List Str) (resolve : Str → Str) (images : Str → Option ImageDesc)
    {d d' : Document} (h : LookAlike d d') (n : Nat) :
    process eng (ctxOf hyphenate resolve images d) n = process eng (ctxOf hyphenate resolve images d') n :=
  (process_alike (sameNorm_eq eng) (ctx := ctxOf hyphenate resolve images d) (ctx' := ctxOf hyphenate resolve images d')
    ⟨rfl, rfl, rfl, h.header, h.footer, h.body⟩ n).symm

/-- C72: loading the same file twice, with whatever map orders, fails both times or gives documents that look the same. -/
theorem C72_load (fl : Floats) (o o' so so' : Nat → MapOrder) (toks : List Tok) :
    (load fl o so toks = none ∧ load fl o' so' toks = none) ∨
    ∃ d d', load fl o so toks = some d ∧ load fl o' so' toks = some d' ∧ LookAlike d d' := by
  have h := load_like (fl := fl) o o' so so' toks
  revert h
  cases load fl o so toks <;> cases load fl o' so' toks <;> intro h
  · exact .inl ⟨rfl, rfl⟩
  · exact h.elim
  · exact h.elim
  · exact .inr ⟨_, _, rfl, rfl, h⟩

/-- Loading a file and processing the document with an engine made for its page and meta data. -/
def loadAndProcess {E : Type} (fl : Floats) (o so : Nat → MapOrder) (toks : List Tok) (eng : Engine E) (start : Meta → DocPage → E)
    (hyphenate : Str → List Str) (resolve : Str → Str) (images : Str → Option ImageDesc) (n : Nat) : Option (PdfResult × PState E) :=
  (load fl o so toks).bind fun d =>
    process eng (ctxOf hyphenate resolve images d) n (newProcessor (start d.info d.page))

/-- C72: the result of loading and processing a file is the same for all map orders. -/
theorem C72_deterministic {E : Type} (fl : Floats) (o o' so so' : Nat → MapOrder) (toks : List Tok) (eng : Engine E)
    (start : Meta → DocPage → E) (hyphenate : Str → List Str) (resolve : Str → Str) (images : Str → Option ImageDesc) (n : Nat) :
    loadAndProcess fl o so toks eng start hyphenate resolve images n =
      loadAndProcess fl o' so' toks eng start hyphenate resolve images n := by
  unfold loadAndProcess
  rcases C72_load fl o o' so so' toks with ⟨h, h'⟩ | ⟨d, d', h, h', hl⟩
  · rw [h, h']
  · rw [h, h']
    simp only [Option.bind_some]
    rw [C72_process eng hyphenate resolve images hl, hl.info, hl.page]

/-! ### Describe -/

section
variable {cs cs' : Classes} (ji : JsonInts) (o : DiffOrder)

private theorem describeMutator_alike {st st' : Styled} (h : SameEffect cs cs' st st') :
    describeMutator ⟨cs', ji, o⟩ (some st') = describeMutator ⟨cs, ji, o⟩ (some st) := by
  simp only [describeMutator, h.1]

private theorem describeMutator_nostyle : describeMutator ⟨cs', ji, o⟩ none = describeMutator ⟨cs, ji, o⟩ none := rfl

private theorem gridRows_alike {rows rows' : List (Styled × List Str)}
    (h : List.Forall₂ (fun a b => SameEffect cs cs' a.1 b.1 ∧ a.2 = b.2) rows rows') :
    (rows'.map fun r => DescItem.mk b!"grid-row" (.str (join r.2 b!" ")) (describeMutator ⟨cs', ji, o⟩ (some r.1)) []) =
      rows.map fun r => .mk b!"grid-row" (.str (join r.2 b!" ")) (describeMutator ⟨cs, ji, o⟩ (some r.1)) [] := by
  induction h with
  | nil => rfl
  | cons h _ ih => simp only [List.map_cons, ih, describeMutator_alike ji o h.1, h.2]

mutual
private theorem describeInstr_alike : ∀ {i i' : Instr}, Alike (fun _ => SameEffect cs cs') Eq i i' →
    describeInstr ⟨cs', ji, o⟩ i' = describeInstr ⟨cs, ji, o⟩ i
  | _, _, .font h => by simp only [describeInstr, describeMutator_alike ji o h]
  | _, _, .lineFeed n => by simp only [describeInstr, describeMutator_nostyle ji o (cs := cs) (cs' := cs')]
  | _, _, .setX n => by simp only [describeInstr, describeMutator_nostyle ji o (cs := cs) (cs' := cs')]
  | _, _, .setY n => by simp only [describeInstr, describeMutator_nostyle ji o (cs := cs) (cs' := cs')]
  | _, _, .box h hi => by simp only [describeInstr, describeMutator_alike ji o h, describeAll_alike hi]
  | _, _, .text h hi => by simp only [describeInstr, describeMutator_alike ji o h, describeAll_alike hi]
  | _, _, .image src h => by simp only [describeInstr, describeMutator_alike ji o h]
  | _, _, .textBlock t => by subst t; simp only [describeInstr]
  | _, _, .paragraph h t => by subst t; simp only [describeInstr, describeMutator_alike ji o h]
  | _, _, .lineBreak => by simp only [describeInstr]
  | _, _, .pageBreak => by simp only [describeInstr]
  | _, _, .table rh h hr => by simp only [describeInstr, describeMutator_alike ji o h, describeRows_alike hr]
  | _, _, .tableRow h => by simp only [describeInstr]
  | _, _, .tableCell h => by simp only [describeInstr]
  | _, _, .grid h hr hp => by
      simp only [describeInstr, describeMutator_alike ji o h, describeParts_alike hp, gridRows_alike ji o hr]
  | _, _, .gridRow as h => by simp only [describeInstr]
  | _, _, .gridPart h => by simp only [describeInstr]
private theorem describeAll_alike : ∀ {i i' : List Instr}, AlikeAll (fun _ => SameEffect cs cs') Eq i i' →
    describeInstructions ⟨cs', ji, o⟩ i' = describeInstructions ⟨cs, ji, o⟩ i
  | _, _, .nil => by simp only [describeInstructions]
  | _, _, .cons h hr => by simp only [describeInstructions, describeInstr_alike h, describeAll_alike hr]
private theorem describeRows_alike : ∀ {i i' : List TableRow}, AlikeRows (fun _ => SameEffect cs cs') Eq i i' →
    describeRows ⟨cs', ji, o⟩ i' = describeRows ⟨cs, ji, o⟩ i
  | _, _, .nil => by simp only [describeRows]
  | _, _, .cons (.mk h hc) hr => by
      simp only [describeRows, describeMutator_alike ji o h, describeCells_alike hc, describeRows_alike hr]
private theorem describeCells_alike : ∀ {i i' : List TableCell}, AlikeCells (fun _ => SameEffect cs cs') Eq i i' →
    describeCells ⟨cs', ji, o⟩ i' = describeCells ⟨cs, ji, o⟩ i
  | _, _, .nil => by simp only [describeCells]
  | _, _, .cons (.mk c r h hi) hr => by
      simp only [describeCells, describeMutator_alike ji o h, describeAll_alike hi, describeCells_alike hr]
private theorem describeParts_alike : ∀ {i i' : List GridPart}, AlikeParts (fun _ => SameEffect cs cs') Eq i i' →
    describeParts ⟨cs', ji, o⟩ i' = describeParts ⟨cs, ji, o⟩ i
  | _, _, .nil => by simp only [describeParts]
  | _, _, .cons (.mk a h hi) hr => by
      simp only [describeParts, describeMutator_alike ji o h, describeAll_alike hi, describeParts_alike hr]
end

/-- C72: documents that look the same have the same description (with the same order of the differences, see C48). -/
theorem C72_describe {d d' : Document} (h : LookAlike d d') : describe ji o d = describe ji o d' := by
  simp only [describe, h.info, h.page, describeAll_alike ji o h.header, describeAll_alike ji o h.footer, describeAll_alike ji o h.body]

end

/-! A file with two settings in a style: the two orders give different documents, which look the same. -/

private def fl0 : Floats := { parseFloat := fun s => (parseInt s).map (fun n => (n : ℚ)), convertFloat := fun s => (parseInt s).map (fun n => (n : ℚ)) }
private def ordId : MapOrder := ⟨id, fun _ => .refl _⟩
private def ordRev : MapOrder := ⟨List.reverse, fun l => l.reverse_perm⟩

private def file : List Tok :=
  [.start b!"document" [], .start b!"style" [], .chars b!"c { h-align:left; v-align:top; }", .close b!"style",
   .start b!"body" [], .start b!"font" [(b!"class", b!"c"), (b!"style", b!"font-style:italic; h-align:right")], .close b!"font",
   .close b!"body", .close b!"document"]

example : (load fl0 (fun _ => ordId) (fun _ => ordId) file).map (fun d => match d.body with
    | [.font st] => (st.mutators, st.classes) | _ => ([], [])) =
    some ([[([0, 2], .str b!"italic"), ([4, 0], .str b!"right")]], [b!"c"]) := by decide +kernel
example : (load fl0 (fun _ => ordRev) (fun _ => ordRev) file).map (fun d => match d.body with
    | [.font st] => (st.mutators, st.classes) | _ => ([], [])) =
    some ([[([4, 0], .str b!"right"), ([0, 2], .str b!"italic")]], [b!"c"]) := by decide +kernel
example : ∃ d d', load fl0 (fun _ => ordId) (fun _ => ordId) file = some d ∧ load fl0 (fun _ => ordRev) (fun _ => ordRev) file = some d' ∧
    LookAlike d d' := by
  rcases C72_load fl0 (fun _ => ordId) (fun _ => ordRev) (fun _ => ordId) (fun _ => ordRev) file with ⟨h, -⟩ | h
  · have : (load fl0 (fun _ => ordId) (fun _ => ordId) file).isSome = true := by decide +kernel
    rw [h] at this; simp at this
  · exact h

end Verif.Props
