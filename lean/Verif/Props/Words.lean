import Verif.Proofs.Words
import Verif.Proofs.LoadDoc
import Verif.Props.Load
import Verif.Props.Alike
import Verif.Props.Content
/-
Property C91: every word of the body of the XML file is on the pages, in order.
-/
namespace Verif.Props
open Verif.Go Verif.Model Verif.Spec Verif.Proofs

variable {fl : Floats} {ord sheetOrd : Nat → MapOrder} {p : Paper} {n : Nat} {r : PdfResult} {s' : PState Fpdf}
  {hyph : Str → List Str} {resolve : Str → Str} {images : Str → Option ImageDesc}

/-- C91, in part: if the document can be loaded and is processed, all words of its body are on the pages in the order of the file, whole or broken
by a hyphen, as long as they stand where they can be seen (`Visible`): in texts, in boxes, and in the cells of tables before their boxes or in these
boxes.  Missing: that every word of the body is shown, wherever it stands.  That does not hold: see `C91_lost` and `C91_moved`. -/
theorem C91_words_partial (misc : List Tok) (hm : misc.all isMisc = true) (as : List Attr) (kids : List Node) (post : List Tok) {doc : Document}
    (hl : load fl ord sheetOrd (misc ++ ((Node.elem b!"document" as kids).toks ++ post)) = some doc)
    (hv : ∀ nd ∈ inside b!"body" kids, Visible fl ord nd) (hw : ∀ w, (hyph w).flatten <:+: w) (he : (hyph []).length ≤ 1)
    (h : process (Fpdf.engine p) (ctxOf hyph resolve images doc) n (newProcessor (Fpdf.new p)) = some (r, s')) :
    AllShown hyph (wordsAll (inside b!"body" kids)) s'.eng := by
  rw [C61_exact sheetOrd misc hm as kids post] at hl
  have hb : section_ fl ord b!"body" kids = some doc.body := by
    unfold loaded at hl
    simp only [Option.bind_eq_bind, Option.bind_eq_some_iff, Option.pure_def, Option.some.injEq] at hl
    obtain ⟨_, _, _, _, _, _, _, _, _, _, _, _, b, hb, _, _, rfl⟩ := hl
    exact hb
  obtain ⟨hd, ds, ft, -, h2, -, h4⟩ := C73_document hw he h
  obtain ⟨ts, h5, h6⟩ := brings_bears (ws := wordsAll (inside b!"body" kids)) (fun ps hp => bodies_bear kids doc.body ps hv hb hp) h2
  refine ⟨ts, h5, ?_⟩
  rw [h4]
  exact ((h6.trans (List.sublist_append_right hd ds)).trans (List.sublist_append_left _ ft)).trans (List.sublist_cons_self ..)

/-- How to read `AllShown`: a word that the hyphenator does not break is there in one piece, perhaps with a space before. -/
theorem C91_whole {words : List Str} {e : Fpdf} (h : AllShown hyph words e) {w : Str} (hw : w ∈ words) (h1 : (hyph w).length ≤ 1) :
    Put.text w ∈ putsOn e ∨ Put.text (32 :: w) ∈ putsOn e := by
  obtain ⟨ts, h2, h3⟩ := h
  have : w ∈ ts ∨ 32 :: w ∈ ts := by
    clear h3
    induction h2 with
    | nil => simp at hw
    | @whole v ws t ts ht _ ih =>
      rcases List.mem_cons.mp hw with rfl | hw
      · rcases ht with rfl | rfl <;> simp
      · rcases ih hw with h | h <;> simp [h]
    | @broken v ws t u ts i hi hi' _ _ _ ih =>
      rcases List.mem_cons.mp hw with rfl | hw
      · omega
      · rcases ih hw with h | h <;> simp [h]
    | @blank ws t ts _ _ ih => rcases ih hw with h | h <;> simp [h]
  rcases this with h | h
  · exact .inl (h3.subset (List.mem_map_of_mem h))
  · exact .inr (h3.subset (List.mem_map_of_mem h))

/-- The same for a word before another one. -/
theorem C91_order {words : List Str} {e : Fpdf} (h : AllShown hyph words e) {v w : Str} (hs : [v, w].Sublist words) (hv : (hyph v).length ≤ 1)
    (hw : (hyph w).length ≤ 1) :
    ∃ v' w', (v' = v ∨ v' = 32 :: v) ∧ (w' = w ∨ w' = 32 :: w) ∧ [Put.text v', Put.text w'].Sublist (putsOn e) := by
  obtain ⟨ts, h2, h3⟩ := h
  suffices ∃ v' w', (v' = v ∨ v' = 32 :: v) ∧ (w' = w ∨ w' = 32 :: w) ∧ [v', w'].Sublist ts by
    obtain ⟨v', w', h4, h5, h6⟩ := this
    exact ⟨v', w', h4, h5, (h6.map Put.text).trans h3⟩
  have one : ∀ {ws us : List Str}, Written hyph ws us → w ∈ ws → ∃ w', (w' = w ∨ w' = 32 :: w) ∧ w' ∈ us := by
    intro ws us hu hm
    induction hu with
    | nil => simp at hm
    | @whole x ws t ts ht _ ih =>
      rcases List.mem_cons.mp hm with rfl | hm
      · exact ⟨t, ht, by simp⟩
      · obtain ⟨w', h1, h2⟩ := ih hm
        exact ⟨w', h1, by simp [h2]⟩
    | @broken x ws t u ts i hi hi' _ _ _ ih =>
      rcases List.mem_cons.mp hm with rfl | hm
      · omega
      · obtain ⟨w', h1, h2⟩ := ih hm
        exact ⟨w', h1, by simp [h2]⟩
    | @blank ws t ts _ _ ih =>
      obtain ⟨w', h1, h2⟩ := ih hm
      exact ⟨w', h1, by simp [h2]⟩
  clear h3
  induction h2 with
  | nil => simp at hs
  | @whole x ws t ts ht hr ih =>
    cases hs with
    | cons _ hs =>
      obtain ⟨v', w', h1, h2, h3⟩ := ih hs
      exact ⟨v', w', h1, h2, h3.cons _⟩
    | cons_cons _ hs =>
      obtain ⟨w', h1, h2⟩ := one hr (List.singleton_sublist.mp hs)
      exact ⟨t, w', ht, h1, (List.singleton_sublist.mpr h2).cons_cons _⟩
  | @broken x ws t u ts i hi hi' _ _ hr ih =>
    cases hs with
    | cons _ hs =>
      obtain ⟨v', w', h1, h2, h3⟩ := ih hs
      exact ⟨v', w', h1, h2, (h3.cons _).cons _⟩
    | cons_cons _ hs => omega
  | @blank ws t ts _ _ ih =>
    obtain ⟨v', w', h1, h2, h3⟩ := ih hs
    exact ⟨v', w', h1, h2, h3.cons _⟩

/-! ### Examples -/

private def fl0 : Floats := { parseFloat := fun s => (parseInt s).map (fun n => (n : ℚ)), convertFloat := fun s => (parseInt s).map (fun n => (n : ℚ)) }
private def ord0 : Nat → MapOrder := fun _ => ⟨id, fun _ => .refl _⟩
private def hyph0 : Str → List Str := fun w => [w]
private def view : Document → Ctx := ctxOf hyph0 id (fun _ => none)

private theorem sheet_none : decodeClasses fl0 ord0 [] = some [] := by
  unfold decodeClasses
  rw [sheetText_eq]
  rw [loop_tail _ _ _ (by decide)]

private def docOf (iss : List Instr) : Document := ⟨⟨[], [], []⟩, ⟨[], [], ⟨0, 0, 0, 0⟩⟩, [], [], iss, []⟩

private theorem body_only {kids : List Node} {iss : List Instr} (h : strictly fl0 ord0 true kids = some iss) :
    load fl0 ord0 ord0 (Node.elem b!"document" [] [.elem b!"body" [] kids]).toks = some (docOf iss) := by
  have := C61_exact (fl := fl0) (ord := ord0) ord0 [] rfl [] [.elem b!"body" [] kids] []
  rw [List.append_nil, List.nil_append] at this
  rw [this]
  simp [docOf, loaded, section_, elems, contents, newStyled, Styled.decodeAttrs, h, inside, Spec.textOf, numberOf, sheet_none]

/-- A body with words everywhere they can be seen. -/
private def good : List Node :=
  [.chars b!" ", .elem b!"text" [] [.chars b!"some\n words ", .elem b!"p" [] [.chars b!"and more"]], .other,
   .elem b!"table" [] [.elem b!"tr" [] [.elem b!"td" [] [.chars b!"in", .elem b!"u" [] [.chars b!"a"],
     .elem b!"box" [] [.chars b!"cell"]]]], .elem b!"box" [] [.chars b!"end"]]

private theorem plain_of {t : Str} (h1 : (92 : UInt8) ∉ t) (h2 : (123 : UInt8) ∉ t) : PlainText t :=
  ⟨h1, fun hi => h2 (hi.subset (by decide))⟩

/-- It meets the assumptions of C91_words_partial. -/
example : ∀ nd ∈ good, Visible fl0 ord0 nd := by
  unfold good
  simp only [List.forall_mem_cons]
  refine ⟨.wordless (by decide), .text ?_, .wordless (by decide), .table ?_, .box ?_, by simp⟩
  · simp only [List.forall_mem_cons]
    exact ⟨.chars (plain_of (by decide) (by decide)), .paragraph (plain_of (by decide) (by decide)), by simp⟩
  · simp only [List.forall_mem_cons]
    refine ⟨.row ?_, by simp⟩
    simp only [List.forall_mem_cons]
    refine ⟨.cell (texts := [_, _]) (boxes := [_]) ?_ ?_, by simp⟩
    · simp only [List.forall_mem_cons]
      refine ⟨.chars (plain_of (by decide) (by decide)), .unknown (by decide) ?_, by simp⟩
      simp only [List.forall_mem_cons]
      exact ⟨.chars (plain_of (by decide) (by decide)), by simp⟩
    · simp only [List.forall_mem_cons]
      refine ⟨.box ?_, by simp⟩
      simp only [List.forall_mem_cons]
      exact ⟨.chars (plain_of (by decide) (by decide)), by simp⟩
  · simp only [List.forall_mem_cons]
    exact ⟨.chars (plain_of (by decide) (by decide)), by simp⟩

/-- Its words and what is on the page. -/
example : wordsAll good = [b!"some", b!"words", b!"and", b!"more", b!"in", b!"a", b!"cell", b!"end"] ∧
    ((strictly fl0 ord0 true good).bind fun iss => process (Fpdf.engine exPaper) (view (docOf iss)) 2 (newProcessor (Fpdf.new exPaper))).map
      (fun x => putsOn x.2.eng) = some [.page, .text b!"some", .text b!" words", .text b!" and", .text b!" more", .text b!"in", .text b!" a",
        .text b!"cell", .text b!"end"] := by
  decide +kernel

/-- The engine after a document with that body. -/
private def after (kids : List Node) : Option (PdfResult × PState Fpdf) :=
  (strictly fl0 ord0 true kids).bind fun iss => process (Fpdf.engine exPaper) (view (docOf iss)) 2 (newProcessor (Fpdf.new exPaper))

private theorem after_some {kids : List Node} {x : PdfResult × PState Fpdf} (h : after kids = some x) :
    ∃ doc, load fl0 ord0 ord0 (Node.elem b!"document" [] [.elem b!"body" [] kids]).toks = some doc ∧
      process (Fpdf.engine exPaper) (view doc) 2 (newProcessor (Fpdf.new exPaper)) = some x := by
  obtain ⟨iss, h1, h2⟩ := Option.bind_eq_some_iff.mp h
  exact ⟨docOf iss, body_only h1, h2⟩

private def lost : Node := .chars b!"lost"
private def inCell (kids : List Node) : Node := .elem b!"table" [] [.elem b!"tr" [] [.elem b!"td" [] kids]]

/-- A word of the body is not on the pages. -/
private def loses (kids : List Node) : Bool :=
  match after kids with
  | none => false
  | some x => !x.1.failed && (wordsAll kids).any fun w => !(putsOn x.2.eng).contains (.text w) && !(putsOn x.2.eng).contains (.text (32 :: w))

/-- C91: places where a word is not shown, though the document is loaded and processed without an error: directly in the body, in a paragraph in the
body, in a box in a text, in a table in a box, in a grid, in a row or cell without table, between the cells of a table, in a table or text in a cell, in a
paragraph in a paragraph, and in a cell in a paragraph whose styles are not valid. -/
theorem C91_lost : ∀ kids ∈ ([[lost], [.elem b!"p" [] [lost]], [.elem b!"text" [] [.elem b!"box" [] [lost]]], [.elem b!"box" [] [inCell [lost]]],
      [.elem b!"grid" [] [.elem b!"gr" [] [.chars b!"a"], .elem b!"part" [(b!"area", b!"a")] [.elem b!"text" [] [lost]]]],
      [.elem b!"tr" [] [.elem b!"td" [] [lost]]], [.elem b!"td" [] [lost]], [.elem b!"table" [] [.elem b!"tr" [] [lost]]],
      [inCell [inCell [lost]]], [inCell [.elem b!"text" [] [lost]]], [.elem b!"text" [] [.elem b!"p" [] [.elem b!"p" [] [lost]]]],
      [inCell [.elem b!"p" [(b!"style", b!"width:x")] [lost]]]] : List (List Node)),
    ∃ doc r s', load fl0 ord0 ord0 (Node.elem b!"document" [] [.elem b!"body" [] kids]).toks = some doc ∧
      process (Fpdf.engine exPaper) (view doc) 2 (newProcessor (Fpdf.new exPaper)) = some (r, s') ∧ r.failed = false ∧
      ¬ AllShown hyph0 (wordsAll kids) s'.eng := by
  intro kids hk
  have h : loses kids = true := by
    revert kids
    rw [← List.all_eq_true]
    decide +kernel
  unfold loses at h
  cases hx : after kids with
  | none => simp [hx] at h
  | some x =>
    obtain ⟨doc, h1, h2⟩ := after_some hx
    simp only [hx, Bool.and_eq_true, List.any_eq_true, Bool.not_eq_true', List.contains_eq_mem, decide_eq_false_iff_not] at h
    obtain ⟨hf, w, hw, h3, h4⟩ := h
    refine ⟨doc, x.1, x.2, h1, h2, hf, fun ha => ?_⟩
    rcases C91_whole ha hw (by simp [hyph0]) with h | h
    · exact h3 h
    · exact h4 h

private def turned : List Node := [inCell [.elem b!"box" [] [.chars b!"first"], .chars b!"second"]]

private theorem turned_after : ∃ x, after turned = some x ∧ x.1.failed = false ∧ putsOn x.2.eng = [.page, .text b!"second", .text b!"first"] := by
  have h : (after turned).map (fun x => (x.1.failed, putsOn x.2.eng)) = some (false, [.page, .text b!"second", .text b!"first"]) := by
    decide +kernel
  obtain ⟨x, h1, h2⟩ := Option.map_eq_some_iff.mp h
  simp only [Prod.mk.injEq] at h2
  exact ⟨x, h1, h2.1, h2.2⟩

/-- C91: in a cell the texts come before the boxes, whatever the order in the file. -/
theorem C91_moved : ∃ doc r s', load fl0 ord0 ord0 (Node.elem b!"document" [] [.elem b!"body" [] turned]).toks = some doc ∧
    process (Fpdf.engine exPaper) (view doc) 2 (newProcessor (Fpdf.new exPaper)) = some (r, s') ∧ r.failed = false ∧
    wordsAll turned = [b!"first", b!"second"] ∧ putsOn s'.eng = [.page, .text b!"second", .text b!"first"] ∧
    ¬ AllShown hyph0 (wordsAll turned) s'.eng := by
  obtain ⟨x, hx, hf, hp⟩ := turned_after
  obtain ⟨doc, h1, h2⟩ := after_some hx
  refine ⟨doc, x.1, x.2, h1, h2, hf, by decide, hp, fun ha => ?_⟩
  obtain ⟨v, w, hv, hw, hs⟩ := C91_order ha (v := b!"first") (w := b!"second") (by decide) (by simp [hyph0]) (by simp [hyph0])
  rw [hp] at hs
  rcases hv with rfl | rfl <;> rcases hw with rfl | rfl <;> revert hs <;> decide

end Verif.Props
