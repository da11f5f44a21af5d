import Verif.Proofs.Pictures
import Verif.Proofs.LoadDoc
import Verif.Props.Load
import Verif.Props.Alike
import Verif.Props.Content
/-
Property C95: the images of the body of the XML file are on the pages, in order, and there are no other ones.
-/
namespace Verif.Props
open Verif.Go Verif.Model Verif.Spec Verif.Proofs

variable {fl : Floats} {ord sheetOrd : Nat → MapOrder} {p : Paper} {n : Nat} {r : PdfResult} {s' : PState Fpdf}
  {hyph : Str → List Str} {resolve : Str → Str} {images : Str → Option ImageDesc}

private theorem readable_puts (doc : Document) (srcs : List Str) :
    srcs.flatMap (meansOf (ctxOf hyph resolve images doc)).image = (readable resolve images srcs).map Put.image := by
  induction srcs with
  | nil => rfl
  | cons s srcs ih =>
    rw [List.flatMap_cons, ih]
    show (if (images (resolve s)).isSome then [Put.image (resolve s)] else []) ++ _ = _
    unfold readable
    rw [List.map_cons, List.filter_cons]
    split <;> simp

/-- C95, in part: if the document can be loaded and is processed, the images of its body whose files can be read are on the pages, in the order of the
file, as long as they stand where they can be seen (`PicPlace`): directly in the body, or, with valid styles, in the cells of its tables.  Missing: that
every readable image of the body is shown, wherever it stands.  That does not hold: see `C95_lost`. -/
theorem C95_images_partial (misc : List Tok) (hm : misc.all isMisc = true) (as : List Attr) (kids : List Node) (post : List Tok) {doc : Document}
    (hl : load fl ord sheetOrd (misc ++ ((Node.elem b!"document" as kids).toks ++ post)) = some doc)
    (hv : ∀ nd ∈ inside b!"body" kids, PicPlace fl ord nd) (hw : ∀ w, (hyph w).flatten <:+: w) (he : (hyph []).length ≤ 1)
    (h : process (Fpdf.engine p) (ctxOf hyph resolve images doc) n (newProcessor (Fpdf.new p)) = some (r, s')) :
    ((readable resolve images (picturesAll (inside b!"body" kids))).map Put.image).Sublist (putsOn s'.eng) := by
  rw [C61_exact sheetOrd misc hm as kids post] at hl
  have hb : section_ fl ord b!"body" kids = some doc.body := by
    unfold loaded at hl
    simp only [Option.bind_eq_bind, Option.bind_eq_some_iff, Option.pure_def, Option.some.injEq] at hl
    obtain ⟨_, _, _, _, _, _, _, _, _, _, _, _, b, hb, _, _, rfl⟩ := hl
    exact hb
  obtain ⟨hd, ds, ft, -, ⟨ps, h2, h3⟩, -, h4⟩ := C73_document hw he h
  have h5 := bodies_pics kids doc.body ps hv hb h2
  unfold Pics at h5
  rw [readable_puts] at h5
  have h6 := filled_pics h3 _ h5
  rw [h4]
  exact ((h6.trans (List.sublist_append_right hd ds)).trans (List.sublist_append_left _ ft)).trans (List.sublist_cons_self ..)

/-- C95: every image on the pages is one of the body, the header or the footer, and its file can be read. -/
theorem C95_only (misc : List Tok) (hm : misc.all isMisc = true) (as : List Attr) (kids : List Node) (post : List Tok) {doc : Document}
    (hl : load fl ord sheetOrd (misc ++ ((Node.elem b!"document" as kids).toks ++ post)) = some doc)
    (hw : ∀ w, (hyph w).flatten <:+: w) (he : (hyph []).length ≤ 1)
    (h : process (Fpdf.engine p) (ctxOf hyph resolve images doc) n (newProcessor (Fpdf.new p)) = some (r, s'))
    {f : Str} (hf : Put.image f ∈ putsOn s'.eng) :
    f ∈ readable resolve images (picturesAll (inside b!"body" kids) ++ picturesAll (inside b!"header" kids) ++ picturesAll (inside b!"footer" kids)) := by
  rw [C61_exact sheetOrd misc hm as kids post] at hl
  obtain ⟨hh, hb, hft⟩ : section_ fl ord b!"header" kids = some doc.header ∧ section_ fl ord b!"body" kids = some doc.body ∧
      section_ fl ord b!"footer" kids = some doc.footer := by
    unfold loaded at hl
    simp only [Option.bind_eq_bind, Option.bind_eq_some_iff, Option.pure_def, Option.some.injEq] at hl
    obtain ⟨_, _, _, _, _, _, _, _, a, ha, c, hc, b, hb, _, _, rfl⟩ := hl
    exact ⟨ha, hb, hc⟩
  have key : ∀ iss ds, Brings (meansOf (ctxOf hyph resolve images doc)) doc.header doc.footer iss ds →
      (∀ s ∈ picsAll iss, s ∈ picsAll doc.body ++ picsAll doc.header ++ picsAll doc.footer) → Put.image f ∈ ds →
      ∃ s ∈ picsAll doc.body ++ picsAll doc.header ++ picsAll doc.footer, Put.image f ∈ (meansOf (ctxOf hyph resolve images doc)).image s := by
    rintro iss ds ⟨ps, h1, h2⟩ hi hd
    obtain ⟨s, h3, h4⟩ := filled_from h2 _ (part_from _ _ h1) f hd
    refine ⟨s, ?_, h4⟩
    have := hi s
    simp only [List.mem_append] at h3 this ⊢
    tauto
  obtain ⟨s, h5, h6⟩ : ∃ s ∈ picsAll doc.body ++ picsAll doc.header ++ picsAll doc.footer,
      Put.image f ∈ (meansOf (ctxOf hyph resolve images doc)).image s := by
    obtain ⟨hd, ds, ft, h1, h2, h3, h4⟩ := C73_document hw he h
    rw [h4] at hf
    simp only [List.mem_cons, reduceCtorEq, List.mem_append, false_or] at hf
    rcases hf with (hf | hf) | hf
    · exact key _ _ h1 (fun s hs => by simp only [List.mem_append]; exact .inl (.inr hs)) hf
    · exact key _ _ h2 (fun s hs => by simp only [List.mem_append]; exact .inl (.inl hs)) hf
    · rcases h3 with h3 | ⟨-, rfl⟩
      · exact key _ _ h3 (fun s hs => by simp only [List.mem_append]; exact .inr hs) hf
      · simp at hf
  have h6' : Put.image f ∈ (if (images (resolve s)).isSome then [Put.image (resolve s)] else []) := h6
  unfold readable
  rw [List.mem_filter]
  split at h6'
  · rename_i hr
    simp only [List.mem_singleton, Put.image.injEq] at h6'
    subst h6'
    refine ⟨List.mem_map_of_mem ?_, hr⟩
    simp only [List.mem_append] at h5 ⊢
    exact h5.imp (Or.imp (section_pics _ kids _ hb s) (section_pics _ kids _ hh s)) (section_pics _ kids _ hft s)
  · simp at h6'

/-! ### Examples -/

private def fl0 : Floats := { parseFloat := fun s => (parseInt s).map (fun n => (n : ℚ)), convertFloat := fun s => (parseInt s).map (fun n => (n : ℚ)) }
private def ord0 : Nat → MapOrder := fun _ => ⟨id, fun _ => .refl _⟩
private def hyph0 : Str → List Str := fun w => [w]
/-- Files below a directory; those with a name of one letter can be read. -/
private def resolve0 : Str → Str := fun s => b!"d/" ++ s
private def images0 : Str → Option ImageDesc := fun f => if f.length = 3 then some ⟨10, 10⟩ else none
private def view : Document → Ctx := ctxOf hyph0 resolve0 images0

private theorem sheet_none : decodeClasses fl0 ord0 [] = some [] := by
  unfold decodeClasses
  rw [sheetText_eq]
  rw [loop_tail _ _ _ (by decide)]

private def docOf (iss : List Instr) : Document := ⟨⟨[], [], []⟩, ⟨[], [], ⟨0, 0, 0, 0⟩⟩, [], [], iss, []⟩

private theorem body_only {kids : List Node} {iss : List Instr} (h : strictly fl0 ord0 true kids = some iss) :
    load fl0 ord0 ord0 (Node.elem b!"document" [] [.elem b!"body" [] kids]).toks = some (docOf iss) := by
  have := C61_exact (fl := fl0) (ord := ord0) ord0 [] rfl [] [.elem b!"body" [] kids] []
  rw [List.append_nil, List.nil_append] at this
  rw [this]
  simp [docOf, loaded, section_, elems, contents, newStyled, Styled.decodeAttrs, h, inside, Spec.textOf, numberOf, sheet_none]

private def after (kids : List Node) : Option (PdfResult × PState Fpdf) :=
  (strictly fl0 ord0 true kids).bind fun iss => process (Fpdf.engine exPaper) (view (docOf iss)) 2 (newProcessor (Fpdf.new exPaper))

private theorem after_some {kids : List Node} {x : PdfResult × PState Fpdf} (h : after kids = some x) :
    ∃ doc, load fl0 ord0 ord0 (Node.elem b!"document" [] [.elem b!"body" [] kids]).toks = some doc ∧
      process (Fpdf.engine exPaper) (view doc) 2 (newProcessor (Fpdf.new exPaper)) = some x := by
  obtain ⟨iss, h1, h2⟩ := Option.bind_eq_some_iff.mp h
  exact ⟨docOf iss, body_only h1, h2⟩

private def img (src : Str) : Node := .elem b!"image" [] [.chars src]
private def inCell (kids : List Node) : Node := .elem b!"table" [] [.elem b!"tr" [] [.elem b!"td" [] kids]]

/-- A body with images everywhere they can be seen, and one that cannot be read. -/
private def good : List Node :=
  [.chars b!" ", img b!"a", .elem b!"text" [] [.chars b!"text"], img b!"bad", .elem b!"image" [(b!"style", b!"width:5")] [.chars b!"b"], .other,
   inCell [.chars b!"in", img b!"c", .elem b!"u" [] [img b!"d"], .elem b!"p" [] [.chars b!"cell"]], img b!"a"]

/-- It meets the assumptions of C95_images_partial. -/
example : ∀ nd ∈ good, PicPlace fl0 ord0 nd := by
  unfold good
  simp only [List.forall_mem_cons]
  refine ⟨.without (by decide), .image, .without (by decide), .image, .image, .without (by decide), .table ?_, .image, by simp⟩
  simp only [List.forall_mem_cons]
  refine ⟨.row ?_, by simp⟩
  simp only [List.forall_mem_cons]
  refine ⟨.cell ?_, by simp⟩
  simp only [List.forall_mem_cons]
  refine ⟨.without (by decide), .image (by decide +kernel), .unknown (by decide) ?_, .without (by decide), by simp⟩
  simp only [List.forall_mem_cons]
  exact ⟨.image (by decide +kernel), by simp⟩

/-- Its readable images and what is on the page. -/
example : readable resolve0 images0 (picturesAll good) = [b!"d/a", b!"d/b", b!"d/c", b!"d/d", b!"d/a"] ∧
    (after good).map (fun x => putsOn x.2.eng) = some [.page, .image b!"d/a", .text b!"text", .image b!"d/b", .text b!"in", .text b!" cell",
      .image b!"d/c", .image b!"d/d", .image b!"d/a"] := by
  decide +kernel

/-- An image of the body that can be read is not on the pages. -/
private def loses (kids : List Node) : Bool :=
  match after kids with
  | none => false
  | some x => !x.1.failed && (readable resolve0 images0 (picturesAll kids)).any fun f => !(putsOn x.2.eng).contains (.image f)

/-- C95: places where a readable image is not shown, though the document is loaded and processed without an error: in a text, in a box, in a paragraph
in a cell, in a box or a table in a cell, in a cell with invalid styles of its own, in a row or cell without table, between the cells of a
table, and in a grid. -/
theorem C95_lost : ∀ kids ∈ ([[.elem b!"text" [] [img b!"a"]], [.elem b!"box" [] [img b!"a"]], [inCell [.elem b!"p" [] [img b!"a"]]],
      [inCell [.elem b!"box" [] [img b!"a"]]], [inCell [inCell [img b!"a"]]], [inCell [.elem b!"image" [(b!"style", b!"width:x")] [.chars b!"a"]]],
      [.elem b!"tr" [] [.elem b!"td" [] [img b!"a"]]], [.elem b!"td" [] [img b!"a"]], [.elem b!"table" [] [.elem b!"tr" [] [img b!"a"]]],
      [.elem b!"grid" [] [.elem b!"gr" [] [.chars b!"a"], .elem b!"part" [(b!"area", b!"a")] [img b!"a"]]]] : List (List Node)),
    ∃ doc r s', load fl0 ord0 ord0 (Node.elem b!"document" [] [.elem b!"body" [] kids]).toks = some doc ∧
      process (Fpdf.engine exPaper) (view doc) 2 (newProcessor (Fpdf.new exPaper)) = some (r, s') ∧ r.failed = false ∧
      ¬ ((readable resolve0 images0 (picturesAll kids)).map Put.image).Sublist (putsOn s'.eng) := by
  intro kids hk
  have h : loses kids = true := by
    revert kids
    rw [← List.all_eq_true]
    decide +kernel
  unfold loses at h
  cases hx : after kids with
  | none => simp [hx] at h
  | some x =>
    obtain ⟨doc, h1, h2⟩ := after_some hx
    simp only [hx, Bool.and_eq_true, List.any_eq_true, Bool.not_eq_true', List.contains_eq_mem, decide_eq_false_iff_not] at h
    obtain ⟨hf, f, hw, h3⟩ := h
    exact ⟨doc, x.1, x.2, h1, h2, hf, fun ha => h3 (ha.subset (List.mem_map_of_mem hw))⟩

end Verif.Props
