import Verif.Proofs.LoadWalk
import Verif.Proofs.StyleClass
import Verif.Proofs.StyleCascade
/-
Loading a document (C51, C52, C61, C62).
-/
namespace Verif.Props
open Verif.Go Verif.Model Verif.Spec Verif.Proofs

variable {fl : Floats} {ord : Nat → MapOrder}

/-! ### C61: what is loaded -/

/-- Loading the tokens of a document gives exactly what the tree says, or an error if the tree says so. -/
theorem C61_exact (sheetOrd : Nat → MapOrder) (misc : List Tok) (hm : misc.all isMisc = true) (as : List Attr) (kids : List Node)
    (post : List Tok) :
    load fl ord sheetOrd (misc ++ ((Node.elem b!"document" as kids).toks ++ post)) = loaded fl ord sheetOrd kids :=
  load_tree sheetOrd misc hm as kids post

/-- Whatever the tokens are: if they can be loaded, they begin with those of a document, and the result is what its tree says. -/
theorem C61_wellformed (sheetOrd : Nat → MapOrder) (toks : List Tok) (doc : Document)
    (h : load fl ord sheetOrd toks = some doc) :
    ∃ misc as kids post, misc.all isMisc = true ∧ toks = misc ++ ((Node.elem b!"document" as kids).toks ++ post) ∧
      loaded fl ord sheetOrd kids = some doc := by
  have h' := h
  unfold load at h
  rcases hr : decodeRoot fl ord (toks.length + 1) ⟨[], toks⟩ with ⟨_ | x, d⟩
  · rw [hr] at h; simp at h
  · obtain ⟨misc, as, kids, post, h1, h2⟩ := root_some _ toks x d hr
    refine ⟨misc, as, kids, post, h1, h2, ?_⟩
    rw [← C61_exact sheetOrd misc h1 as kids post, ← h2, h']

/-! ### C51: instruction trees -/

theorem rowsOf_map (rows : List TableRow) : rowsOf (rows.map .tableRow) = rows := by
  simp [rowsOf, List.filterMap_map, Function.comp_def]

theorem cellsOf_map (cells : List TableCell) : cellsOf (cells.map .tableCell) = cells := by
  simp [cellsOf, List.filterMap_map, Function.comp_def]

theorem gridRowsOf_map (rows : List (Styled × List Str)) (parts : List GridPart) :
    gridRowsOf (rows.map (fun r => .gridRow r.1 r.2) ++ parts.map .gridPart) = rows := by
  simp [gridRowsOf, List.filterMap_map, Function.comp_def]

theorem partsOf_map (rows : List (Styled × List Str)) (parts : List GridPart) :
    partsOf (rows.map (fun r => .gridRow r.1 r.2) ++ parts.map .gridPart) = parts := by
  simp [partsOf, List.filterMap_map, Function.comp_def]

/-- The contents of an element. -/
def read (fl : Floats) (ord : Nat → MapOrder) : Bool → Bool → List Node → Option (List Instr)
  | false, texts, ns => strictly fl ord texts ns
  | true, texts, ns => leniently fl ord texts ns

mutual
theorem isXml_ok : ∀ {nd : Node} {i : Instr}, IsXml fl ord nd i → outcome fl ord nd = .ok i
  | _, _, .font h => by rw [out_font, h]; rfl
  | _, _, .lineFeed h => by rw [out_lf, h]; rfl
  | _, _, .setX h => by rw [out_setx, h]; rfl
  | _, _, .setY h => by rw [out_sety, h]; rfl
  | _, _, .image h => by rw [out_image, h]; simp [Outcome.of, directText]
  | _, _, .paragraph h => by rw [out_p, h]; simp [Outcome.of, directText]
  | _, _, .lineBreak => out_br
  | _, _, .pageBreak => out_newpage
  | _, _, .box h hk => by
    have := areXml_read hk
    simp only [read] at this
    rw [out_box, h, this]
  | _, _, .text h hk => by
    have := areXml_read hk
    simp only [read] at this
    rw [out_text, h, this]
  | _, _, .table h hk => by
    have := areXml_read hk
    simp only [read] at this
    rw [out_table, h, this]
    simp [Outcome.of, rowsOf_map]
  | _, _, .row h hk => by
    have := areXml_read hk
    simp only [read] at this
    rw [out_tr, h, this]
    simp [Outcome.of, cellsOf_map]
  | _, _, .cell h hk => by
    have := areXml_read hk
    simp only [read] at this
    rw [out_td, h, this]
    simp [Outcome.of]
  | _, _, .grid h hk hv => by
    have := areXml_read hk
    simp only [read] at this
    rw [out_grid, h, this]
    simp [Outcome.of, gridRowsOf_map, partsOf_map, hv]
  | _, _, .gridRow h => by
    rw [out_gr, h]
    simp [Outcome.of, hasAny, Node.has, lastTextAll, Node.lastText, areasAfter]
  | _, _, .gridPart h hk => by
    have := areXml_read hk
    simp only [read] at this
    rw [out_part, h, this]
    simp [Outcome.of]
theorem areXml_read : ∀ {lenient texts : Bool} {ns : List Node} {iss : List Instr}, AreXml fl ord lenient texts ns iss →
    read fl ord lenient texts ns = some iss
  | lenient, _, _, _, .nil => by cases lenient <;> simp [read, strictly, leniently]
  | lenient, _, _, _, .text ht h => by
    have := areXml_read h
    cases lenient <;> simp only [read] at this <;> simp [read, strictly, leniently, this, ht]
  | lenient, _, _, _, .space h => by
    have := areXml_read h
    cases lenient <;> simp only [read] at this <;> simp [read, strictly, leniently, this]
  | lenient, _, _, _, .comment h => by
    have := areXml_read h
    cases lenient <;> simp only [read] at this <;> simp [read, strictly, leniently, this]
  | lenient, _, _, _, .elem hi h => by
    have h1 := isXml_ok hi
    have := areXml_read h
    cases lenient <;> simp only [read] at this <;> simp [read, strictly, leniently, this, h1]
  | _, _, _, _, .wrapped hm hk h => by
    have h1 := areXml_read hk
    have h2 := areXml_read h
    simp only [read] at h1 h2
    simp [read, leniently, out_unknown hm, h1, h2]
end

/-- A document as in the examples. -/
def documentXml (author creator subject orientation format left top right bottom style : Str)
    (headerXml footerXml bodyXml : List Node) : List Node :=
  [.elem b!"meta" [] [.elem b!"author" [] [.chars author], .elem b!"creator" [] [.chars creator],
     .elem b!"subject" [] [.chars subject]],
   .elem b!"page" [] [.elem b!"orientation" [] [.chars orientation], .elem b!"format" [] [.chars format],
     .elem b!"margins" [] [.elem b!"left" [] [.chars left], .elem b!"top" [] [.chars top], .elem b!"right" [] [.chars right],
       .elem b!"bottom" [] [.chars bottom]]],
   .elem b!"style" [] [.chars style],
   .elem b!"header" [] headerXml, .elem b!"footer" [] footerXml, .elem b!"body" [] bodyXml]

/-- A document is loaded as it is written, with every instruction tree.  The claim is false for text directly in a part of a grid,
which `IsXml` therefore excludes (`C51_part_text`). -/
theorem C51_kept_partial (sheetOrd : Nat → MapOrder) (misc : List Tok) (hm : misc.all isMisc = true) (as : List Attr)
    (post : List Tok) (author creator subject orientation format left top right bottom style : Str)
    (headerXml footerXml bodyXml : List Node) (header footer body : List Instr) (l t r b : ℚ) (cs : Classes)
    (hh : AreXml fl ord false true headerXml header) (hf : AreXml fl ord false true footerXml footer)
    (hb : AreXml fl ord false true bodyXml body) (hl : floatValue fl left = some l) (ht : floatValue fl top = some t)
    (hr : floatValue fl right = some r) (hbo : floatValue fl bottom = some b) (hs : decodeClasses fl sheetOrd style = some cs) :
    load fl ord sheetOrd (misc ++ ((Node.elem b!"document" as
        (documentXml author creator subject orientation format left top right bottom style headerXml footerXml bodyXml)).toks ++ post)) =
      some ⟨⟨author, creator, subject⟩, ⟨orientation, format, ⟨l, t, r, b⟩⟩, header, footer, body, cs⟩ := by
  rw [C61_exact sheetOrd misc hm]
  have h1 := areXml_read hh
  have h2 := areXml_read hf
  have h3 := areXml_read hb
  simp only [read] at h1 h2 h3
  simp [loaded, section_, documentXml, elems, contents, newStyled, Styled.decodeAttrs, h1, h2, h3, inside, textOf, numberOf, directText,
    hl, ht, hr, hbo, hs]

/-! ### C52: unknown elements -/

theorem strictly_append (texts : Bool) : ∀ (a b : List Node), strictly fl ord texts (a ++ b) =
    (strictly fl ord texts a).bind fun x => (strictly fl ord texts b).map (x ++ ·)
  | [], b => by simp [strictly]
  | .chars t :: a, b => by
    simp only [List.cons_append, strictly, strictly_append texts a b]
    cases strictly fl ord texts a <;> cases strictly fl ord texts b <;> simp
    split <;> simp
  | .other :: a, b => by simp only [List.cons_append, strictly, strictly_append texts a b]
  | .elem m as kids :: a, b => by
    simp only [List.cons_append, strictly, strictly_append texts a b]
    cases outcome fl ord (.elem m as kids) <;> simp
    cases strictly fl ord texts a <;> cases strictly fl ord texts b <;> simp

theorem leniently_append (texts : Bool) : ∀ (a b : List Node), leniently fl ord texts (a ++ b) =
    (leniently fl ord texts a).bind fun x => (leniently fl ord texts b).map (x ++ ·)
  | [], b => by simp [leniently]
  | .chars t :: a, b => by
    simp only [List.cons_append, leniently, leniently_append texts a b]
    cases leniently fl ord texts a <;> cases leniently fl ord texts b <;> simp
    split <;> simp
  | .other :: a, b => by simp only [List.cons_append, leniently, leniently_append texts a b]
  | .elem m as kids :: a, b => by
    simp only [List.cons_append, leniently, leniently_append texts a b]
    cases outcome fl ord (.elem m as kids) <;> simp
    · cases leniently fl ord texts a <;> cases leniently fl ord texts b <;> simp
    · cases leniently fl ord texts kids <;> simp
      cases leniently fl ord texts a <;> cases leniently fl ord texts b <;> simp

theorem contains_fatal {inner : Bool} {c : Str} (hc : Contains inner c) {as : List Attr} {kids : List Node}
    (h : ∀ texts, read fl ord inner texts kids = none) : outcome fl ord (.elem c as kids) = .fatal := by
  have ht := h true
  have hf := h false
  cases hc <;> simp only [read] at ht hf
  · rw [out_box, ht]; cases newStyled fl ord as <;> rfl
  · rw [out_text, ht]; cases newStyled fl ord as <;> rfl
  · rw [out_table, hf]
  · rw [out_tr, hf]
  · rw [out_td, ht]
  · rw [out_grid, hf]
  · rw [out_part, hf]

/-- Contents that hold something that cannot be passed over cannot be read. -/
theorem somewhere_none {P : Bool → Node → Prop}
    (hP : ∀ lenient nd, P lenient nd → ∀ texts pre post, read fl ord lenient texts (pre ++ nd :: post) = none) :
    ∀ {lenient : Bool} {ns : List Node}, Somewhere P lenient ns → ∀ texts, read fl ord lenient texts ns = none
  | _, _, .here h, texts => hP _ _ h texts _ _
  | lenient, _, .within (as := as) hc h, texts => by
    have hf := contains_fatal (fl := fl) (ord := ord) (as := as) hc (somewhere_none hP h)
    cases lenient
    · simp [read, strictly_append, strictly, hf]
    · simp [read, leniently_append, leniently, hf]
  | _, _, .wrapped hm h, texts => by
    have hk := somewhere_none hP h texts
    simp only [read] at hk
    simp [read, leniently_append, leniently, out_unknown hm, hk]

theorem misplaced_none (lenient : Bool) (nd : Node) (h : Misplaced lenient nd) (texts : Bool) (pre post : List Node) :
    read fl ord lenient texts (pre ++ nd :: post) = none := by
  obtain ⟨hm⟩ := h
  simp [read, strictly_append, strictly, out_unknown hm]

theorem badBox_none (lenient : Bool) (nd : Node) (h : BadBox fl ord lenient nd) (texts : Bool) (pre post : List Node) :
    read fl ord lenient texts (pre ++ nd :: post) = none := by
  cases h with
  | box h => cases lenient <;> simp [read, strictly_append, strictly, leniently_append, leniently, out_box, h]
  | text h => cases lenient <;> simp [read, strictly_append, strictly, leniently_append, leniently, out_text, h]

theorem mapM_none {α β : Type} {f : α → Option β} {l : List α} {a : α} (ha : a ∈ l) (h : f a = none) : l.mapM f = none := by
  induction l with
  | nil => simp at ha
  | cons x l ih =>
    rw [List.mapM_cons]
    rcases List.mem_cons.mp ha with rfl | ha
    · rw [h]; rfl
    · rw [ih ha]; cases f x <;> rfl

theorem loaded_none {sheetOrd : Nat → MapOrder} {ns : List Node} {name : Str} (hn : isTop name)
    (h : section_ fl ord name ns = none) : loaded fl ord sheetOrd ns = none := by
  cases hd : loaded fl ord sheetOrd ns with
  | none => rfl
  | some doc =>
    unfold loaded at hd
    simp only [Option.bind_eq_bind, Option.pure_def, Option.bind_eq_some_iff] at hd
    obtain ⟨_, -, _, -, _, -, _, -, _, h1, _, h2, _, h3, -⟩ := hd
    rcases hn with rfl | rfl | rfl
    · rw [h] at h1; cases h1
    · rw [h] at h2; cases h2
    · rw [h] at h3; cases h3

theorem mem_elems {m : Str} {as : List Attr} {kids : List Node} : ∀ {ns : List Node}, Node.elem m as kids ∈ ns → (m, as, kids) ∈ elems ns
  | [], h => by simp at h
  | .elem n bs ks :: ns, h => by
    simp only [List.mem_cons, Node.elem.injEq] at h
    rcases h with ⟨rfl, rfl, rfl⟩ | h
    · simp [elems]
    · simp only [elems, List.mem_cons]; exact Or.inr (mem_elems h)
  | .chars t :: ns, h => by
    simp only [List.mem_cons, reduceCtorEq, false_or] at h
    simp only [elems]
    exact mem_elems h
  | .other :: ns, h => by
    simp only [List.mem_cons, reduceCtorEq, false_or] at h
    simp only [elems]
    exact mem_elems h

theorem load_none {P : Bool → Node → Prop}
    (hP : ∀ lenient nd, P lenient nd → ∀ texts pre post, read fl ord lenient texts (pre ++ nd :: post) = none)
    (sheetOrd : Nat → MapOrder) (misc : List Tok) (hm : misc.all isMisc = true) (as : List Attr) (ns : List Node)
    (post : List Tok) (name : Str) (hn : name = b!"header" ∨ name = b!"footer" ∨ name = b!"body") (attrs : List Attr)
    (kids : List Node) (hk : Node.elem name attrs kids ∈ ns) (hu : Somewhere P false kids) :
    load fl ord sheetOrd (misc ++ ((Node.elem b!"document" as ns).toks ++ post)) = none := by
  rw [C61_exact sheetOrd misc hm]
  refine loaded_none hn ?_
  have h : contents fl ord attrs kids = none := by
    have := somewhere_none hP hu true
    simp only [read] at this
    simp [contents, this]
  unfold section_
  rw [mapM_none (a := (name, attrs, kids)) (List.mem_filter.mpr ⟨mem_elems hk, by simp⟩) h]
  rfl

/-- An unknown element in a body, header, footer, box, text, table or tr, wherever that stands, makes loading fail. -/
theorem C52_fails (sheetOrd : Nat → MapOrder) (misc : List Tok) (hm : misc.all isMisc = true) (as : List Attr) (ns : List Node)
    (post : List Tok) (name : Str) (hn : name = b!"header" ∨ name = b!"footer" ∨ name = b!"body") (attrs : List Attr)
    (kids : List Node) (hk : Node.elem name attrs kids ∈ ns) (hu : Somewhere Misplaced false kids) :
    load fl ord sheetOrd (misc ++ ((Node.elem b!"document" as ns).toks ++ post)) = none :=
  load_none misplaced_none sheetOrd misc hm as ns post name hn attrs kids hk hu

theorem contains_same {inner : Bool} {c : Str} (hc : Contains inner c) {as : List Attr} {kids kids' : List Node}
    (h : ∀ texts, read fl ord inner texts kids = read fl ord inner texts kids') :
    outcome fl ord (.elem c as kids) = outcome fl ord (.elem c as kids') := by
  have ht := h true
  have hf := h false
  cases hc <;> simp only [read] at ht hf
  · rw [out_box, out_box, ht]
  · rw [out_text, out_text, ht]
  · rw [out_table, out_table, hf]
  · rw [out_tr, out_tr, hf]
  · rw [out_td, out_td, ht]
  · rw [out_grid, out_grid, hf]
  · rw [out_part, out_part, hf]

theorem contains_not_opened {inner : Bool} {c : Str} (hc : Contains inner c) {as : List Attr} {kids : List Node} :
    outcome fl ord (.elem c as kids) ≠ .opened := by
  cases hc
  · rw [out_box]; split <;> simp
  · rw [out_text]; split <;> simp
  · rw [out_table]; split
    · simp
    · exact of_ne_opened _
  · rw [out_tr]; split
    · simp
    · exact of_ne_opened _
  · exact fun h => opened_ne (name := b!"td") (by simp [Lenient]) h rfl
  · exact fun h => opened_ne (name := b!"grid") (by simp [Lenient]) h rfl
  · exact fun h => opened_ne (name := b!"part") (by simp [Lenient]) h rfl

theorem changed_same {R : List Node → List Node → Prop}
    (hR : ∀ ns ns', R ns ns' → ∀ texts, leniently fl ord texts ns = leniently fl ord texts ns') :
    ∀ {lenient : Bool} {ns ns' : List Node}, Changed R lenient ns ns' → ∀ texts, read fl ord lenient texts ns = read fl ord lenient texts ns'
  | _, _, _, .here h, texts => hR _ _ h texts
  | lenient, _, _, .within (as := as) (kids := kids) (kids' := kids') (c := c) hc h, texts => by
    have e := contains_same (fl := fl) (ord := ord) hc (as := as) (changed_same hR h)
    have hno := contains_not_opened (fl := fl) (ord := ord) hc (as := as) (kids := kids')
    cases lenient
    · simp only [read, strictly_append, strictly, e]
    · simp only [read, leniently_append, leniently, e]
      cases ho : outcome fl ord (.elem c as kids') with
      | opened => exact absurd ho hno
      | _ => rfl
  | _, _, _, .wrapped hm h, texts => by
    have := changed_same hR h texts
    simp only [read] at this
    simp only [read, leniently_append, leniently, out_unknown hm, this]

theorem unwraps_same (ns ns' : List Node) (h : Unwraps ns ns') (texts : Bool) :
    leniently fl ord texts ns = leniently fl ord texts ns' := by
  obtain ⟨hm⟩ := h
  rename_i pre m as kids post
  simp only [leniently_append, leniently, out_unknown hm]
  congr 1
  funext x
  cases leniently fl ord texts kids <;> simp

theorem drops_same (ns ns' : List Node) (h : Drops fl ord ns ns') (texts : Bool) :
    leniently fl ord texts ns = leniently fl ord texts ns' := by
  cases h with
  | leaf hm ha =>
    rename_i pre m as kids post
    have : outcome fl ord (.elem m as kids) = .dropped := by
      rcases hm with rfl | rfl | rfl
      · rw [out_font, ha]; rfl
      · rw [out_p, ha]; rfl
      · rw [out_image, ha]; rfl
    simp only [leniently_append, leniently, this]
  | grid hk hv =>
    rename_i pre as kids post rows parts
    have h1 := areXml_read hk
    simp only [read] at h1
    have : outcome fl ord (.elem b!"grid" as kids) = .dropped := by
      rw [out_grid, h1]
      simp [gridRowsOf_map, partsOf_map, hv]
    simp only [leniently_append, leniently, this]

theorem load_changed {R : List Node → List Node → Prop}
    (hR : ∀ ns ns', R ns ns' → ∀ texts, leniently fl ord texts ns = leniently fl ord texts ns') (sheetOrd : Nat → MapOrder) (misc : List Tok) (hm : misc.all isMisc = true) (as : List Attr)
    (before after : List Node) (post : List Tok) (name : Str) (hn : name = b!"header" ∨ name = b!"footer" ∨ name = b!"body")
    (attrs : List Attr) (kids kids' : List Node) (hu : Changed R false kids kids') :
    load fl ord sheetOrd (misc ++ ((Node.elem b!"document" as (before ++ .elem name attrs kids :: after)).toks ++ post)) =
    load fl ord sheetOrd (misc ++ ((Node.elem b!"document" as (before ++ .elem name attrs kids' :: after)).toks ++ post)) := by
  rw [C61_exact sheetOrd misc hm, C61_exact sheetOrd misc hm]
  have hc : contents fl ord attrs kids = contents fl ord attrs kids' := by
    have := changed_same hR hu true
    simp only [read] at this
    simp [contents, this]
  have hel : ∀ (a b : List Node), elems (a ++ b) = elems a ++ elems b := by
    intro a b
    induction a with
    | nil => rfl
    | cons nd a ih => cases nd <;> simp [elems, ih]
  have hsec : ∀ n, section_ fl ord n (before ++ .elem name attrs kids :: after) =
      section_ fl ord n (before ++ .elem name attrs kids' :: after) := by
    intro n
    unfold section_
    rw [hel, hel, elems, elems, List.filter_append, List.filter_append, List.mapM_append, List.mapM_append]
    by_cases hne : name = n
    · simp [hne, hc]
    · simp [hne]
  have hin : ∀ n, n ≠ name → inside n (before ++ .elem name attrs kids :: after) = inside n (before ++ .elem name attrs kids' :: after) := by
    intro n hne
    unfold inside
    rw [hel, hel, elems, elems, List.filter_append, List.filter_append]
    simp [Ne.symm hne]
  have htx : ∀ n, n ≠ name → textOf n (before ++ .elem name attrs kids :: after) = textOf n (before ++ .elem name attrs kids' :: after) := by
    intro n hne
    unfold textOf
    rw [hel, hel, elems, elems, List.filter_append, List.filter_append]
    simp [Ne.symm hne]
  have h1 : b!"meta" ≠ name := by rcases hn with rfl | rfl | rfl <;> decide
  have h2 : b!"page" ≠ name := by rcases hn with rfl | rfl | rfl <;> decide
  have h3 : b!"style" ≠ name := by rcases hn with rfl | rfl | rfl <;> decide
  unfold loaded
  simp only [hsec, hin _ h1, hin _ h2, htx _ h3]

/-- In a table cell, grid or grid part an unknown element counts as its contents. -/
theorem C52_unwrapped (sheetOrd : Nat → MapOrder) (misc : List Tok) (hm : misc.all isMisc = true) (as : List Attr)
    (before after : List Node) (post : List Tok) (name : Str) (hn : name = b!"header" ∨ name = b!"footer" ∨ name = b!"body")
    (attrs : List Attr) (kids kids' : List Node) (hu : Changed Unwraps false kids kids') :
    load fl ord sheetOrd (misc ++ ((Node.elem b!"document" as (before ++ .elem name attrs kids :: after)).toks ++ post)) =
    load fl ord sheetOrd (misc ++ ((Node.elem b!"document" as (before ++ .elem name attrs kids' :: after)).toks ++ post)) :=
  load_changed unwraps_same sheetOrd misc hm as before after post name hn attrs kids kids' hu

/-! ### C62: instructions that are not valid -/

/-- A box or text whose style cannot be read makes loading fail, wherever it stands. -/
theorem C62_box (sheetOrd : Nat → MapOrder) (misc : List Tok) (hm : misc.all isMisc = true) (as : List Attr) (ns : List Node)
    (post : List Tok) (name : Str) (hn : name = b!"header" ∨ name = b!"footer" ∨ name = b!"body") (attrs : List Attr)
    (kids : List Node) (hk : Node.elem name attrs kids ∈ ns) (hu : Somewhere (BadBox fl ord) false kids) :
    load fl ord sheetOrd (misc ++ ((Node.elem b!"document" as ns).toks ++ post)) = none :=
  load_none badBox_none sheetOrd misc hm as ns post name hn attrs kids hk hu

/-- In a table cell, grid or grid part a font, p or image whose style cannot be read and a grid that is not valid count for
nothing. -/
theorem C62_dropped (sheetOrd : Nat → MapOrder) (misc : List Tok) (hm : misc.all isMisc = true) (as : List Attr)
    (before after : List Node) (post : List Tok) (name : Str) (hn : name = b!"header" ∨ name = b!"footer" ∨ name = b!"body")
    (attrs : List Attr) (kids kids' : List Node) (hu : Changed (Drops fl ord) false kids kids') :
    load fl ord sheetOrd (misc ++ ((Node.elem b!"document" as (before ++ .elem name attrs kids :: after)).toks ++ post)) =
    load fl ord sheetOrd (misc ++ ((Node.elem b!"document" as (before ++ .elem name attrs kids' :: after)).toks ++ post)) :=
  load_changed drops_same sheetOrd misc hm as before after post name hn attrs kids kids' hu

/-! ### Examples -/

private def fl0 : Floats := { parseFloat := fun s => (parseInt s).map (fun n => (n : ℚ)), convertFloat := fun s => (parseInt s).map (fun n => (n : ℚ)) }
private def ord0 : Nat → MapOrder := fun _ => ⟨id, fun _ => .refl _⟩

/-- `<box>a<br/><table><tr><td>b</td></tr></table></box>` -/
private def boxXml : Node :=
  .elem b!"box" [] [.chars b!"a", .elem b!"br" [] [], .elem b!"table" [(b!"repeatheader", b!"1")]
    [.chars b!" ", .elem b!"tr" [] [.elem b!"td" [(b!"colspan", b!"2")] [.elem b!"u" [] [.chars b!"b"]]]]]

private def boxInstr : Instr :=
  .box ⟨[], []⟩ [.textBlock b!"a", .lineBreak, .table ⟨[], []⟩ 1 [.mk ⟨[], []⟩ [.mk ⟨[], []⟩ 2 0 [.textBlock b!"b"]]]]

private theorem box_isXml : IsXml fl0 ord0 boxXml boxInstr := by
  refine .box rfl (.text (by decide) (.elem .lineBreak (.elem (.table (rows := [_]) rfl
    (.space (.elem (.row (cells := [_]) rfl (.elem (.cell rfl ?_) .nil)) .nil))) .nil)))
  exact .wrapped (iss := [.textBlock b!"b"]) (jss := []) (by decide) (.text (by decide) .nil) .nil

private theorem sheet_read : decodeClasses fl0 ord0 b!"a{h-align:left}" = some [(b!"a", ⟨[([4, 0], .str b!"left")], []⟩)] := by
  have h : flat b!"a{h-align:left}" = blocksText [⟨b!"a", b!"h-align:left"⟩] ++ [] := by decide
  unfold decodeClasses
  rw [sheetText_eq, h]
  simp only [blocksText, List.flatMap_cons, List.flatMap_nil, List.append_assoc, List.nil_append]
  rw [loop_block _ _ _ _ ⟨by decide, by decide⟩, if_neg (by decide),
    show decodeMutator fl0 (ord0 0) b!"h-align:left" = some [([4, 0], .str b!"left")] by decide]
  simp only [show addBlock [] (trimWS b!"a") [([4, 0], .str b!"left")] = some [(b!"a", ⟨[([4, 0], .str b!"left")], []⟩)] from rfl]
  rw [loop_tail _ _ _ (by decide)]

/-- The hypotheses of C51_kept_partial hold for a document with this box. -/
example : load fl0 ord0 ord0 ([.other, .chars b!" "] ++ ((Node.elem b!"document" [] (documentXml b!"me" b!"it" b!"that" b!"portrait"
      b!"a4" b!"20" b!"30" b!"15" b!"5" b!"a{h-align:left}" [.chars b!"top"] [] [boxXml])).toks ++ [])) =
    some ⟨⟨b!"me", b!"it", b!"that"⟩, ⟨b!"portrait", b!"a4", ⟨20, 30, 15, 5⟩⟩, [.textBlock b!"top"], [], [boxInstr],
      [(b!"a", ⟨[([4, 0], .str b!"left")], []⟩)]⟩ :=
  C51_kept_partial ord0 _ rfl [] [] _ _ _ _ _ _ _ _ _ _ _ _ _ _ _ _ _ _ _ _ _
    (.text (by decide) .nil) .nil (.elem box_isXml .nil) (by decide) (by decide) (by decide) (by decide) sheet_read

private theorem sheet_none : decodeClasses fl0 ord0 [] = some [] := by
  unfold decodeClasses
  rw [sheetText_eq]
  rw [loop_tail _ _ _ (by decide)]

/-- A document with nothing but a body. -/
private theorem body_only {kids : List Node} {iss : List Instr} (h : strictly fl0 ord0 true kids = some iss) :
    load fl0 ord0 ord0 (Node.elem b!"document" [] [.elem b!"body" [] kids]).toks =
      some ⟨⟨[], [], []⟩, ⟨[], [], ⟨0, 0, 0, 0⟩⟩, [], [], iss, []⟩ := by
  have := C61_exact (fl := fl0) (ord := ord0) ord0 [] rfl [] [.elem b!"body" [] kids] []
  rw [List.append_nil, List.nil_append] at this
  rw [this]
  simp [loaded, section_, elems, contents, newStyled, Styled.decodeAttrs, h, inside, textOf, numberOf, sheet_none]

/-- Text directly in a part of a grid is lost: `<part area="a">Hello</part>` loads as a part without contents, while the same text in
a td is kept. -/
theorem C51_part_text :
    load fl0 ord0 ord0 (Node.elem b!"document" [] [.elem b!"body" [] [.elem b!"grid" [] [.elem b!"gr" [] [.chars b!"a"],
      .elem b!"part" [(b!"area", b!"a")] [.chars b!"Hello"]]]]).toks =
      some ⟨⟨[], [], []⟩, ⟨[], [], ⟨0, 0, 0, 0⟩⟩, [], [],
        [.grid ⟨[], []⟩ [(⟨[], []⟩, [b!"a"])] [.mk ⟨[], []⟩ b!"a" []]], []⟩ ∧
    load fl0 ord0 ord0 (Node.elem b!"document" [] [.elem b!"body" [] [.elem b!"td" [] [.chars b!"Hello"]]]).toks =
      some ⟨⟨[], [], []⟩, ⟨[], [], ⟨0, 0, 0, 0⟩⟩, [], [],
        [.tableCell (.mk ⟨[], []⟩ 0 0 [.textBlock b!"Hello"])], []⟩ := by
  constructor
  · apply body_only
    have h1 : outcome fl0 ord0 (.elem b!"gr" [] [.chars b!"a"]) = .ok (.gridRow ⟨[], []⟩ [b!"a"]) := by
      rw [out_gr]; rfl
    have h2 : outcome fl0 ord0 (.elem b!"part" [(b!"area", b!"a")] [.chars b!"Hello"]) = .ok (.gridPart (.mk ⟨[], []⟩ b!"a" [])) := by
      rw [out_part]; rfl
    have h3 : gridValidate [[b!"a"]] [b!"a"] = true := by decide +kernel
    simp only [strictly, out_grid, leniently, h1, h2]
    rfl
  · apply body_only
    simp only [strictly, out_td]
    rfl

/-- `<box><tr><foo/></tr></box>`: an unknown element in a row in a box. -/
example : Somewhere Misplaced false [.elem b!"box" [] [.chars b!"x", .elem b!"tr" [] [.elem b!"foo" [] []]]] :=
  .within (pre := []) .box (.within (pre := [.chars b!"x"]) .row (.here (pre := []) (.unknown (by decide))))

/-- `<td><u>a</u>b</td>` in a row counts as `<td>ab</td>`. -/
example : Changed Unwraps false [.elem b!"tr" [] [.elem b!"td" [] [.elem b!"u" [] [.chars b!"a"], .chars b!"b"]]]
    [.elem b!"tr" [] [.elem b!"td" [] [.chars b!"a", .chars b!"b"]]] :=
  .within (pre := []) .row (.within (pre := []) .cell (.here (.mk (pre := []) (by decide))))

/-- A box with an unreadable style in a table cell. -/
example : Somewhere (BadBox fl0 ord0) false [.elem b!"td" [] [.elem b!"box" [(b!"style", b!"width:x")] []]] :=
  .within (pre := []) .cell (.here (pre := []) (.box (by decide +kernel)))

/-- A paragraph with an unreadable style in a table cell. -/
example : Changed (Drops fl0 ord0) false [.elem b!"td" [] [.chars b!"a", .elem b!"p" [(b!"style", b!"width:x")] [.chars b!"b"]]]
    [.elem b!"td" [] [.chars b!"a"]] :=
  .within (pre := []) .cell (.here (.leaf (pre := [.chars b!"a"]) (.inr (.inl rfl)) (by decide +kernel)))

end Verif.Props
