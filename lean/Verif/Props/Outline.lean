import Verif.Spec.Outline
import Verif.Props.Diff
import Mathlib.Data.Nat.Digits.Lemmas
/-
Property C71: Describe shows the outline of the document: every element, its nesting, spans, areas and style differences
(/repo/xdoc/describe.go).
-/
namespace Verif.Props
open Verif.Go Verif.Model Verif.Spec

/-! ### Decimal numbers -/

private theorem decNat_append (a b : Str) : ∀ n, decNat n (a ++ b) = (decNat n a).bind fun m => decNat m b := by
  induction a with
  | nil => intro n; rfl
  | cons c a ih =>
    intro n
    simp only [List.cons_append, decNat]
    split
    · exact ih _
    · rfl

private theorem digit_byte : ∀ d < 10, 48 ≤ (UInt8.ofNat (Nat.digitChar d).toNat).toNat ∧
    (UInt8.ofNat (Nat.digitChar d).toNat).toNat = 48 + d := by decide

private theorem decNat_natDec (n : Nat) : decNat 0 (natDec n) = some n := by
  induction n using Nat.strong_induction_on with
  | _ n ih =>
    unfold natDec
    rw [Nat.toDigits_eq_if (by decide)]
    by_cases h : n < 10
    · have := digit_byte n h
      rw [if_pos h]
      simp only [List.map_cons, List.map_nil, decNat, this.2]
      rw [if_pos (by omega)]; congr 1; omega
    · have h2 := digit_byte (n % 10) (by omega)
      rw [if_neg h, List.map_append, decNat_append]
      have := ih (n / 10) (by omega)
      unfold natDec at this
      rw [this]
      simp only [Option.bind_some, List.map_cons, List.map_nil, decNat, h2.2]
      rw [if_pos (by omega)]; congr 1; omega

private theorem natDec_head (n : Nat) (hn : n ≠ 0) : ∃ c cs, natDec n = c :: cs ∧ c ≠ 45 ∧ c ≠ 48 := by
  induction n using Nat.strong_induction_on with
  | _ n ih =>
    unfold natDec
    rw [Nat.toDigits_eq_if (by decide)]
    by_cases h : n < 10
    · rw [if_pos h]
      refine ⟨_, [], rfl, ?_, ?_⟩
      · intro e
        have := digit_byte n h
        simp only at e
        rw [e] at this
        exact absurd this.1 (by decide)
      · intro e
        have := (digit_byte n h).2
        simp only at e
        rw [e] at this
        have h48 : (48 : UInt8).toNat = 48 := rfl
        omega
    · obtain ⟨c, cs, h1, h2⟩ := ih (n / 10) (by omega) (by omega)
      unfold natDec at h1
      rw [if_neg h, List.map_append, h1]
      exact ⟨c, _, rfl, h2⟩

private theorem decPos_natDec (n : Nat) (hn : n ≠ 0) : decPos (natDec n) = some n := by
  obtain ⟨c, cs, h1, _, h2⟩ := natDec_head n hn
  rw [← decNat_natDec n, h1, decPos, if_neg h2]

private theorem decInt_intDec (n : Int) : decInt (intDec n) = some n := by
  by_cases h0 : n = 0
  · subst h0; decide
  · have hn : n.natAbs ≠ 0 := by omega
    have hv := decPos_natDec n.natAbs hn
    unfold intDec
    split
    · simp only [decInt, hv, Option.map_some]; congr 1; omega
    · obtain ⟨c, cs, h1, h2, h3⟩ := natDec_head n.natAbs hn
      rw [h1] at hv ⊢
      rw [decInt, hv, Option.map_some]
      · congr 1; omega
      · rintro e; exact h3 (by injection e)
      · rintro _ e; exact h2 (by injection e)

/-! ### The tree -/

private theorem describeMutator_eq (env : DescEnv) (st : Styled) :
    stylesDiff env.ji env.ord zeroStyles (st.mutatedStyles env.classes zeroStyles) = some (describeMutator env (some st)) := by
  unfold describeMutator
  cases h : stylesDiff env.ji env.ord zeroStyles (st.mutatedStyles env.classes zeroStyles) with
  | none => exact absurd h (C48_no_error _ _ _ _)
  | some ds => simp [h]

private theorem describeMutator_none (env : DescEnv) : describeMutator env none = [] := by
  simp only [describeMutator]
  rw [C48_same]

private theorem showsAll_append (cs : Classes) (ji : JsonInts) (o : DiffOrder) (is js : List DescItem) (es fs : List Elem)
    (h : ShowsAll cs ji o is es) (h' : ShowsAll cs ji o js fs) : ShowsAll cs ji o (is ++ js) (es ++ fs) := by
  induction is generalizing es with
  | nil => cases es with
    | nil => simpa using h'
    | cons e es => simp [ShowsAll] at h
  | cons i is ih => cases es with
    | nil => simp [ShowsAll] at h
    | cons e es =>
      simp only [ShowsAll, List.cons_append] at h ⊢
      exact ⟨h.1, ih es h.2⟩

private theorem shows_gridRows (env : DescEnv) (rows : List (Styled × List Str)) :
    ShowsAll env.classes env.ji env.ord
      (rows.map fun r => .mk b!"grid-row" (.str (join r.2 b!" ")) (describeMutator env (some r.1)) [])
      (rows.map fun r => .mk (.gridRow r.2) (some r.1) []) := by
  induction rows with
  | nil => simp [ShowsAll]
  | cons r rows ih => simp only [List.map_cons, ShowsAll, ShowsElem, Says, describeMutator_eq, ih, and_self]

mutual
private theorem shows_all (env : DescEnv) : ∀ is : List Instr,
    ShowsAll env.classes env.ji env.ord (describeInstructions env is) (elemsOf is)
  | [] => by simp [describeInstructions, elemsOf, ShowsAll]
  | .font st :: is => by
      simp only [describeInstructions, describeInstr, elemsOf, List.cons_append, List.nil_append, ShowsAll, ShowsElem, Says,
        describeMutator_eq, shows_all env is, and_self]
  | .lineFeed n :: is => by
      simp only [describeInstructions, describeInstr, elemsOf, List.cons_append, List.nil_append, ShowsAll, ShowsElem, Says,
        describeMutator_none, shows_all env is, and_self]
  | .setX n :: is => by
      simp only [describeInstructions, describeInstr, elemsOf, List.cons_append, List.nil_append, ShowsAll, ShowsElem, Says,
        describeMutator_none, shows_all env is, and_self]
  | .setY n :: is => by
      simp only [describeInstructions, describeInstr, elemsOf, List.cons_append, List.nil_append, ShowsAll, ShowsElem, Says,
        describeMutator_none, shows_all env is, and_self]
  | .box st inner :: is => by
      simp only [describeInstructions, describeInstr, elemsOf, List.cons_append, List.nil_append, ShowsAll, ShowsElem, Says,
        describeMutator_eq, shows_all env inner, shows_all env is, and_self]
  | .text st inner :: is => by
      simp only [describeInstructions, describeInstr, elemsOf, List.cons_append, List.nil_append, ShowsAll, ShowsElem, Says,
        describeMutator_eq, shows_all env inner, shows_all env is, and_self]
  | .image st s :: is => by
      simp only [describeInstructions, describeInstr, elemsOf, List.cons_append, List.nil_append, ShowsAll, ShowsElem, Says,
        describeMutator_eq, shows_all env is, and_self]
  | .textBlock t :: is => by
      simp only [describeInstructions, describeInstr, elemsOf, List.cons_append, List.nil_append, ShowsAll, ShowsElem, Says,
        shows_all env is, and_self]
  | .paragraph st t :: is => by
      simp only [describeInstructions, describeInstr, elemsOf, List.cons_append, List.nil_append, ShowsAll, ShowsElem, Says,
        describeMutator_eq, shows_all env is, and_self]
  | .lineBreak :: is => by
      simp only [describeInstructions, describeInstr, elemsOf, List.cons_append, List.nil_append, ShowsAll, ShowsElem, Says,
        shows_all env is, and_self]
  | .pageBreak :: is => by
      simp only [describeInstructions, describeInstr, elemsOf, List.cons_append, List.nil_append, ShowsAll, ShowsElem, Says,
        shows_all env is, and_self]
  | .table st rh rows :: is => by
      simp only [describeInstructions, describeInstr, elemsOf, List.cons_append, List.nil_append, ShowsAll, ShowsElem, Says,
        describeMutator_eq, shows_rows env rows, shows_all env is, and_self]
  | .tableRow r :: is => by
      simpa only [describeInstructions, describeInstr, elemsOf, List.nil_append] using shows_all env is
  | .tableCell c :: is => by
      simpa only [describeInstructions, describeInstr, elemsOf, List.nil_append] using shows_all env is
  | .grid st rows parts :: is => by
      simp only [describeInstructions, describeInstr, elemsOf, List.cons_append, List.nil_append, ShowsAll, ShowsElem, Says,
        describeMutator_eq, shows_all env is,
        showsAll_append _ _ _ _ _ _ _ (shows_gridRows env rows) (shows_parts env parts), and_self]
  | .gridRow st a :: is => by
      simpa only [describeInstructions, describeInstr, elemsOf, List.nil_append] using shows_all env is
  | .gridPart p :: is => by
      simpa only [describeInstructions, describeInstr, elemsOf, List.nil_append] using shows_all env is
private theorem shows_rows (env : DescEnv) : ∀ rs : List TableRow,
    ShowsAll env.classes env.ji env.ord (describeRows env rs) (elemsOfRows rs)
  | [] => by simp [describeRows, elemsOfRows, ShowsAll]
  | .mk st cells :: rs => by
      simp only [describeRows, elemsOfRows, ShowsAll, ShowsElem, Says, describeMutator_eq, shows_cells env cells,
        shows_rows env rs, and_self]
private theorem shows_cells (env : DescEnv) : ∀ cs : List TableCell,
    ShowsAll env.classes env.ji env.ord (describeCells env cs) (elemsOfCells cs)
  | [] => by simp [describeCells, elemsOfCells, ShowsAll]
  | .mk st c r iss :: cs => by
      simp only [describeCells, elemsOfCells, ShowsAll, ShowsElem, Says, describeMutator_eq, shows_all env iss,
        shows_cells env cs, and_self, and_true, true_and]
      exact ⟨_, _, rfl, decInt_intDec c, decInt_intDec r⟩
private theorem shows_parts (env : DescEnv) : ∀ ps : List GridPart,
    ShowsAll env.classes env.ji env.ord (describeParts env ps) (elemsOfParts ps)
  | [] => by simp [describeParts, elemsOfParts, ShowsAll]
  | .mk st a iss :: ps => by
      simp only [describeParts, elemsOfParts, ShowsAll, ShowsElem, Says, describeMutator_eq, shows_all env iss,
        shows_parts env ps, and_self]
end

/-- C71: the items for a sequence of instructions show its elements. -/
theorem C71_elements (env : DescEnv) (is : List Instr) :
    ShowsAll env.classes env.ji env.ord (describeInstructions env is) (elemsOf is) := shows_all env is

/-- C71: the description of a document has five items: meta data with author, creator and subject; the page with orientation,
format and margins (C49); and header, footer and body, whose items show their elements. -/
theorem C71_document (ji : JsonInts) (o : DiffOrder) (doc : Document) :
    ∃ margins hdr ftr bdy,
      describe ji o doc =
        [.mk b!"meta" .none [] [.mk b!"author" (.str doc.info.author) [] [], .mk b!"creator" (.str doc.info.creator) [] [],
           .mk b!"subject" (.str doc.info.subject) [] []],
         .mk b!"page" .none [] [.mk b!"orientation" (.str doc.page.orientation) [] [], .mk b!"format" (.str doc.page.format) [] [],
           .mk b!"margins" .none [] margins],
         .mk b!"header" .none [] hdr, .mk b!"footer" .none [] ftr, .mk b!"body" .none [] bdy] ∧
      ShowsAll doc.styleClasses ji o hdr (elemsOf doc.header) ∧
      ShowsAll doc.styleClasses ji o ftr (elemsOf doc.footer) ∧
      ShowsAll doc.styleClasses ji o bdy (elemsOf doc.body) :=
  ⟨_, _, _, _, rfl, shows_all ⟨doc.styleClasses, ji, o⟩ _, shows_all ⟨doc.styleClasses, ji, o⟩ _,
    shows_all ⟨doc.styleClasses, ji, o⟩ _⟩

/-- A kind without what the description does not show: of texts all but the cleared form, of the areas of a grid row all but
their joined form. -/
def plainKind : ElemKind → ElemKind
  | .paragraph t => .paragraph (clearStr t)
  | .textBlock t => .textBlock (clearStr t)
  | .gridRow areas => .gridRow [join areas b!" "]
  | k => k

mutual
/-- An element without what the description does not show (see `plainKind`), and without styles. -/
def plain : Elem → Elem
  | .mk k _ es => .mk (plainKind k) none (plainAll es)
def plainAll : List Elem → List Elem
  | [] => []
  | e :: es => plain e :: plainAll es
end

/-! ### A description determines the outline -/

private theorem decNat_space {c : Str} {n m : Nat} (h : decNat n c = some m) : ∀ x ∈ c, x ≠ 32 := by
  induction c generalizing n with
  | nil => simp
  | cons a c ih =>
    simp only [decNat] at h
    split at h
    · rename_i h1
      intro x hx
      simp only [List.mem_cons] at hx
      rcases hx with rfl | hx
      · rintro rfl; simp at h1
      · exact ih h x hx
    · simp at h

private theorem decPos_space {c : Str} {m : Nat} (h : decPos c = some m) : ∀ x ∈ c, x ≠ 32 := by
  cases c with
  | nil => simp
  | cons a c =>
    rw [decPos] at h
    split at h
    · simp at h
    · exact decNat_space h

private theorem decInt_space {c : Str} {n : Int} (h : decInt c = some n) : ∀ x ∈ c, x ≠ 32 := by
  unfold decInt at h
  split at h
  · decide
  · rw [Option.map_eq_some_iff] at h
    obtain ⟨m, h, _⟩ := h
    intro x hx
    simp only [List.mem_cons] at hx
    rcases hx with rfl | hx
    · decide
    · exact decPos_space h x hx
  · rw [Option.map_eq_some_iff] at h
    obtain ⟨m, h, _⟩ := h
    exact decPos_space h

private theorem append_space_inj (t u : Str) : ∀ (a a' : Str), (∀ x ∈ a, x ≠ 32) → (∀ x ∈ a', x ≠ 32) →
    a ++ 32 :: t = a' ++ 32 :: u → a = a' ∧ t = u
  | [], [], _, _, h => by simpa using h
  | [], c :: a', _, h2, h => by
      simp only [List.nil_append, List.cons_append, List.cons.injEq] at h
      exact absurd h.1.symm (h2 c (by simp))
  | c :: a, [], h1, _, h => by
      simp only [List.nil_append, List.cons_append, List.cons.injEq] at h
      exact absurd h.1 (h1 c (by simp))
  | c :: a, c' :: a', h1, h2, h => by
      simp only [List.cons_append, List.cons.injEq] at h
      have := append_space_inj t u a a' (fun x hx => h1 x (by simp [hx])) (fun x hx => h2 x (by simp [hx])) h.2
      exact ⟨by rw [h.1, this.1], this.2⟩

private theorem cell_inj {a b a' b' : Str} {cs rs cs' rs' : Int}
    (h : b!"table-cell colspan=" ++ a ++ b!" rowspan=" ++ b = b!"table-cell colspan=" ++ a' ++ b!" rowspan=" ++ b')
    (ha : decInt a = some cs) (hb : decInt b = some rs) (ha' : decInt a' = some cs') (hb' : decInt b' = some rs') :
    cs = cs' ∧ rs = rs' := by
  rw [List.append_assoc, List.append_assoc, List.append_assoc, List.append_assoc, List.append_cancel_left_eq] at h
  have h2 := append_space_inj (b!"rowspan=" ++ b) (b!"rowspan=" ++ b') a a' (decInt_space ha) (decInt_space ha') (by simpa using h)
  rw [List.append_cancel_left_eq] at h2
  obtain ⟨rfl, rfl⟩ := h2
  rw [ha] at ha'; rw [hb] at hb'
  exact ⟨by simpa using ha', by simpa using hb'⟩

/-- The name of a cell is none of the other names. -/
private theorem cell_ne {a b : Str} (n : Str) (h : n.take 10 ≠ b!"table-cell") :
    b!"table-cell colspan=" ++ a ++ b!" rowspan=" ++ b ≠ n := by
  rintro rfl
  exact h (by simp)

private theorem says_inj {name : Str} {v : DescValue} : ∀ {k k' : ElemKind}, Says name v k → Says name v k' → plainKind k = plainKind k' := by
  intro k k' h h'
  cases k <;> cases k' <;> simp only [Says] at h h' <;>
    first
    | rfl
    | (exfalso; obtain ⟨rfl, _⟩ := h; obtain ⟨h', _⟩ := h'; revert h'; decide)
    | (obtain ⟨rfl, rfl⟩ := h; obtain ⟨_, h'⟩ := h'; simp only [DescValue.num.injEq, DescValue.str.injEq] at h'; simp [plainKind, h'])
    | (obtain ⟨_, a, b, rfl, ha, hb⟩ := h; obtain ⟨_, a', b', hn, ha', hb'⟩ := h'
       obtain ⟨rfl, rfl⟩ := cell_inj hn ha hb ha' hb'; rfl)
    | (exfalso; obtain ⟨_, a, b, rfl, ha, hb⟩ := h; exact cell_ne _ (by decide) h'.1)
    | (exfalso; obtain ⟨_, a, b, rfl, ha, hb⟩ := h'; exact cell_ne _ (by decide) h.1)

mutual
private theorem showsElem_plain (cs cs' : Classes) (ji ji' : JsonInts) (o o' : DiffOrder) : ∀ (i : DescItem) (e e' : Elem),
    ShowsElem cs ji o i e → ShowsElem cs' ji' o' i e' → plain e = plain e'
  | .mk name v ds items, .mk k st es, .mk k' st' es', h, h' => by
      simp only [ShowsElem] at h h'
      simp only [plain, says_inj h.1 h'.1, showsAll_plain cs cs' ji ji' o o' items es es' h.2.2 h'.2.2]
private theorem showsAll_plain (cs cs' : Classes) (ji ji' : JsonInts) (o o' : DiffOrder) : ∀ (is : List DescItem) (es es' : List Elem),
    ShowsAll cs ji o is es → ShowsAll cs' ji' o' is es' → plainAll es = plainAll es'
  | [], [], [], _, _ => rfl
  | [], _ :: _, _, h, _ => by simp [ShowsAll] at h
  | [], _, _ :: _, _, h => by simp [ShowsAll] at h
  | _ :: _, [], _, h, _ => by simp [ShowsAll] at h
  | _ :: _, _, [], _, h => by simp [ShowsAll] at h
  | i :: is, e :: es, e' :: es', h, h' => by
      simp only [ShowsAll] at h h'
      simp only [plainAll, showsElem_plain cs cs' ji ji' o o' i e e' h.1 h'.1, showsAll_plain cs cs' ji ji' o o' is es es' h.2 h'.2]
end

/-- C71: documents with the same description have the same outline in header, footer and body: the same elements, nested alike,
with the same numbers, sources, areas and spans, and the same texts up to cleared white space. -/
theorem C71_determined (ji : JsonInts) (o : DiffOrder) (d d' : Document) (h : describe ji o d = describe ji o d') :
    plainAll (elemsOf d.header) = plainAll (elemsOf d'.header) ∧
    plainAll (elemsOf d.footer) = plainAll (elemsOf d'.footer) ∧
    plainAll (elemsOf d.body) = plainAll (elemsOf d'.body) := by
  obtain ⟨m, hdr, ftr, bdy, h0, h1, h2, h3⟩ := C71_document ji o d
  obtain ⟨m', hdr', ftr', bdy', h0', h1', h2', h3'⟩ := C71_document ji o d'
  rw [h0, h0'] at h
  simp only [List.cons.injEq, DescItem.mk.injEq, true_and, and_true] at h
  obtain ⟨-, -, rfl, rfl, rfl⟩ := h
  exact ⟨showsAll_plain _ _ _ _ _ _ _ _ _ h1 h1', showsAll_plain _ _ _ _ _ _ _ _ _ h2 h2',
    showsAll_plain _ _ _ _ _ _ _ _ _ h3 h3'⟩

/-! Cases. -/

example : decInt b!"-120" = some (-120) := by decide
example : decInt b!"1x" = none := by decide

-- a table with a spanning cell that holds an image; a stray row is not shown
example : elemsOf [.table ⟨[], []⟩ 1 [.mk ⟨[], []⟩ [.mk ⟨[], []⟩ 2 (-3) [.image ⟨[], []⟩ b!"x.png"]]], .tableRow (.mk ⟨[], []⟩ []),
    .setX 4] =
    [.mk .table (some ⟨[], []⟩) [.mk .tableRow (some ⟨[], []⟩) [.mk (.tableCell 2 (-3)) (some ⟨[], []⟩)
      [.mk (.image b!"x.png") (some ⟨[], []⟩) []]]], .mk (.setX 4) none []] := by
  simp [elemsOf, elemsOfRows, elemsOfCells]

-- its description
example (env : DescEnv) : ∃ a b c d, describeInstructions env [.table ⟨[], []⟩ 1 [.mk ⟨[], []⟩ [.mk ⟨[], []⟩ 2 (-3)
      [.image ⟨[], []⟩ b!"x.png"]]], .tableRow (.mk ⟨[], []⟩ []), .setX 4] =
    [.mk b!"table" .none a [.mk b!"table-row" .none b [.mk b!"table-cell colspan=2 rowspan=-3" .none c
      [.mk b!"image" (.str b!"x.png") d []]]], .mk b!"setx" (.num 4) [] []] := by
  simp [describeInstructions, describeInstr, describeRows, describeCells, describeMutator_none, intDec, natDec]
  decide

end Verif.Props
