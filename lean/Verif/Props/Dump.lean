import Verif.Model.Dump
import Verif.Spec.Dump
import Verif.Proofs.Utf8
import Verif.Props.Diff
/-
Property C94: what `describe` prints can be read back (/repo/xdoc/describe.go, Dump, and /repo/cmd/describe/main.go).
-/
namespace Verif.Props
open Verif.Go Verif.Model Verif.Spec Verif.Proofs

/-! Character data. -/

private theorem chars_plain (bs : Str) (h : ∀ c ∈ bs, c ≠ 38) (t : Str) :
    bs.foldl Chars.step (some ⟨t, none⟩) = some ⟨t ++ bs, none⟩ := by
  induction bs generalizing t with
  | nil => simp
  | cons c cs ih =>
    simp only [List.foldl_cons, Chars.step, if_neg (h c (by simp))]
    rw [ih (fun d hd => h d (by simp [hd]))]
    simp

private theorem byte_ge {n : Nat} (h1 : 0x80 ≤ n) (h2 : n < 256) (k : UInt8) (hk : k.toNat < 0x80) : UInt8.ofNat n ≠ k := by
  intro he
  have := toNat_ofNat_lt h2
  rw [he] at this
  omega

private theorem encodeRune_high {r : Nat} (hr : 0x80 ≤ r) (k : UInt8) (hk : k.toNat < 0x80) : ∀ c ∈ encodeRune r, c ≠ k := by
  unfold encodeRune
  have key : ∀ q, 0x80 ≤ q → validRune q = true → ∀ c ∈ encodeValid q, c ≠ k := by
    intro q hq hv c hc
    have hb : q ≤ 0x10FFFF := by
      rcases validRune_lt hv with h | h <;> omega
    unfold encodeValid at hc
    split at hc
    · omega
    · split at hc
      · simp only [List.mem_cons, List.not_mem_nil, or_false] at hc
        rcases hc with rfl | rfl <;> exact byte_ge (by omega) (by omega) k hk
      · split at hc
        · simp only [List.mem_cons, List.not_mem_nil, or_false] at hc
          rcases hc with rfl | rfl | rfl <;> exact byte_ge (by omega) (by omega) k hk
        · simp only [List.mem_cons, List.not_mem_nil, or_false] at hc
          rcases hc with rfl | rfl | rfl | rfl <;> exact byte_ge (by omega) (by omega) k hk
  split
  · rename_i h
    exact key r hr h
  · exact key runeError (by decide) validRune_runeError

private theorem encodeRune_low {r : Nat} (hr : r < 0x80) : encodeRune r = [UInt8.ofNat r] := by
  have hv : validRune r = true := by simp [validRune]; omega
  simp [encodeRune, hv, encodeValid, hr]

/-- A character other than `&` and `<` stands for itself, and is not written with them. -/
private theorem encodeRune_ne (r : Nat) (k : UInt8) (hk : k.toNat < 0x80) (h : r ≠ k.toNat) : ∀ c ∈ encodeRune r, c ≠ k := by
  by_cases hr : r < 0x80
  · rw [encodeRune_low hr]
    intro c hc
    simp only [List.mem_singleton] at hc
    subst hc
    intro he
    have := toNat_ofNat_lt (show r < 256 by omega)
    rw [he] at this
    omega
  · exact encodeRune_high (by omega) k hk

private theorem xmlChar_clean (r : Nat) : cleanRune r = if xmlChar r then r else runeError := by
  unfold cleanRune xmlChar runeError
  simp only [Bool.or_eq_true, Bool.and_eq_true, beq_iff_eq, decide_eq_true_eq, or_assoc]

private theorem chars_rune (r : Nat) (t : Str) :
    (xmlEscapeRune r).foldl Chars.step (some ⟨t, none⟩) = some ⟨t ++ encodeRune (cleanRune r), none⟩ := by
  unfold xmlEscapeRune
  iterate 8 (split; · rename_i h; subst h; rfl)
  rw [xmlChar_clean]
  split
  · rename_i h1 h2 h3 h4 h5 h6 h7 h8 h9
    rw [chars_plain _ (encodeRune_ne r 38 (by decide) h3)]
  · rw [chars_plain _ (encodeRune_ne runeError 38 (by decide) (by decide))]

private theorem chars_escape (s : Str) : chars (xmlEscape s) = some (cleanText s) := by
  have h : ∀ (rs : List Nat) (t : Str), (rs.flatMap xmlEscapeRune).foldl Chars.step (some ⟨t, none⟩) =
      some ⟨t ++ encodeRunes (rs.map cleanRune), none⟩ := by
    intro rs
    induction rs with
    | nil => intro t; simp [encodeRunes]
    | cons r rs ih =>
      intro t
      rw [List.flatMap_cons, List.foldl_append, chars_rune, ih]
      simp [encodeRunes, List.append_assoc]
  unfold chars xmlEscape
  rw [h]
  simp [cleanText]

private theorem chars_id (s : Str) (h : ∀ c ∈ s, c ≠ 38) : chars s = some s := by
  unfold chars
  rw [chars_plain s h]
  simp

private theorem escape_no_lt (s : Str) : ∀ c ∈ xmlEscape s, c ≠ 60 := by
  intro c hc
  simp only [xmlEscape, List.mem_flatMap] at hc
  obtain ⟨r, -, hc⟩ := hc
  unfold xmlEscapeRune at hc
  iterate 8 (split at hc; · exact (by decide : ∀ c ∈ (_ : Str), c ≠ 60) c hc)
  split at hc
  · rename_i h1 h2 h3 h4 h5 h6 h7 h8 h9
    exact encodeRune_ne r 60 (by decide) h4 c hc
  · exact encodeRune_ne runeError 60 (by decide) (by decide) c hc

/-! Elements. -/

/-- Names of elements that can be read. -/
private def GoodName (n : Str) : Prop := (∀ c ∈ n, c ≠ 62) ∧ n.head? ≠ some 47

private instance (n : Str) : Decidable (GoodName n) := by unfold GoodName; infer_instance

mutual
private def GoodXml : XmlOut → Prop
  | .leaf n _ => GoodName n
  | .node n ks => GoodName n ∧ GoodAll ks

private def GoodAll : List XmlOut → Prop
  | [] => True
  | x :: xs => GoodXml x ∧ GoodAll xs
end

/-- The blanks before each of the elements. -/
private def padding (d : Nat) (xs : List XmlOut) : Str := xs.flatMap fun _ => b!"\n" ++ xmlIndent d

/-- The character data of an element with elements inside. -/
private def blanks (d : Nat) (xs : List XmlOut) : Str := padding (d + 1) xs ++ (if xs.isEmpty then [] else b!"\n" ++ xmlIndent d)

mutual
private def toNode (d : Nat) : XmlOut → XmlNode
  | .leaf n t => .mk n (cleanText t) []
  | .node n ks => .mk n (blanks d ks) (toNodes (d + 1) ks)

private def toNodes (d : Nat) : List XmlOut → List XmlNode
  | [] => []
  | x :: xs => toNode d x :: toNodes d xs
end

private theorem read_text (bs : Str) (h : ∀ c ∈ bs, c ≠ 60) (n raw : Str) (ks : List XmlNode) (os : List Opened) :
    bs.foldl Reader.step (some ⟨none, ⟨n, raw, ks⟩, os⟩) = some ⟨none, ⟨n, raw ++ bs, ks⟩, os⟩ := by
  induction bs generalizing raw with
  | nil => simp
  | cons c cs ih =>
    simp only [List.foldl_cons, Reader.step, if_neg (h c (by simp))]
    rw [ih (fun d hd => h d (by simp [hd]))]
    simp

private theorem read_tag (bs : Str) (h : ∀ c ∈ bs, c ≠ 62) (acc : Str) (top : Opened) (os : List Opened) :
    bs.foldl Reader.step (some ⟨some acc, top, os⟩) = some ⟨some (acc ++ bs), top, os⟩ := by
  induction bs generalizing acc with
  | nil => simp
  | cons c cs ih =>
    simp only [List.foldl_cons, Reader.step, if_neg (h c (by simp))]
    rw [ih (fun d hd => h d (by simp [hd]))]
    simp

private theorem read_open (n : Str) (hn : GoodName n) (top : Opened) (os : List Opened) :
    (b!"<" ++ n ++ b!">").foldl Reader.step (some ⟨none, top, os⟩) = some ⟨none, ⟨n, [], []⟩, top :: os⟩ := by
  rw [List.append_assoc, List.foldl_append, List.foldl_append]
  have h1 : (b!"<").foldl Reader.step (some ⟨none, top, os⟩) = some ⟨some [], top, os⟩ := rfl
  rw [h1, read_tag n hn.1]
  have h2 : ∀ r, (b!">").foldl Reader.step (some ⟨some n, r, os⟩) = Reader.endTag ⟨some n, r, os⟩ n := fun r => rfl
  rw [List.nil_append, h2]
  unfold Reader.endTag
  split
  · exact absurd rfl hn.2
  · rfl

private theorem read_close (n raw t : Str) (hn : GoodName n) (ht : chars raw = some t) (ks : List XmlNode) (o : Opened) (os : List Opened) :
    (b!"</" ++ n ++ b!">").foldl Reader.step (some ⟨none, ⟨n, raw, ks⟩, o :: os⟩) =
      some ⟨none, { o with kids := o.kids ++ [.mk n t ks] }, os⟩ := by
  rw [List.append_assoc, List.foldl_append, List.foldl_append]
  have h1 : (b!"</").foldl Reader.step (some ⟨none, ⟨n, raw, ks⟩, o :: os⟩) = some ⟨some b!"/", ⟨n, raw, ks⟩, o :: os⟩ := rfl
  rw [h1, read_tag n hn.1]
  have h2 : (b!">").foldl Reader.step (some ⟨some (b!"/" ++ n), ⟨n, raw, ks⟩, o :: os⟩) =
    Reader.endTag ⟨some (b!"/" ++ n), ⟨n, raw, ks⟩, o :: os⟩ (47 :: n) := rfl
  rw [h2]
  simp only [Reader.endTag, ht, if_true]

private theorem indent_ne (d : Nat) (k : UInt8) (hk : k ≠ 32) : ∀ c ∈ xmlIndent d, c ≠ k := by
  intro c hc
  rw [List.eq_of_mem_replicate hc]
  exact hk.symm

private theorem line_ne (d : Nat) (k : UInt8) (hk : k ≠ 32) (hk' : k ≠ 10) : ∀ c ∈ b!"\n" ++ xmlIndent d, c ≠ k := by
  intro c hc
  rcases List.mem_append.mp hc with h | h
  · simp only [List.mem_singleton] at h
    rw [h]
    exact hk'.symm
  · exact indent_ne d k hk c h

private theorem blanks_ne (d : Nat) (xs : List XmlOut) (k : UInt8) (hk : k ≠ 32) (hk' : k ≠ 10) : ∀ c ∈ blanks d xs, c ≠ k := by
  intro c hc
  rcases List.mem_append.mp hc with h | h
  · simp only [padding, List.mem_flatMap] at h
    obtain ⟨-, -, h⟩ := h
    exact line_ne _ k hk hk' c h
  · split at h
    · exact absurd h (by simp)
    · exact line_ne _ k hk hk' c h

mutual
private theorem read_one : ∀ (x : XmlOut) (d : Nat) (n raw : Str) (ks : List XmlNode) (os : List Opened), GoodXml x →
    (xmlPrint d x).foldl Reader.step (some ⟨none, ⟨n, raw, ks⟩, os⟩) =
      some ⟨none, ⟨n, raw ++ xmlIndent d, ks ++ [toNode d x]⟩, os⟩
  | .leaf name t, d, n, raw, ks, os, hg => by
    have he : xmlPrint d (.leaf name t) = xmlIndent d ++ ((b!"<" ++ name ++ b!">") ++ (xmlEscape t ++ (b!"</" ++ name ++ b!">"))) := by
      simp [xmlPrint, List.append_assoc]
    have hn : GoodName name := hg
    rw [he, List.foldl_append, List.foldl_append, List.foldl_append, read_text _ (indent_ne d 60 (by decide)), read_open name hn,
      read_text _ (escape_no_lt t), List.nil_append, read_close name _ _ hn (chars_escape t)]
    rfl
  | .node name kids, d, n, raw, ks, os, hg => by
    have he : xmlPrint d (.node name kids) = xmlIndent d ++ ((b!"<" ++ name ++ b!">") ++ (xmlPrintAll (d + 1) kids ++
        ((if kids.isEmpty then [] else b!"\n" ++ xmlIndent d) ++ (b!"</" ++ name ++ b!">")))) := by
      simp [xmlPrint, List.append_assoc]
    have hn : GoodName name := hg.1
    have hw : ∀ c ∈ (if kids.isEmpty then [] else b!"\n" ++ xmlIndent d : Str), c ≠ 60 := by
      intro c hc
      exact blanks_ne d kids 60 (by decide) (by decide) c (List.mem_append_right _ hc)
    rw [he, List.foldl_append, List.foldl_append, List.foldl_append, List.foldl_append, read_text _ (indent_ne d 60 (by decide)),
      read_open name hn, read_all kids (d + 1) name [] [] _ hg.2, read_text _ hw, List.nil_append, List.nil_append,
      show padding (d + 1) kids ++ (if kids.isEmpty then [] else b!"\n" ++ xmlIndent d) = blanks d kids from rfl,
      read_close name _ _ hn (chars_id (blanks d kids) (blanks_ne d kids 38 (by decide) (by decide)))]
    rfl

private theorem read_all : ∀ (xs : List XmlOut) (d : Nat) (n raw : Str) (ks : List XmlNode) (os : List Opened), GoodAll xs →
    (xmlPrintAll d xs).foldl Reader.step (some ⟨none, ⟨n, raw, ks⟩, os⟩) =
      some ⟨none, ⟨n, raw ++ padding d xs, ks ++ toNodes d xs⟩, os⟩
  | [], d, n, raw, ks, os, _ => by simp [xmlPrintAll, padding, toNodes]
  | x :: xs, d, n, raw, ks, os, hg => by
    have he : xmlPrintAll d (x :: xs) = b!"\n" ++ (xmlPrint d x ++ xmlPrintAll d xs) := by
      simp [xmlPrintAll]
    rw [he, List.foldl_append, List.foldl_append, read_text _ (by decide), read_one x d _ _ _ _ hg.1, read_all xs d _ _ _ _ hg.2]
    simp [padding, toNodes, List.append_assoc]
end

private theorem read_xml (x : XmlOut) (h : GoodXml x) : readXml (xmlPrint 0 x) = some (toNode 0 x) := by
  unfold readXml
  rw [read_one x 0 [] [] [] [] h]
  rfl

/-! Descriptions. -/

variable (pr : Printing)

/-- The text of a value before or after. -/
def jleafShown : JLeaf → Str
  | .str s => s
  | .num q => pr.float q
  | .map => []

/-- The text of the value of an item. -/
def valueShown : DescValue → Option Str
  | .none => none
  | .str s => some s
  | .num q => some (pr.float q)

mutual
/-- An item with its texts as XML can hold them. -/
def shownAs : DescItem → ShownItem
  | .mk name value diffs items =>
    .mk (cleanText name) ((valueShown pr value).map cleanText)
      (diffs.map fun d => (cleanText d.path, cleanText (jleafShown pr d.org), cleanText (jleafShown pr d.mod))) (allShown items)

def allShown : List DescItem → List ShownItem
  | [] => []
  | i :: is => shownAs i :: allShown is
end

mutual
/-- The differences are between strings and numbers. -/
private def Simple : DescItem → Prop
  | .mk _ _ diffs items => (∀ d ∈ diffs, d.org ≠ .map ∧ d.mod ≠ .map) ∧ SimpleAll items

private def SimpleAll : List DescItem → Prop
  | [] => True
  | i :: is => Simple i ∧ SimpleAll is
end

private theorem jleafText_eq (j : JLeaf) (h : j ≠ .map) : jleafText pr j = some (jleafShown pr j) := by
  cases j <;> first | rfl | exact absurd rfl h

private theorem diffsXml_ok : ∀ ds : List Diff, (∀ d ∈ ds, d.org ≠ .map ∧ d.mod ≠ .map) →
    diffsXml pr ds = some (ds.map fun d => .node b!"StyleDiffs" [.leaf b!"Path" d.path, .leaf b!"Org" (jleafShown pr d.org),
      .leaf b!"Mod" (jleafShown pr d.mod)])
  | [], _ => rfl
  | d :: ds, h => by
    have h1 := h d (by simp)
    simp [diffsXml, diffXml, jleafText_eq pr _ h1.1, jleafText_eq pr _ h1.2, diffsXml_ok ds fun e he => h e (by simp [he])]

private theorem toNodes_append (d : Nat) : ∀ xs ys : List XmlOut, toNodes d (xs ++ ys) = toNodes d xs ++ toNodes d ys
  | [], _ => rfl
  | x :: xs, ys => by simp [toNodes, toNodes_append d xs ys]

private theorem goodAll_append : ∀ xs ys : List XmlOut, GoodAll xs → GoodAll ys → GoodAll (xs ++ ys)
  | [], _, _, h => h
  | _ :: xs, ys, h, h' => ⟨h.1, goodAll_append xs ys h.2 h'⟩

/-- The elements of a list with a name none of them has. -/
private def NoName (k : Str) (ns : List XmlNode) : Prop := ∀ n ∈ ns, match n with | .mk m _ _ => m ≠ k

private theorem textIn_none (k : Str) : ∀ ns : List XmlNode, NoName k ns → textIn k ns = none
  | [], _ => rfl
  | .mk m t ks :: ns, h => by
    have h1 : m ≠ k := h (.mk m t ks) (by simp)
    simp [textIn, h1, textIn_none k ns fun n hn => h n (by simp [hn])]

private theorem textIn_append (k : Str) : ∀ as bs : List XmlNode, NoName k as → textIn k (as ++ bs) = textIn k bs
  | [], _, _ => rfl
  | .mk m t ks :: as, bs, h => by
    have h1 : m ≠ k := h (.mk m t ks) (by simp)
    simp [textIn, h1, textIn_append k as bs fun n hn => h n (by simp [hn])]

private theorem diffsIn_append : ∀ as bs : List XmlNode, diffsIn (as ++ bs) = diffsIn as ++ diffsIn bs
  | [], _ => rfl
  | .mk m t ks :: as, bs => by
    simp only [List.cons_append, diffsIn, diffsIn_append as bs]
    split <;> simp

private theorem itemsIn_append : ∀ as bs : List XmlNode, itemsIn (as ++ bs) = itemsIn as ++ itemsIn bs
  | [], _ => rfl
  | .mk m t ks :: as, bs => by
    simp only [List.cons_append, itemsIn, itemsIn_append as bs]
    split <;> simp

private theorem diffsIn_none : ∀ ns : List XmlNode, NoName b!"StyleDiffs" ns → diffsIn ns = []
  | [], _ => rfl
  | .mk m t ks :: ns, h => by
    have h1 : m ≠ b!"StyleDiffs" := h (.mk m t ks) (by simp)
    simp [diffsIn, h1, diffsIn_none ns fun n hn => h n (by simp [hn])]

private theorem itemsIn_none : ∀ ns : List XmlNode, NoName b!"Items" ns → itemsIn ns = []
  | [], _ => rfl
  | .mk m t ks :: ns, h => by
    have h1 : m ≠ b!"Items" := h (.mk m t ks) (by simp)
    simp [itemsIn, h1, itemsIn_none ns fun n hn => h n (by simp [hn])]

/-- The nodes of style differences. -/
private theorem diff_nodes (d : Nat) : ∀ ds : List Diff,
    let xs := ds.map fun e => XmlOut.node b!"StyleDiffs" [.leaf b!"Path" e.path, .leaf b!"Org" (jleafShown pr e.org), .leaf b!"Mod" (jleafShown pr e.mod)]
    GoodAll xs ∧ (∀ k, k ≠ b!"StyleDiffs" → NoName k (toNodes d xs)) ∧
      diffsIn (toNodes d xs) = ds.map fun e => (cleanText e.path, cleanText (jleafShown pr e.org), cleanText (jleafShown pr e.mod))
  | [] => ⟨trivial, fun _ _ n hn => absurd hn (by simp [toNodes]), rfl⟩
  | e :: ds => by
    obtain ⟨h1, h2, h3⟩ := diff_nodes d ds
    refine ⟨⟨⟨by decide, (by decide : GoodName b!"Path"), (by decide : GoodName b!"Org"), (by decide : GoodName b!"Mod"), trivial⟩, h1⟩, ?_, ?_⟩
    · intro k hk n hn
      simp only [List.map_cons, toNodes, List.mem_cons] at hn
      rcases hn with rfl | hn
      · exact hk.symm
      · exact h2 k hk n hn
    · simp only [List.map_cons, toNodes, toNode, diffsIn, if_true, h3]
      rfl

private theorem value_nodes (d : Nat) (v : DescValue) :
    GoodAll (valueXml pr v) ∧ (∀ k, k ≠ b!"Value" → NoName k (toNodes d (valueXml pr v))) ∧
      (valueShown pr v = none → valueXml pr v = []) ∧
      ∀ t, valueShown pr v = some t → toNodes d (valueXml pr v) = [.mk b!"Value" (cleanText t) []] := by
  cases v with
  | none => exact ⟨trivial, fun _ _ n hn => absurd hn (by simp [valueXml, toNodes]), fun _ => rfl, fun t h => absurd h (by simp [valueShown])⟩
  | str s =>
    refine ⟨⟨(by decide : GoodName b!"Value"), trivial⟩, ?_, fun h => absurd h (by simp [valueShown]), ?_⟩
    · intro k hk n hn
      simp only [valueXml, toNodes, List.mem_singleton] at hn
      rw [hn]
      exact hk.symm
    · intro t h
      simp only [valueShown, Option.some.injEq] at h
      subst h
      rfl
  | num q =>
    refine ⟨⟨(by decide : GoodName b!"Value"), trivial⟩, ?_, fun h => absurd h (by simp [valueShown]), ?_⟩
    · intro k hk n hn
      simp only [valueXml, toNodes, List.mem_singleton] at hn
      rw [hn]
      exact hk.symm
    · intro t h
      simp only [valueShown, Option.some.injEq] at h
      subst h
      rfl

mutual
private theorem item_nodes : ∀ (i : DescItem), Simple i → ∃ ks, itemXml pr i = some (.node b!"Items" ks) ∧ GoodXml (.node b!"Items" ks) ∧
    ∀ d, itemIn (toNode d (.node b!"Items" ks)) = shownAs pr i
  | .mk name value diffs items, h => by
    obtain ⟨is, h1, h2, h3, h4⟩ := items_nodes items h.2
    have hd := diffsXml_ok pr diffs h.1
    refine ⟨_, by simp only [itemXml, hd, h1]; rfl, ?_, ?_⟩
    · refine ⟨by decide, ⟨(by decide : GoodName b!"Name"), ?_⟩⟩
      exact goodAll_append _ _ (goodAll_append _ _ (value_nodes pr 0 value).1 (diff_nodes pr 0 diffs).1) h2
    · intro d
      obtain ⟨-, v1, v2, v3⟩ := value_nodes pr (d + 1) value
      obtain ⟨-, d1, d2⟩ := diff_nodes pr (d + 1) diffs
      simp only [toNode, itemIn, List.cons_append, toNodes, toNodes_append, shownAs]
      congr 1
      · simp only [textIn]
        rw [if_neg (by decide)]
        cases hv : valueShown pr value with
        | none =>
          rw [v2 hv]
          simp only [toNodes, List.nil_append, Option.map_none]
          rw [textIn_append _ _ _ (d1 _ (by decide)), textIn_none _ _ (h3 (d + 1) _ (by decide))]
        | some t =>
          rw [v3 t hv]
          rfl
      · simp only [diffsIn]
        rw [if_neg (by decide), diffsIn_append, diffsIn_append, diffsIn_none _ (v1 _ (by decide)), d2,
          diffsIn_none _ (h3 (d + 1) _ (by decide))]
        simp
      · simp only [itemsIn]
        rw [if_neg (by decide), itemsIn_append, itemsIn_append, itemsIn_none _ (v1 _ (by decide)), itemsIn_none _ (d1 _ (by decide)), h4]
        simp

private theorem items_nodes : ∀ (is : List DescItem), SimpleAll is → ∃ xs, itemsXml pr is = some xs ∧ GoodAll xs ∧
    (∀ d k, k ≠ b!"Items" → NoName k (toNodes d xs)) ∧ ∀ d, itemsIn (toNodes d xs) = allShown pr is
  | [], _ => ⟨[], rfl, trivial, fun _ _ _ n hn => absurd hn (by simp [toNodes]), fun _ => rfl⟩
  | i :: is, h => by
    obtain ⟨ks, h1, h2, h3⟩ := item_nodes i h.1
    obtain ⟨xs, g1, g2, g3, g4⟩ := items_nodes is h.2
    refine ⟨.node b!"Items" ks :: xs, by simp only [itemsXml, h1, g1], ⟨h2, g2⟩, ?_, ?_⟩
    · intro d k hk n hn
      simp only [toNodes, List.mem_cons] at hn
      rcases hn with rfl | hn
      · exact hk.symm
      · exact g3 d k hk n hn
    · intro d
      have h3' := h3 d
      simp only [toNode] at h3'
      simp only [toNodes, toNode, itemsIn, if_true, allShown, g4, h3']
end

private theorem simple_read (items : List DescItem) (h : SimpleAll items) :
    readDescription (dump pr b!"xml" items) = some (allShown pr items) := by
  obtain ⟨xs, h1, h2, -, h4⟩ := items_nodes pr items h
  have : dump pr b!"xml" items = xmlPrint 0 (.node b!"Description" xs) := by
    simp [dump, descriptionXml, h1]
  unfold readDescription
  rw [this, read_xml (.node b!"Description" xs) ⟨by decide, h2⟩]
  simp only [toNode, if_true, h4]

private theorem simpleAll_append : ∀ as bs : List DescItem, SimpleAll as → SimpleAll bs → SimpleAll (as ++ bs)
  | [], _, _, h => h
  | _ :: as, bs, h, h' => ⟨h.1, simpleAll_append as bs h.2 h'⟩

private theorem mutator_simple (env : DescEnv) (st : Option Styled) : ∀ d ∈ describeMutator env st, d.org ≠ .map ∧ d.mod ≠ .map := by
  intro d hd
  simp only [describeMutator] at hd
  split at hd
  · rename_i h
    exact stylesDiff_leaves h d hd
  · simp only [List.mem_singleton] at hd
    subst hd
    simp

private theorem simple_none : ∀ d ∈ ([] : List Diff), d.org ≠ .map ∧ d.mod ≠ .map := fun _ h => absurd h (by simp)

private theorem gridRows_simple (env : DescEnv) : ∀ rows : List (Styled × List Str),
    SimpleAll (rows.map fun r => .mk b!"grid-row" (.str (join r.2 b!" ")) (describeMutator env (some r.1)) [])
  | [] => trivial
  | _ :: rows => ⟨⟨mutator_simple _ _, trivial⟩, gridRows_simple env rows⟩

mutual
private theorem instr_simple (env : DescEnv) : ∀ i : Instr, SimpleAll (describeInstr env i)
  | .font _ => ⟨⟨mutator_simple _ _, trivial⟩, trivial⟩
  | .lineFeed _ => ⟨⟨mutator_simple _ _, trivial⟩, trivial⟩
  | .setX _ => ⟨⟨mutator_simple _ _, trivial⟩, trivial⟩
  | .setY _ => ⟨⟨mutator_simple _ _, trivial⟩, trivial⟩
  | .box _ iss => ⟨⟨mutator_simple _ _, instrs_simple env iss⟩, trivial⟩
  | .text _ iss => ⟨⟨mutator_simple _ _, instrs_simple env iss⟩, trivial⟩
  | .image _ _ => ⟨⟨mutator_simple _ _, trivial⟩, trivial⟩
  | .textBlock _ => ⟨⟨simple_none, trivial⟩, trivial⟩
  | .paragraph _ _ => ⟨⟨mutator_simple _ _, trivial⟩, trivial⟩
  | .lineBreak => ⟨⟨simple_none, trivial⟩, trivial⟩
  | .pageBreak => ⟨⟨simple_none, trivial⟩, trivial⟩
  | .table _ _ rows => ⟨⟨mutator_simple _ _, rows_simple env rows⟩, trivial⟩
  | .tableRow _ => trivial
  | .tableCell _ => trivial
  | .grid _ rows parts => ⟨⟨mutator_simple _ _, simpleAll_append _ _ (gridRows_simple env rows) (parts_simple env parts)⟩, trivial⟩
  | .gridRow _ _ => trivial
  | .gridPart _ => trivial

private theorem instrs_simple (env : DescEnv) : ∀ is : List Instr, SimpleAll (describeInstructions env is)
  | [] => trivial
  | i :: is => simpleAll_append _ _ (instr_simple env i) (instrs_simple env is)

private theorem rows_simple (env : DescEnv) : ∀ rs : List TableRow, SimpleAll (describeRows env rs)
  | [] => trivial
  | .mk _ cells :: rs => ⟨⟨mutator_simple _ _, cells_simple env cells⟩, rows_simple env rs⟩

private theorem cells_simple (env : DescEnv) : ∀ cs : List TableCell, SimpleAll (describeCells env cs)
  | [] => trivial
  | .mk _ _ _ iss :: cs => ⟨⟨mutator_simple _ _, instrs_simple env iss⟩, cells_simple env cs⟩

private theorem parts_simple (env : DescEnv) : ∀ ps : List GridPart, SimpleAll (describeParts env ps)
  | [] => trivial
  | .mk _ _ iss :: ps => ⟨⟨mutator_simple _ _, instrs_simple env iss⟩, parts_simple env ps⟩
end

private theorem describe_simple (ji : JsonInts) (o : DiffOrder) (doc : Document) : SimpleAll (describe ji o doc) :=
  ⟨⟨simple_none, ⟨simple_none, trivial⟩, ⟨simple_none, trivial⟩, ⟨simple_none, trivial⟩, trivial⟩,
   ⟨simple_none, ⟨simple_none, trivial⟩, ⟨simple_none, trivial⟩,
     ⟨simple_none, ⟨simple_none, trivial⟩, ⟨simple_none, trivial⟩, ⟨simple_none, trivial⟩, ⟨simple_none, trivial⟩, trivial⟩, trivial⟩,
   ⟨simple_none, instrs_simple _ _⟩, ⟨simple_none, instrs_simple _ _⟩, ⟨simple_none, instrs_simple _ _⟩, trivial⟩

/-- C94: reading the XML that Dump writes for a document gives the description of the document, item by item. -/
theorem C94_read (ji : JsonInts) (o : DiffOrder) (doc : Document) :
    readDescription (dump pr b!"xml" (describe ji o doc)) = some (allShown pr (describe ji o doc)) :=
  simple_read pr _ (describe_simple ji o doc)

/-- C94: texts of characters that XML allows are shown unchanged. -/
theorem C94_text (rs : List Nat)
    (h : ∀ r ∈ rs, r = 9 ∨ r = 10 ∨ r = 13 ∨ (32 ≤ r ∧ r ≤ 0xD7FF) ∨ (0xE000 ≤ r ∧ r ≤ 0xFFFD) ∨ (0x10000 ≤ r ∧ r ≤ 0x10FFFF)) :
    cleanText (encodeRunes rs) = encodeRunes rs := by
  unfold cleanText
  rw [decodeRunes_encodeRunes_valid]
  · congr 1
    conv => rhs; rw [← List.map_id rs]
    apply List.map_congr_left
    intro r hr
    simp [cleanRune, h r hr]
  · intro r hr
    have := h r hr
    simp only [validRune, Bool.or_eq_true, Bool.and_eq_true, decide_eq_true_eq]
    omega

/-- C94: the program describe ends with exit code 0 exactly if its input can be loaded, and then what it prints reads as the
description of the document; otherwise it prints a message and ends with exit code 2. -/
theorem C94_program {E : Type} (lib : Libraries E) (ji : JsonInts) (o : DiffOrder) (w : World) :
    (∀ bs doc, w.files (absPath w.wd (describeInput w.args)) = some bs → load lib.floats lib.ord lib.sheetOrd (lib.tokens bs) = some doc →
      ∃ out, describeMain pr lib ji o w = (.code 0, .text out) ∧ readDescription out = some (allShown pr (describe ji o doc))) ∧
    ((∀ bs doc, w.files (absPath w.wd (describeInput w.args)) = some bs → load lib.floats lib.ord lib.sheetOrd (lib.tokens bs) ≠ some doc) →
      describeMain pr lib ji o w = (.code 2, .message)) := by
  constructor
  · intro bs doc h1 h2
    refine ⟨dump pr b!"xml" (describe ji o doc) ++ b!"\n", ?_, ?_⟩
    · simp only [describeMain, loadFile, World.read, h1, Option.bind_some, h2]
    · obtain ⟨xs, g1, g2, -, g4⟩ := items_nodes pr _ (describe_simple ji o doc)
      have he : dump pr b!"xml" (describe ji o doc) = xmlPrint 0 (.node b!"Description" xs) := by
        simp [dump, descriptionXml, g1]
      unfold readDescription readXml
      rw [he, List.foldl_append, read_one (.node b!"Description" xs) 0 [] [] [] [] ⟨by decide, g2⟩, read_text _ (by decide)]
      simp only [List.nil_append, toNode, if_true, g4]
  · intro h
    unfold describeMain
    cases hl : loadFile lib w (describeInput w.args) with
    | none => rfl
    | some doc =>
      unfold loadFile World.read at hl
      obtain ⟨bs, h1, h2⟩ := Option.bind_eq_some_iff.mp hl
      exact absurd h2 (h bs doc h1)

/-! Cases. -/

private def exPrinting : Printing := ⟨fun q => if q = 12 then b!"12" else b!"0", fun _ => []⟩

private def exItems : List DescItem :=
  [.mk b!"body" .none [] [.mk b!"paragraph" (.str b!"a<b & \"c\"") [⟨b!"styles:PointSize", .num 0, .num 12⟩] [], .mk b!"line-break" .none [] []]]

-- what is printed
example : dump exPrinting b!"xml" exItems =
    b!"<Description>\n  <Items>\n    <Name>body</Name>\n    <Items>\n      <Name>paragraph</Name>\n      <Value>a&lt;b &amp; &#34;c&#34;</Value>\n      <StyleDiffs>\n        <Path>styles:PointSize</Path>\n        <Org>0</Org>\n        <Mod>12</Mod>\n      </StyleDiffs>\n    </Items>\n    <Items>\n      <Name>line-break</Name>\n    </Items>\n  </Items>\n</Description>" := by
  decide +kernel

-- and what is read
example : readDescription (dump exPrinting b!"xml" exItems) =
    some [.mk b!"body" none [] [.mk b!"paragraph" (some b!"a<b & \"c\"") [(b!"styles:PointSize", b!"0", b!"12")] [],
      .mk b!"line-break" none [] []]] := by
  rw [simple_read]
  · rfl
  · refine ⟨⟨simple_none, ⟨?_, trivial⟩, ⟨simple_none, trivial⟩, trivial⟩, trivial⟩
    simp

-- a text with an invalid byte and a control character
example : cleanText [97, 0xFF, 1, 98] = b!"a" ++ encodeRunes [0xFFFD, 0xFFFD] ++ b!"b" := by decide +kernel

end Verif.Props
