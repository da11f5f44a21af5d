import Verif.Spec.Diff
import Verif.Model.Describe
import Verif.Proofs.StyleText
/-
Properties C48, C49: style diffs and the description of margins (/repo/xdoc/diff.go, /repo/xdoc/describe.go).
-/
namespace Verif.Props
open Verif.Go Verif.Model Verif.Spec Verif.Proofs

/-- The keys of a JSON object with their values, as functions of the style. -/
private abbrev Keys := List (Str × (Styles → Json))

private def objOf (K : Keys) (s : Styles) : List (Str × Json) := K.map fun e => (e.1, e.2 s)

private theorem mapGet_objOf (s : Styles) : ∀ (K : Keys), (K.map Prod.fst).Nodup → ∀ e ∈ K, mapGet e.1 (objOf K s) = some (e.2 s) := by
  intro K
  induction K with
  | nil => simp
  | cons k K ih =>
    intro hn e he
    simp only [List.map_cons, List.nodup_cons] at hn
    simp only [objOf, List.map_cons, mapGet]
    simp only [List.mem_cons] at he
    rcases he with rfl | he
    · simp
    · have : k.1 ≠ e.1 := fun h => hn.1 (h ▸ List.mem_map_of_mem he)
      rw [if_neg this]; exact ih hn.2 e he

private theorem entryDiffs_objOf (o : DiffOrder) (path : Str) (a : Styles) (mod : List (Str × Json)) (b : Styles) :
    ∀ (K : Keys), (∀ e ∈ K, mapGet e.1 mod = some (e.2 b)) →
    entryDiffs o path (objOf K a) (.obj mod) = K.map fun e => (e.1, interfaceDiff o (path ++ b!":" ++ e.1) (e.2 a) (e.2 b)) := by
  intro K
  induction K with
  | nil => intro _; simp [objOf, entryDiffs]
  | cons k K ih =>
    intro h
    have := ih (fun e he => h e (by simp [he]))
    simp only [objOf, List.map_cons, entryDiffs] at this ⊢
    rw [this, h k (by simp)]

private theorem joinDiffs_some : ∀ (l : List (Str × Option (List Diff))), (∀ e ∈ l, e.2.isSome = true) →
    joinDiffs l = some (l.flatMap fun e => e.2.getD []) := by
  intro l
  induction l with
  | nil => intro _; rfl
  | cons e l ih =>
    obtain ⟨k, r⟩ := e
    intro h
    cases r with
    | none => have := h (k, none) (by simp); simp at this
    | some ds => simp [joinDiffs, ih (fun e he => h e (by simp [he]))]

private theorem flatMap_perm_mem {α β : Type} (f g : α → List β) : ∀ (l : List α), (∀ e ∈ l, (f e).Perm (g e)) →
    (l.flatMap f).Perm (l.flatMap g) := by
  intro l
  induction l with
  | nil => simp
  | cons e l ih =>
    intro h
    simp only [List.flatMap_cons]
    exact (h e (by simp)).append (ih fun e he => h e (by simp [he]))

/-- Diffing two objects with the same keys gives the diffs of their values, in some order. -/
private theorem diff_obj (o : DiffOrder) (path : Str) (a b : Styles) (K : Keys) (hn : (K.map Prod.fst).Nodup)
    (exp : Str × (Styles → Json) → List Diff)
    (h : ∀ e ∈ K, ∃ ds, interfaceDiff o (path ++ b!":" ++ e.1) (e.2 a) (e.2 b) = some ds ∧ ds.Perm (exp e)) :
    ∃ ds, interfaceDiff o path (.obj (objOf K a)) (.obj (objOf K b)) = some ds ∧ ds.Perm (K.flatMap exp) := by
  simp only [interfaceDiff]
  rw [entryDiffs_objOf o path a _ b K (mapGet_objOf b K hn)]
  set l := K.map fun e => (e.1, interfaceDiff o (path ++ b!":" ++ e.1) (e.2 a) (e.2 b)) with hl
  have hp := o.perm path l
  rw [joinDiffs_some _ (by
    intro e he
    have he' := hp.mem_iff.mp he
    rw [hl, List.mem_map] at he'
    obtain ⟨k, hk, rfl⟩ := he'
    obtain ⟨ds, h1, _⟩ := h k hk
    simp only [h1, Option.isSome_some])]
  refine ⟨_, rfl, ?_⟩
  refine (hp.flatMap_right _).trans ?_
  rw [hl, List.flatMap_map]
  apply flatMap_perm_mem
  intro e he
  obtain ⟨ds, h1, h2⟩ := h e he
  simp only [h1, Option.getD_some]; exact h2

private def isLeaf : Json → Prop
  | .obj _ => False
  | _ => True

private def leafDiff (path : Str) (a b : Json) : List Diff := if a.leaf ≠ b.leaf then [⟨path, a.leaf, b.leaf⟩] else []

private theorem diff_leaf (o : DiffOrder) (path : Str) (x y : Json) (h : isLeaf x) :
    interfaceDiff o path x y = some (leafDiff path x y) := by
  cases x with
  | obj m => simp [isLeaf] at h
  | str s => rfl
  | num q => rfl

private theorem diff_flat (o : DiffOrder) (path : Str) (a b : Styles) (K : Keys) (hn : (K.map Prod.fst).Nodup)
    (h : ∀ e ∈ K, isLeaf (e.2 a)) :
    ∃ ds, interfaceDiff o path (.obj (objOf K a)) (.obj (objOf K b)) = some ds ∧
      ds.Perm (K.flatMap fun e => leafDiff (path ++ b!":" ++ e.1) (e.2 a) (e.2 b)) :=
  diff_obj o path a b K hn (fun e => leafDiff (path ++ b!":" ++ e.1) (e.2 a) (e.2 b))
    fun e he => ⟨_, diff_leaf o _ _ _ (h e he), List.Perm.refl _⟩

private def quadKeys {α : Type} (f : α → Json) (q : Styles → Quad α) : Keys :=
  [(b!"Left", fun s => f (q s).left), (b!"Top", fun s => f (q s).top), (b!"Right", fun s => f (q s).right),
   (b!"Bottom", fun s => f (q s).bottom)]

private def rgbKeys (ji : JsonInts) (c : Styles → RGB) : Keys :=
  [(b!"R", fun s => jsonInt ji (c s).r), (b!"G", fun s => jsonInt ji (c s).g), (b!"B", fun s => jsonInt ji (c s).b)]

/-- A key of the style object: a leaf, or an object with leaves. -/
private inductive Shape
  | leaf (f : Styles → Json)
  | obj (K : Keys)

private def Shape.json (s : Styles) : Shape → Json
  | .leaf f => f s
  | .obj K => .obj (objOf K s)

private def Shape.Ok (s : Styles) : Shape → Prop
  | .leaf f => isLeaf (f s)
  | .obj K => (K.map Prod.fst).Nodup ∧ ∀ e ∈ K, isLeaf (e.2 s)

private def Shape.diffs (path : Str) (a b : Styles) : Shape → List Diff
  | .leaf f => leafDiff path (f a) (f b)
  | .obj K => K.flatMap fun e => leafDiff (path ++ b!":" ++ e.1) (e.2 a) (e.2 b)

private def shapes (ji : JsonInts) : List (Str × Shape) :=
  [(b!"Family", .leaf fun s => jsonStr s.font.family), (b!"PointSize", .leaf fun s => .num s.font.pointSize),
   (b!"Style", .leaf fun s => jsonStr s.font.style), (b!"Weight", .leaf fun s => jsonStr s.font.weight),
   (b!"Decoration", .leaf fun s => jsonStr s.font.decoration),
   (b!"Border", .obj (quadKeys (jsonInt ji) fun s => s.box.border)), (b!"Padding", .obj (quadKeys .num fun s => s.box.padding)),
   (b!"Margin", .obj (quadKeys .num fun s => s.box.margin)),
   (b!"Width", .leaf fun s => .num s.dim.width), (b!"Height", .leaf fun s => .num s.dim.height),
   (b!"LineSpacing", .leaf fun s => .num s.dim.lineSpacing), (b!"OffsetX", .leaf fun s => .num s.dim.offsetX),
   (b!"OffsetY", .leaf fun s => .num s.dim.offsetY), (b!"ColumnWidth", .leaf fun s => .num s.columnWidth),
   (b!"HAlign", .leaf fun s => jsonStr s.align.h), (b!"VAlign", .leaf fun s => jsonStr s.align.v),
   (b!"Foreground", .obj (rgbKeys ji fun s => s.color.foreground)), (b!"Text", .obj (rgbKeys ji fun s => s.color.text)),
   (b!"Background", .obj (rgbKeys ji fun s => s.color.background)), (b!"LineWidth", .leaf fun s => .num s.lineWidth)]

private def shapeKeys (ji : JsonInts) : Keys := (shapes ji).map fun e => (e.1, fun s => e.2.json s)

private theorem stylesJson_eq (ji : JsonInts) (s : Styles) : stylesJson ji s = objOf (shapeKeys ji) s := rfl

private theorem shapes_ok (ji : JsonInts) (s : Styles) : ∀ e ∈ shapes ji, e.2.Ok s := by
  simp only [shapes, List.forall_mem_cons, Shape.Ok, isLeaf, jsonStr, quadKeys, rgbKeys, jsonInt, List.map_cons, List.map_nil]
  refine ⟨trivial, trivial, trivial, trivial, trivial, ⟨?_, ?_⟩, ⟨?_, ?_⟩, ⟨?_, ?_⟩, trivial, trivial, trivial, trivial, trivial,
    trivial, trivial, trivial, ⟨?_, ?_⟩, ⟨?_, ?_⟩, ⟨?_, ?_⟩, trivial, ?_⟩ <;> first | decide | simp

private theorem shapeKeys_nodup (ji : JsonInts) : ((shapeKeys ji).map Prod.fst).Nodup := by
  have : (shapeKeys ji).map Prod.fst = [b!"Family", b!"PointSize", b!"Style", b!"Weight", b!"Decoration", b!"Border", b!"Padding",
    b!"Margin", b!"Width", b!"Height", b!"LineSpacing", b!"OffsetX", b!"OffsetY", b!"ColumnWidth", b!"HAlign", b!"VAlign",
    b!"Foreground", b!"Text", b!"Background", b!"LineWidth"] := rfl
  rw [this]; decide +kernel

private theorem stylesDiff_perm (ji : JsonInts) (o : DiffOrder) (a b : Styles) :
    ∃ ds, stylesDiff ji o a b = some ds ∧
      ds.Perm ((shapes ji).flatMap fun e => e.2.diffs (b!"styles" ++ b!":" ++ e.1) a b) := by
  unfold stylesDiff
  rw [stylesJson_eq, stylesJson_eq]
  have hex : ∀ e ∈ shapes ji, ∃ ds, interfaceDiff o (b!"styles" ++ b!":" ++ e.1) (e.2.json a) (e.2.json b) = some ds ∧
      ds.Perm (e.2.diffs (b!"styles" ++ b!":" ++ e.1) a b) := by
    intro e he
    have hok := shapes_ok ji a e he
    obtain ⟨k, sh⟩ := e
    cases sh with
    | leaf f => exact ⟨_, diff_leaf o _ _ _ hok, List.Perm.refl _⟩
    | obj K => exact diff_flat o _ a b K hok.1 hok.2
  -- the diffs of a key, as a function of the key's values
  have hk := diff_obj o b!"styles" a b (shapeKeys ji) (shapeKeys_nodup ji)
    (fun e => (interfaceDiff o (b!"styles" ++ b!":" ++ e.1) (e.2 a) (e.2 b)).getD []) (by
      intro e he
      simp only [shapeKeys, List.mem_map] at he
      obtain ⟨s, hs, rfl⟩ := he
      obtain ⟨ds, h1, -⟩ := hex s hs
      exact ⟨ds, h1, by simp only [h1, Option.getD_some]; exact List.Perm.refl _⟩)
  obtain ⟨ds, h1, h2⟩ := hk
  refine ⟨ds, h1, h2.trans ?_⟩
  rw [shapeKeys, List.flatMap_map]
  apply flatMap_perm_mem
  intro e he
  obtain ⟨ds, h3, h4⟩ := hex e he
  simp only [h3, Option.getD_some]; exact h4

/-- A style diff lists strings and numbers, no maps. -/
theorem stylesDiff_leaves {ji : JsonInts} {o : DiffOrder} {a b : Styles} {ds : List Diff} (h : stylesDiff ji o a b = some ds) :
    ∀ d ∈ ds, d.org ≠ .map ∧ d.mod ≠ .map := by
  obtain ⟨ds', h1, h2⟩ := stylesDiff_perm ji o a b
  rw [h] at h1
  cases h1
  have hl : ∀ x : Json, isLeaf x → x.leaf ≠ .map := by
    intro x hx
    cases x with
    | obj m => simp [isLeaf] at hx
    | str s => simp [Json.leaf]
    | num q => simp [Json.leaf]
  have hd : ∀ path (x y : Json), isLeaf x → isLeaf y → ∀ d ∈ leafDiff path x y, d.org ≠ .map ∧ d.mod ≠ .map := by
    intro path x y hx hy d hd
    unfold leafDiff at hd
    split at hd
    · simp only [List.mem_singleton] at hd
      subst hd
      exact ⟨hl x hx, hl y hy⟩
    · exact absurd hd (by simp)
  intro d hm
  obtain ⟨e, he, hm⟩ := List.mem_flatMap.mp (h2.mem_iff.mp hm)
  have h3 := shapes_ok ji a e he
  have h4 := shapes_ok ji b e he
  obtain ⟨k, sh⟩ := e
  cases sh with
  | leaf f => exact hd _ _ _ h3 h4 d hm
  | obj K =>
    obtain ⟨f, hf, hm⟩ := List.mem_flatMap.mp hm
    exact hd _ _ _ (h3.2 f hf) (h4.2 f hf) d hm

/-- C48: a style diff never fails. -/
theorem C48_no_error (ji : JsonInts) (o : DiffOrder) (a b : Styles) : stylesDiff ji o a b ≠ none := by
  obtain ⟨ds, h, _⟩ := stylesDiff_perm ji o a b
  simp [h]

/-- C48: a style does not differ from itself. -/
theorem C48_same (ji : JsonInts) (o : DiffOrder) (a : Styles) : stylesDiff ji o a a = some [] := by
  obtain ⟨ds, h, hp⟩ := stylesDiff_perm ji o a a
  have : (shapes ji).flatMap (fun e => e.2.diffs (b!"styles" ++ b!":" ++ e.1) a a) = [] := by
    rw [List.flatMap_eq_nil_iff]
    intro e _
    obtain ⟨k, sh⟩ := e
    cases sh with
    | leaf f => simp [Shape.diffs, leafDiff]
    | obj K => simp [Shape.diffs, leafDiff]
  rw [this] at hp
  rw [h, List.perm_nil.mp hp]

/-- The paths of the leaf properties are pairwise different. -/
theorem styleLeaves_nodup : (styleLeaves.map Prod.fst).Nodup := by
  have : styleLeaves.map Prod.fst = [b!"styles:Family", b!"styles:PointSize", b!"styles:Style", b!"styles:Weight",
    b!"styles:Decoration", b!"styles:Border:Left", b!"styles:Border:Top", b!"styles:Border:Right", b!"styles:Border:Bottom",
    b!"styles:Padding:Left", b!"styles:Padding:Top", b!"styles:Padding:Right", b!"styles:Padding:Bottom",
    b!"styles:Margin:Left", b!"styles:Margin:Top", b!"styles:Margin:Right", b!"styles:Margin:Bottom",
    b!"styles:Width", b!"styles:Height", b!"styles:LineSpacing", b!"styles:OffsetX", b!"styles:OffsetY",
    b!"styles:ColumnWidth", b!"styles:HAlign", b!"styles:VAlign",
    b!"styles:Foreground:R", b!"styles:Foreground:G", b!"styles:Foreground:B",
    b!"styles:Text:R", b!"styles:Text:G", b!"styles:Text:B",
    b!"styles:Background:R", b!"styles:Background:G", b!"styles:Background:B", b!"styles:LineWidth"] := rfl
  rw [this]; decide +kernel

private theorem differing_flatMap (a b : Styles) :
    differing a b = styleLeaves.flatMap fun l => if l.2 a ≠ l.2 b then [⟨l.1, l.2 a, l.2 b⟩] else [] := by
  unfold differing
  generalize styleLeaves = ls
  induction ls with
  | nil => rfl
  | cons l ls ih =>
    rw [List.filter_cons]
    by_cases h : l.2 a = l.2 b
    · simpa [h] using ih
    · simp only [ne_eq, h, not_false_eq_true, decide_true, if_true, List.map_cons, List.flatMap_cons, List.cons_append,
        List.nil_append]
      rw [← ih]

private theorem utf8_eq {s : Str} (h : validUtf8 s = true) : encodeRunes (decodeRunes s) = s := by
  simpa [validUtf8] using h

/-- C48, for styles that JSON represents faithfully (valid UTF-8 strings, ints exact as float64): the diff lists, in some
order, exactly the leaf properties whose values differ, each once with both values and its path, for every iteration order.
What is missing: for other styles it is false, see `C48_invalid_utf8`. -/
theorem C48_partial (ji : JsonInts) (o : DiffOrder) (a b : Styles) (ha : Utf8Style a) (hb : Utf8Style b)
    (ia : IntsStyle (fun n => ji.toFloat n = n) a) (ib : IntsStyle (fun n => ji.toFloat n = n) b) :
    ∃ ds, stylesDiff ji o a b = some ds ∧ ds.Perm (differing a b) := by
  obtain ⟨ds, h1, h2⟩ := stylesDiff_perm ji o a b
  refine ⟨ds, h1, ?_⟩
  have : (shapes ji).flatMap (fun e => e.2.diffs (b!"styles" ++ b!":" ++ e.1) a b) = differing a b := by
    obtain ⟨a1, a2, a3, a4, a5, a6⟩ := ha
    obtain ⟨b1, b2, b3, b4, b5, b6⟩ := hb
    obtain ⟨⟨ia1, ia2, ia3, ia4⟩, ⟨ia5, ia6, ia7⟩, ⟨ia8, ia9, ia10⟩, ⟨ia11, ia12, ia13⟩⟩ := ia
    obtain ⟨⟨ib1, ib2, ib3, ib4⟩, ⟨ib5, ib6, ib7⟩, ⟨ib8, ib9, ib10⟩, ⟨ib11, ib12, ib13⟩⟩ := ib
    rw [differing_flatMap]
    simp only [shapes, List.flatMap_cons, List.flatMap_nil, Shape.diffs, leafDiff, Json.leaf, jsonStr, jsonInt, quadKeys, rgbKeys,
      utf8_eq a1, utf8_eq a2, utf8_eq a3, utf8_eq a4, utf8_eq a5, utf8_eq a6, utf8_eq b1, utf8_eq b2, utf8_eq b3, utf8_eq b4,
      utf8_eq b5, utf8_eq b6, ia1, ia2, ia3, ia4, ia5, ia6, ia7, ia8, ia9, ia10, ia11, ia12, ia13, ib1, ib2, ib3, ib4, ib5, ib6,
      ib7, ib8, ib9, ib10, ib11, ib12, ib13, List.append_assoc]
    rfl
  rwa [this] at h2

/-- C48: the diff of such styles is empty exactly if the styles are equal. -/
theorem C48_empty_partial (ji : JsonInts) (o : DiffOrder) (a b : Styles) (ha : Utf8Style a) (hb : Utf8Style b)
    (ia : IntsStyle (fun n => ji.toFloat n = n) a) (ib : IntsStyle (fun n => ji.toFloat n = n) b) :
    stylesDiff ji o a b = some [] ↔ a = b := by
  obtain ⟨ds, h1, h2⟩ := C48_partial ji o a b ha hb ia ib
  rw [h1, Option.some.injEq]
  constructor
  · rintro rfl
    have h3 : differing a b = [] := List.nil_perm.mp h2
    have h4 : ∀ l ∈ styleLeaves, l.2 a = l.2 b := by
      intro l hl
      by_contra hne
      have : (⟨l.1, l.2 a, l.2 b⟩ : Diff) ∈ differing a b :=
        List.mem_map_of_mem (List.mem_filter.mpr ⟨hl, by simp [hne]⟩)
      rw [h3] at this; simp at this
    clear h1 h2 h3 ha hb ia ib
    obtain ⟨⟨_, _, _, _, _⟩, ⟨⟨_, _, _, _⟩, ⟨_, _, _, _⟩, ⟨_, _, _, _⟩⟩, ⟨_, _, _, _, _⟩, _, ⟨_, _⟩,
      ⟨⟨_, _, _⟩, ⟨_, _, _⟩, ⟨_, _, _⟩⟩, _⟩ := a
    obtain ⟨⟨_, _, _, _, _⟩, ⟨⟨_, _, _, _⟩, ⟨_, _, _, _⟩, ⟨_, _, _, _⟩⟩, ⟨_, _, _, _, _⟩, _, ⟨_, _⟩,
      ⟨⟨_, _, _⟩, ⟨_, _, _⟩, ⟨_, _, _⟩⟩, _⟩ := b
    simp [styleLeaves, qd, col] at h4
    simp [h4]
  · rintro rfl
    have : differing a a = [] := by simp [differing]
    rw [this] at h2
    exact List.perm_nil.mp h2

private theorem legible_valid (s : Str) : validUtf8 (legible s) = true ∧ encodeRunes (decodeRunes (legible s)) = legible s := by
  have h : encodeRunes (decodeRunes (legible s)) = legible s := by
    unfold legible
    rw [decodeRunes_encodeRunes_valid (decodeRunes_valid s)]
  exact ⟨by simpa [validUtf8] using h, h⟩

/-- C48, for all strings (ints exact as float64, such as those of colors and borders): the diff lists, in some order, exactly the leaf properties whose
texts differ, each once with both texts and its path, where a byte that is no UTF-8 counts as U+FFFD. -/
theorem C48_exact (ji : JsonInts) (o : DiffOrder) (a b : Styles)
    (ia : IntsStyle (fun n => ji.toFloat n = n) a) (ib : IntsStyle (fun n => ji.toFloat n = n) b) :
    ∃ ds, stylesDiff ji o a b = some ds ∧ ds.Perm (differing (legibleStyle a) (legibleStyle b)) := by
  have e : ∀ s : Styles, stylesJson ji (legibleStyle s) = stylesJson ji s := by
    intro s
    simp only [stylesJson, legibleStyle, jsonStr, (legible_valid _).2]
    rfl
  have hv : ∀ s : Styles, Utf8Style (legibleStyle s) := fun s =>
    ⟨(legible_valid _).1, (legible_valid _).1, (legible_valid _).1, (legible_valid _).1, (legible_valid _).1, (legible_valid _).1⟩
  obtain ⟨ds, h1, h2⟩ := C48_partial ji o (legibleStyle a) (legibleStyle b) (hv a) (hv b) ia ib
  unfold stylesDiff at h1 ⊢
  rw [e, e] at h1
  exact ⟨ds, h1, h2⟩

/-- C48: so the diff is empty exactly if the styles have the same texts and numbers. -/
theorem C48_empty_iff (ji : JsonInts) (o : DiffOrder) (a b : Styles)
    (ia : IntsStyle (fun n => ji.toFloat n = n) a) (ib : IntsStyle (fun n => ji.toFloat n = n) b) :
    stylesDiff ji o a b = some [] ↔ legibleStyle a = legibleStyle b := by
  have e : ∀ s : Styles, stylesJson ji (legibleStyle s) = stylesJson ji s := by
    intro s
    simp only [stylesJson, legibleStyle, jsonStr, (legible_valid _).2]
    rfl
  have hv : ∀ s : Styles, Utf8Style (legibleStyle s) := fun s =>
    ⟨(legible_valid _).1, (legible_valid _).1, (legible_valid _).1, (legible_valid _).1, (legible_valid _).1, (legible_valid _).1⟩
  have h := C48_empty_partial ji o (legibleStyle a) (legibleStyle b) (hv a) (hv b) ia ib
  unfold stylesDiff at h ⊢
  rwa [e, e] at h

/-- C48 is false for all styles: two different font families that are no valid UTF-8 give an empty diff. -/
theorem C48_invalid_utf8 (ji : JsonInts) (o : DiffOrder) :
    ∃ a b : Styles, a ≠ b ∧ stylesDiff ji o a b = some [] := by
  refine ⟨{ zeroStyles with font := { zeroStyles.font with family := [0xFF] } },
    { zeroStyles with font := { zeroStyles.font with family := [0xFE] } }, by simp, ?_⟩
  obtain ⟨ds, h1, h2⟩ := stylesDiff_perm ji o { zeroStyles with font := { zeroStyles.font with family := [0xFF] } }
    { zeroStyles with font := { zeroStyles.font with family := [0xFE] } }
  rw [h1]
  have h3 : encodeRunes (decodeRunes [0xFF]) = encodeRunes (decodeRunes [0xFE]) := by decide +kernel
  congr 1
  apply List.perm_nil.mp
  refine h2.trans (List.Perm.of_eq ?_)
  simp [shapes, Shape.diffs, leafDiff, Json.leaf, jsonStr, jsonInt, quadKeys, rgbKeys, h3]

/-! ### C49 -/

/-- The value described under a name, in the margins of the page of a description. -/
def describedMargin (items : List DescItem) (name : Str) : Option DescValue :=
  (sub (sub items b!"page") b!"margins").findSome? fun
    | .mk n v _ _ => if n = name then some v else none
where
  sub (items : List DescItem) (name : Str) : List DescItem :=
    (items.findSome? fun | .mk n _ _ is => if n = name then some is else none).getD []

/-- C49 is false of the code: with different left and right margins the described left margin is the right one. -/
theorem C49_left_wrong (ji : JsonInts) (o : DiffOrder) (doc : Document) (h : doc.page.margins.left ≠ doc.page.margins.right) :
    describedMargin (describe ji o doc) b!"left" ≠ some (.num doc.page.margins.left) := by
  have : describedMargin (describe ji o doc) b!"left" = some (.num doc.page.margins.right) := by
    simp [describedMargin, describedMargin.sub, describe, describePage, describeMargins]
  rw [this]; simp [Ne.symm h]

/-- C49, the part that holds: top, right and bottom are described correctly, and left if it equals the right margin.
Missing: the left margin in general, where the code is wrong (`C49_left_wrong`). -/
theorem C49_partial (ji : JsonInts) (o : DiffOrder) (doc : Document) :
    describedMargin (describe ji o doc) b!"top" = some (.num doc.page.margins.top) ∧
    describedMargin (describe ji o doc) b!"right" = some (.num doc.page.margins.right) ∧
    describedMargin (describe ji o doc) b!"bottom" = some (.num doc.page.margins.bottom) ∧
    (doc.page.margins.left = doc.page.margins.right →
      describedMargin (describe ji o doc) b!"left" = some (.num doc.page.margins.left)) := by
  refine ⟨?_, ?_, ?_, fun h => ?_⟩ <;>
    simp [describedMargin, describedMargin.sub, describe, describePage, describeMargins]
  exact h.symm

/-! Cases. -/

private def exInts : JsonInts := ⟨fun n => n⟩
private def exOrd : DiffOrder := ⟨fun _ l => l.reverse, fun _ l => List.reverse_perm l⟩

example : stylesDiff exInts exOrd zeroStyles
    { zeroStyles with lineWidth := 2, box := { zeroStyles.box with border := ⟨0, 1, 0, 3⟩ } } =
    some [⟨b!"styles:LineWidth", .num 0, .num 2⟩, ⟨b!"styles:Border:Bottom", .num 0, .num 3⟩,
      ⟨b!"styles:Border:Top", .num 0, .num 1⟩] := by decide +kernel
example : Utf8Style zeroStyles ∧ IntsStyle (fun n => exInts.toFloat n = n) zeroStyles := by
  refine ⟨?_, ?_⟩
  · simp only [Utf8Style, zeroStyles]; decide
  · simp [IntsStyle, exInts]

end Verif.Props
