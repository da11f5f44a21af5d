import Verif.Proofs.Path
import Verif.Props.Fonts
/-
Properties C80, C81: where files are looked for, and the name of the output (/repo/process.go resolveFile, /repo/font/definition.go,
/repo/cmd/xpdf/main.go).
-/
namespace Verif.Props
open Verif.Go Verif.Model Verif.Spec Verif.Proofs

private theorem isAbs_iff (p : Str) : isAbs p = true ↔ p.head? = some 47 := by simp [isAbs]

variable {wd name : Str} {es fs : List Str}

/-- C80: absolute names of images are used as they are. -/
theorem C80_absolute (h : name.head? = some 47) : resolveFile wd name = name := by
  unfold resolveFile
  rw [if_pos ((isAbs_iff name).mpr h)]

/-- C80: other names lead to the file one comes to from the root along the elements of the working directory and then of the name; the path given to
the engine is the plain one. -/
theorem C80_relative (hw : wd.head? = some 47) (hes : Elements es wd) (hn : name.head? ≠ some 47) (hfs : Elements fs name) :
    resolveFile wd name = placeOf (walk [] (es ++ fs)) ∧ ∀ e ∈ walk [] (es ++ fs), Named e := by
  rw [elements_iff] at hes hfs
  subst hes hfs
  have hnam : ∀ e ∈ walk [] (split 47 wd ++ split 47 name), Named e := walk_named (by simp) (by
    intro e he
    rcases List.mem_append.mp he with he | he
    · exact split_pieces_no_sep wd e he
    · exact split_pieces_no_sep name e he)
  refine ⟨?_, hnam⟩
  unfold resolveFile
  rw [if_neg (by rw [isAbs_iff]; exact hn), joinPath_rooted ((isAbs_iff wd).mpr hw), clean_placeOf hnam]

/-- C80: if the working directory is not known, the name stays relative, and leads to the same file from every directory. -/
theorem C80_unknown (hn : name.head? ≠ some 47) (hne : name ≠ []) (hfs : Elements fs name) :
    (resolveFile [] name).head? ≠ some 47 ∧ ∀ dir gs, (∀ e ∈ dir, Named e) → Elements gs (resolveFile [] name) → walk dir gs = walk dir fs := by
  have habs : isAbs name = false := by rw [Bool.eq_false_iff]; intro h; exact hn ((isAbs_iff name).mp h)
  have hr : resolveFile [] name = clean name := by
    unfold resolveFile
    rw [if_neg (by simp [habs]), joinPath, if_pos rfl, joinPath, if_neg hne, show join [name] [47] = name from rfl, clean_idem]
  have hnorm : Norm false ((split 47 name).foldl (cleanStep false) []) := fold_norm .nil (split_pieces_no_sep name)
  have hc : clean name = (if ((split 47 name).foldl (cleanStep false) []).reverse = [] then b!"." else
      join ((split 47 name).foldl (cleanStep false) []).reverse [47]) := by
    unfold clean
    simp only [habs]; rfl
  rw [elements_iff] at hfs
  subst hfs
  have key : ∀ (gs st : List Str) (dir : List Str), Norm false st → (∀ e ∈ gs, 47 ∉ e) → (∀ e ∈ dir, Named e) →
      walk dir (gs.foldl (cleanStep false) st).reverse = walk dir (st.reverse ++ gs) := by
    intro gs
    induction gs with
    | nil => intro st dir _ _ _; simp
    | cons e gs ih =>
      intro st dir hst hg hd
      rw [List.foldl_cons, ih _ dir (cleanStep_norm hst (hg e (by simp))) (fun x hx => hg x (by simp [hx])) hd]
      rw [trail_append, trail_append]
      conv_rhs => rw [walk]
      unfold cleanStep
      split
      · rfl
      · rename_i h1
        split
        · rename_i h2
          subst h2
          cases st with
          | nil => rfl
          | cons t st =>
            simp only
            split
            · rename_i ht
              subst ht
              rw [List.reverse_cons, trail_append]
              rfl
            · rename_i ht
              have htn : Named t := by
                cases hst with
                | named h _ => exact h
                | up _ _ _ => exact absurd rfl ht
              rw [List.reverse_cons, trail_append, walk_self (es := [t]) (by simpa using htn), List.dropLast_concat]
        · rename_i h2
          rw [List.reverse_cons, trail_append]
          conv_lhs => rw [show walk (walk dir st.reverse) [e] = walk dir st.reverse ++ [e] from by
            rw [walk, if_neg h1, if_neg h2, walk]]
  constructor
  · rw [hr, hc]
    split
    · decide
    · rename_i hne'
      generalize (split 47 name).foldl (cleanStep false) [] = st at hnorm hne'
      have hs := norm_no_slash hnorm
      cases hrv : st.reverse with
      | nil => exact absurd hrv hne'
      | cons e es =>
        have he := hs e (List.mem_reverse.mp (by rw [hrv]; simp))
        cases e with
        | nil => exact absurd rfl he.2
        | cons c e =>
          have : c ≠ 47 := by rintro rfl; exact he.1 (by simp)
          cases es <;> simp [join, this]
  · intro dir gs hd hgs
    rw [elements_iff] at hgs
    subst hgs
    have h0 := key (split 47 name) [] dir .nil (split_pieces_no_sep name) hd
    rw [List.reverse_nil, List.nil_append] at h0
    rw [← h0, hr, hc]
    split
    · rename_i he
      rw [he]; rfl
    · rename_i hne'
      rw [split_join _ hne' fun l hl => (norm_no_slash hnorm l (List.mem_reverse.mp hl)).1]

/-- C80: the files of fonts are those one comes to from the directory of the definition file, or those with the given absolute path. -/
theorem C80_fonts {file : Str} (hw : wd.head? = some 47) (hes : Elements es wd) (hf : file.head? ≠ some 47) (hfs : Elements fs file) (defs : FontDefs)
    (place : Str → Str) (habs : ∀ p, p.head? = some 47 → place p = p)
    (hrel : ∀ p gs, p.head? ≠ some 47 → Elements gs p → place p = placeOf (walk (walk [] (es ++ fs)).dropLast gs)) :
    (loadRegistryFile wd file defs).fonts =
      defs.fonts.flatMap fun f => f.styles.map fun s => { name := f.name, style := s.style, filePath := place s.filePath } := by
  unfold loadRegistryFile
  rw [(C50_load _ _).1]
  have hnam : ∀ e ∈ walk [] (es ++ fs), Named e := by
    rw [elements_iff] at hes hfs
    subst hes hfs
    exact walk_named (by simp) (by
      intro e he
      rcases List.mem_append.mp he with he | he
      · exact split_pieces_no_sep wd e he
      · exact split_pieces_no_sep file e he)
  have : ∀ p, resolveFont (dirPath (absPath wd file)) p = place p := by
    intro p
    by_cases hp : p.head? = some 47
    · unfold resolveFont
      rw [if_pos ((isAbs_iff p).mpr hp), habs p hp]
    · have hd : dirPath (absPath wd file) = placeOf (walk [] (es ++ fs)).dropLast := by
        have hfa : isAbs file = false := by rw [Bool.eq_false_iff]; intro h; exact hf ((isAbs_iff file).mp h)
        rw [absPath_eq ((isAbs_iff wd).mpr hw), hfa, ← elements_iff.mp hes, ← elements_iff.mp hfs]
        exact dirPath_placeOf hnam
      unfold resolveFont
      rw [if_neg (by rw [isAbs_iff]; exact hp), hd, joinPath_rooted (isAbs_placeOf _), hrel p _ hp (elements_iff.mpr rfl), trail_append,
        walk_placeOf fun e he => hnam e (List.dropLast_subset _ he), List.nil_append]
  simp only [this]

-- The directory of the program, an image beside it, and one in a directory above.
example : resolveFile b!"/home/me" b!"pics/a.png" = b!"/home/me/pics/a.png" ∧ resolveFile b!"/home/me" b!"..//x/./b.png" = b!"/home/x/b.png" ∧
    resolveFile b!"/home/me" b!"/tmp/../c.png" = b!"/tmp/../c.png" ∧ resolveFile [] b!"a/../../b.png" = b!"../b.png" := by decide
example : Elements [[], b!"home", b!"me"] b!"/home/me" := .cons (e := []) (by decide) (.cons (e := b!"home") (by decide) (.one (by decide)))
example : walk [] [[], b!"home", b!"me", b!"..", [], b!"x", b!".", b!"b.png"] = [b!"home", b!"x", b!"b.png"] := by decide
example : (loadRegistryFile b!"/home/me" b!"fonts/fontdef.toml" ⟨[], [⟨b!"Fira", [⟨b!"bold", b!"fira/b.ttf"⟩, ⟨b!"regular", b!"/f/r.ttf"⟩]⟩]⟩).fonts =
    [⟨b!"Fira", b!"bold", b!"/home/me/fonts/fira/b.ttf"⟩, ⟨b!"Fira", b!"regular", b!"/f/r.ttf"⟩] := by decide

/-! ### C81: the name of the output -/

/-- C81: the second argument, if there is one, is the name of the output. -/
theorem C81_given (prog inp out : Str) (rest : List Str) : outputName (prog :: inp :: out :: rest) = out := rfl

/-- C81: otherwise the output is in the working directory, with the name of the input, without its extension (which is what follows the last dot), and
with the extension pdf. -/
theorem C81_default (prog dir name x : Str) (hd : dir = [] ∨ ∃ q, dir = q ++ [47]) (hn : 47 ∉ name) (hx : 47 ∉ x ∧ 46 ∉ x) :
    outputName [prog, dir ++ name ++ 46 :: x] = name ++ b!".pdf" := by
  have h := base_ext (p := dir) (b := name ++ 46 :: x) hd (by simp) (by simp [hn, hx.1])
  show trimSuffix (basePath (dir ++ name ++ 46 :: x)) (extPath (dir ++ name ++ 46 :: x)) ++ b!".pdf" = _
  rw [List.append_assoc, h.1, h.2, fromDot_ext hx.2, trimSuffix_append]

/-- C81: the same for a name without extension. -/
theorem C81_plain (prog dir name : Str) (hd : dir = [] ∨ ∃ q, dir = q ++ [47]) (hn : 47 ∉ name) (h0 : 46 ∉ name) (hne : name ≠ []) :
    outputName [prog, dir ++ name] = name ++ b!".pdf" := by
  have h := base_ext (p := dir) (b := name) hd hne hn
  show trimSuffix (basePath (dir ++ name)) (extPath (dir ++ name)) ++ b!".pdf" = _
  rw [h.1, h.2, fromDot_none h0]
  have := trimSuffix_append name []
  rw [List.append_nil] at this
  rw [this]

example : outputName [b!"xpdf", b!"../doc/report.v2.xml"] = b!"report.v2.pdf" ∧ outputName [b!"xpdf", b!"notes"] = b!"notes.pdf" := by decide

/-- C81: without arguments an example of the repository is used. -/
theorem C81_none (prog : Str) : inputName [prog] = b!"../../examples/grid.xml" ∧ outputName [prog] = b!"grid.pdf" := by
  refine ⟨rfl, ?_⟩
  exact C81_default prog b!"../../examples/" b!"grid" b!"xml" (.inr ⟨b!"../../examples", rfl⟩) (by decide) (by decide)

end Verif.Props
