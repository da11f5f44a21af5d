import Verif.Model.Fonts
import Mathlib.Tactic.Common
/-
Property C50: the font registry (/repo/font).
-/
namespace Verif.Props
open Verif.Go Verif.Model

/-- State after calls of `act` on the given fonts, in order, ignoring errors. -/
def callAll {σ ε : Type} (act : Descriptor → σ → σ × Option ε) (s : σ) : List Descriptor → σ
  | [] => s
  | fd :: fds => callAll act (act fd s).1 fds

/-- Each call on these fonts, made one after the other, returns nil. -/
def AllNil {σ ε : Type} (act : Descriptor → σ → σ × Option ε) (s : σ) (fds : List Descriptor) : Prop :=
  ∀ pre fd post, fds = pre ++ fd :: post → (act fd (callAll act s pre)).2 = none

theorem allNil_cons {σ ε : Type} (act : Descriptor → σ → σ × Option ε) (s : σ) (fd : Descriptor) (fds : List Descriptor) :
    AllNil act s (fd :: fds) ↔ (act fd s).2 = none ∧ AllNil act (act fd s).1 fds := by
  constructor
  · intro h
    refine ⟨h [] fd fds rfl, ?_⟩
    intro pre x post he
    exact h (fd :: pre) x post (by simp [he])
  · rintro ⟨h1, h2⟩ pre x post he
    cases pre with
    | nil => simp at he; obtain ⟨rfl, _⟩ := he; exact h1
    | cons y ys => simp at he; obtain ⟨rfl, he⟩ := he; exact h2 ys x post he

/-- C50: Each returns nil exactly if every call, made in registration order on the state left by the earlier ones,
returns nil; then all fonts have been visited. -/
theorem C50_all {σ ε : Type} (r : FontRegistry) (act : Descriptor → σ → σ × Option ε) (s t : σ) :
    r.each act s = (t, none) ↔ AllNil act s r.fonts ∧ t = callAll act s r.fonts := by
  unfold FontRegistry.each
  generalize r.fonts = fds
  induction fds generalizing s with
  | nil =>
    simp only [FontRegistry.eachLoop, callAll, Prod.mk.injEq, and_true]
    constructor
    · rintro rfl; exact ⟨fun pre fd post h => by simp at h, rfl⟩
    · rintro ⟨_, rfl⟩; rfl
  | cons fd fds ih =>
    rw [allNil_cons]
    simp only [FontRegistry.eachLoop, callAll]
    cases h : act fd s with
    | mk s' o =>
      cases o with
      | none => simp [ih]
      | some e => simp

/-- C50: Each returns the error `e` exactly if `e` is the result of the first failing call; the fonts after it are not
visited. -/
theorem C50_first_error {σ ε : Type} (r : FontRegistry) (act : Descriptor → σ → σ × Option ε) (s t : σ) (e : ε) :
    r.each act s = (t, some e) ↔
      ∃ pre fd post, r.fonts = pre ++ fd :: post ∧ AllNil act s pre ∧ act fd (callAll act s pre) = (t, some e) := by
  unfold FontRegistry.each
  generalize r.fonts = fds
  induction fds generalizing s with
  | nil => simp [FontRegistry.eachLoop]
  | cons fd fds ih =>
    simp only [FontRegistry.eachLoop]
    cases h : act fd s with
    | mk s' o =>
      cases o with
      | none =>
        simp only [ih]
        constructor
        · rintro ⟨pre, x, post, rfl, h1, h2⟩
          refine ⟨fd :: pre, x, post, rfl, (allNil_cons ..).mpr ⟨by rw [h], by rwa [h]⟩, by simpa [callAll, h] using h2⟩
        · rintro ⟨pre, x, post, he, h1, h2⟩
          cases pre with
          | nil => simp at he; obtain ⟨rfl, _⟩ := he; simp [callAll, h] at h2
          | cons y ys =>
            simp at he; obtain ⟨rfl, he⟩ := he
            rw [allNil_cons, h] at h1
            exact ⟨ys, x, post, he, h1.2, by simpa [callAll, h] using h2⟩
      | some e' =>
        simp only [Prod.mk.injEq, Option.some.injEq]
        constructor
        · rintro ⟨rfl, rfl⟩
          exact ⟨[], fd, fds, rfl, fun pre fd post h => by simp at h, h⟩
        · rintro ⟨pre, x, post, he, h1, h2⟩
          cases pre with
          | nil => simp at he; obtain ⟨rfl, _⟩ := he; simpa [callAll, h] using h2
          | cons y ys =>
            simp at he; obtain ⟨rfl, he⟩ := he
            rw [allNil_cons, h] at h1
            simp at h1

/-- C50: registering appends, so the order of the registry is the order of registration. -/
theorem C50_register (fds : List Descriptor) (r : FontRegistry) :
    (fds.foldl FontRegistry.register r).fonts = r.fonts ++ fds := by
  induction fds generalizing r with
  | nil => simp
  | cons fd fds ih => simp [ih, FontRegistry.register]

/-- C50: the registry made of a definition file has one font per style definition, in file order, with the name of its
font and the resolved path. -/
theorem C50_load (resolve : Str → Str) (defs : FontDefs) :
    (loadRegistry resolve defs).fonts =
      defs.fonts.flatMap (fun f => f.styles.map fun s => { name := f.name, style := s.style, filePath := resolve s.filePath }) ∧
    (loadRegistry resolve defs).monoFont = defs.monoFont := by
  have inner : ∀ (n : Str) (ss : List StyleDef) (reg : FontRegistry),
      (ss.foldl (fun reg sty => reg.register { name := n, style := sty.style, filePath := resolve sty.filePath }) reg) =
        { monoFont := reg.monoFont,
          fonts := reg.fonts ++ ss.map fun s => { name := n, style := s.style, filePath := resolve s.filePath } } := by
    intro n ss
    induction ss with
    | nil => intro reg; simp
    | cons s ss ih => intro reg; rw [List.foldl_cons, ih]; simp [FontRegistry.register]
  have outer : ∀ (fs : List FontDef) (reg : FontRegistry),
      fs.foldl (fun reg fnt => fnt.styles.foldl
        (fun reg sty => reg.register { name := fnt.name, style := sty.style, filePath := resolve sty.filePath }) reg) reg =
        { monoFont := reg.monoFont,
          fonts := reg.fonts ++ fs.flatMap (fun f => f.styles.map fun s =>
            { name := f.name, style := s.style, filePath := resolve s.filePath }) } := by
    intro fs
    induction fs with
    | nil => intro reg; simp
    | cons f fs ih => intro reg; rw [List.foldl_cons, ih, inner]; simp
  unfold loadRegistry
  rw [outer]
  simp [FontRegistry.new]

/-! Cases: three fonts of which the second fails; the visited names are collected. -/

private def exReg : FontRegistry := { monoFont := [], fonts := [⟨b!"a", [], []⟩, ⟨b!"b", [], []⟩, ⟨b!"c", [], []⟩] }

example : exReg.each (fun fd (s : List Str) => (s ++ [fd.name], if fd.name = b!"b" then some 7 else none)) [] =
    ([b!"a", b!"b"], some 7) := by decide +kernel

example : exReg.each (fun fd (s : List Str) => (s ++ [fd.name], (none : Option Nat))) [] = ([b!"a", b!"b", b!"c"], none) := by
  decide +kernel

example : (loadRegistry (fun p => b!"/d/" ++ p) { monoFont := b!"m", fonts :=
    [⟨b!"x", [⟨b!"B", b!"1"⟩, ⟨b!"I", b!"2"⟩]⟩, ⟨b!"y", []⟩, ⟨b!"z", [⟨[], b!"3"⟩]⟩] }).fonts =
    [⟨b!"x", b!"B", b!"/d/1"⟩, ⟨b!"x", b!"I", b!"/d/2"⟩, ⟨b!"z", [], b!"/d/3"⟩] := by decide +kernel

end Verif.Props
