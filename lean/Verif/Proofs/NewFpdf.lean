import Verif.Spec.Paper
import Verif.Proofs.Text
import Verif.Props.Fonts
import Mathlib.Tactic.NormNum
/-
Page size and fonts of the engine (for C75, C76).
-/
namespace Verif.Proofs
open Verif.Go Verif.Model Verif.Spec

/-! ### Names -/

/-- One letter in lower case. -/
def low (c : UInt8) : UInt8 := if 65 ≤ c ∧ c ≤ 90 then c + 32 else c

theorem low_eq (x y : UInt8) : low x = low y ↔ SameLetter x y := by
  have hx := x.toNat_lt
  have hy := y.toNat_lt
  have e1 : (65 : UInt8).toNat = 65 := rfl
  have e2 : (90 : UInt8).toNat = 90 := rfl
  have e3 : (32 : UInt8).toNat = 32 := rfl
  unfold low SameLetter
  split <;> split <;> simp only [UInt8.le_iff_toNat_le, ← UInt8.toNat_inj, UInt8.toNat_add, e1, e2, e3] at * <;> omega

/-- A family name without `#`, as the library has it. -/
theorem libFamily_cons (c : UInt8) (s : Str) : libFamily (c :: s) = (if c = 32 then b!"#20" else [low c]) ++ libFamily s := by
  unfold libFamily lowerAscii replaceAll
  simp only [List.cons_ne_nil, if_false]
  by_cases h : c = 32
  · subst h
    have := replaceAux_prefix (old := [32]) (new := b!"#20") (by simp) s
    rw [show (32 : UInt8) :: s = [32] ++ s from rfl, this]
    rfl
  · rw [replaceAux_not_prefix (by simpa using Ne.symm h), if_neg h]
    rfl

theorem libFamily_eq : ∀ (a b : Str), 35 ∉ a → 35 ∉ b → (libFamily a = libFamily b ↔ SameName a b)
  | [], [], _, _ => by simp [SameName]
  | [], c :: b, _, _ => by
    rw [libFamily_cons]
    constructor
    · intro h
      exfalso
      revert h
      split <;> simp [libFamily, lowerAscii, replaceAll, replaceAux]
    · intro h; cases h
  | c :: a, [], _, _ => by
    rw [libFamily_cons]
    constructor
    · intro h
      exfalso
      revert h
      split <;> simp [libFamily, lowerAscii, replaceAll, replaceAux]
    · intro h; cases h
  | c :: a, d :: b, ha, hb => by
    rw [libFamily_cons, libFamily_cons]
    simp only [List.mem_cons, not_or] at ha hb
    have ih := libFamily_eq a b ha.2 hb.2
    have l35 : ∀ x : UInt8, x ≠ 35 → low x ≠ 35 := by
      intro x hx h
      have := (low_eq x 35).mp h
      have hx := x.toNat_lt
      have e1 : (65 : UInt8).toNat = 65 := rfl
      have e2 : (90 : UInt8).toNat = 90 := rfl
      have e3 : (32 : UInt8).toNat = 32 := rfl
      have e4 : (35 : UInt8).toNat = 35 := rfl
      unfold SameLetter at this
      simp only [UInt8.le_iff_toNat_le, ← UInt8.toNat_inj, UInt8.toNat_add, ne_eq, e1, e2, e3, e4] at *
      omega
    have l32 : ∀ x : UInt8, SameLetter 32 x → x = 32 := by
      intro x h
      have hx := x.toNat_lt
      have e1 : (65 : UInt8).toNat = 65 := rfl
      have e2 : (90 : UInt8).toNat = 90 := rfl
      have e3 : (32 : UInt8).toNat = 32 := rfl
      unfold SameLetter at h
      simp only [UInt8.le_iff_toNat_le, ← UInt8.toNat_inj, UInt8.toNat_add, e1, e2, e3] at *
      omega
    have sym : ∀ x y, SameLetter x y → SameLetter y x := fun x y h => (low_eq y x).mp ((low_eq x y).mpr h).symm
    unfold SameName at ih ⊢
    rw [List.forall₂_cons, ← ih]
    by_cases h1 : c = 32 <;> by_cases h2 : d = 32
    · subst h1 h2
      simp only [if_true, List.append_cancel_left_eq]
      exact ⟨fun h => ⟨Or.inl rfl, h⟩, fun h => h.2⟩
    · subst h1
      simp only [if_true, if_neg h2]
      constructor
      · intro h
        have := congrArg List.head? h
        simp only [List.cons_append, List.head?_cons, Option.some.injEq] at this
        exact absurd this.symm (l35 d (Ne.symm hb.1))
      · intro h; exact absurd (l32 _ h.1) h2
    · subst h2
      simp only [if_true, if_neg h1]
      constructor
      · intro h
        have := congrArg List.head? h
        simp only [List.cons_append, List.head?_cons, Option.some.injEq] at this
        exact absurd this (l35 c (Ne.symm ha.1))
      · intro h; exact absurd (l32 _ (sym _ _ h.1)) h1
    · simp only [if_neg h1, if_neg h2, List.cons_append, List.nil_append, List.cons.injEq, low_eq]

/-- Neither `B` nor `I` in the name of a family. -/
theorem libFamily_lower (a : Str) : 66 ∉ libFamily a ∧ 73 ∉ libFamily a := by
  have key : ∀ x : UInt8, low x ≠ 66 ∧ low x ≠ 73 := by
    intro x
    have hx := x.toNat_lt
    have e1 : (65 : UInt8).toNat = 65 := rfl
    have e2 : (90 : UInt8).toNat = 90 := rfl
    have e3 : (32 : UInt8).toNat = 32 := rfl
    have e4 : (66 : UInt8).toNat = 66 := rfl
    have e5 : (73 : UInt8).toNat = 73 := rfl
    unfold low
    split <;> simp only [UInt8.le_iff_toNat_le, ← UInt8.toNat_inj, UInt8.toNat_add, ne_eq, e1, e2, e3, e4, e5] at * <;> omega
  unfold libFamily lowerAscii
  constructor <;> intro h <;> obtain ⟨x, -, hx⟩ := List.mem_map.mp h
  · exact (key x).1 hx
  · exact (key x).2 hx

/-! ### Keys -/

/-- Bold and italic as the key has it. -/
def suffix (face : Bool × Bool) : Str := (if face.1 then [66] else []) ++ (if face.2 then [73] else [])

theorem key_inj {a b : Str} {f g : Bool × Bool} (h : libFamily a ++ suffix f = libFamily b ++ suffix g) : libFamily a = libFamily b ∧ f = g := by
  have key : ∀ (x y : Str) (f g : Bool × Bool), 66 ∉ x → 73 ∉ x → 66 ∉ y → 73 ∉ y → x ++ suffix f = y ++ suffix g → x = y ∧ f = g := by
    intro x
    induction x with
    | nil =>
      intro y f g _ _ hy1 hy2 h
      cases y with
      | nil => obtain ⟨f1, f2⟩ := f; obtain ⟨g1, g2⟩ := g; cases f1 <;> cases f2 <;> cases g1 <;> cases g2 <;> simp [suffix] at h ⊢
      | cons c y =>
        exfalso
        have := congrArg List.head? h
        simp only [List.nil_append, List.cons_append, List.head?_cons] at this
        obtain ⟨f1, f2⟩ := f
        cases f1 <;> cases f2 <;> simp [suffix] at this <;> subst this <;> simp at hy1 hy2
    | cons c x ih =>
      intro y f g hx1 hx2 hy1 hy2 h
      cases y with
      | nil =>
        exfalso
        have := congrArg List.head? h
        simp only [List.nil_append, List.cons_append, List.head?_cons] at this
        obtain ⟨f1, f2⟩ := g
        cases f1 <;> cases f2 <;> simp [suffix] at this <;> subst this <;> simp at hx1 hx2
      | cons d y =>
        simp only [List.cons_append, List.cons.injEq] at h
        simp only [List.mem_cons, not_or] at hx1 hx2 hy1 hy2
        obtain ⟨e, e'⟩ := ih y f g hx1.2 hx2.2 hy1.2 hy2.2 h.2
        exact ⟨by rw [h.1, e], e'⟩
  exact key _ _ f g (libFamily_lower a).1 (libFamily_lower a).2 (libFamily_lower b).1 (libFamily_lower b).2 h

theorem key_file (name style : Str) : libKey name (faceOf style) = libFamily name ++ suffix (faceOfFile style) := by
  unfold libKey faceOf faceOfFile
  split
  · rfl
  · split
    · rfl
    · split <;> rfl

theorem key_font (f : Font) : libKey f.family (replaceAll b!"U" [] (fpdfFontStyle f)) = libFamily f.family ++ suffix (faceOfFont f) := by
  unfold libKey fpdfFontStyle faceOfFont
  split <;> split <;> split <;> simp_all [suffix, replaceAll, replaceAux]

/-! ### Loading -/

theorem addFonts (read : Str → Option Str) (parse : Str → Parsed) : ∀ (fds : List Descriptor) (l : Lib) (done : List Descriptor),
    (∀ k, k ∈ l.fonts ↔ ∃ d ∈ done, Loads read parse d ∧ k = libKey d.name (faceOf d.style)) →
    match FontRegistry.eachLoop (addFont read parse) fds l with
    | (l', none) => l'.width = l.width ∧ l'.height = l.height ∧
        (∀ k, k ∈ l'.fonts ↔ ∃ d ∈ done ++ fds, Loads read parse d ∧ k = libKey d.name (faceOf d.style)) ∧
        ∀ a d b, fds = a ++ d :: b → ∃ bs, read d.filePath = some bs ∧
          (parse bs ≠ .refused ∨ ∃ e ∈ done ++ a, Loads read parse e ∧ libKey e.name (faceOf e.style) = libKey d.name (faceOf d.style))
    | (_, some _) => ∃ a d b, fds = a ++ d :: b ∧ (read d.filePath = none ∨ ∃ bs, read d.filePath = some bs ∧ parse bs = .refused ∧
          ∀ e ∈ done ++ a, Loads read parse e → libKey e.name (faceOf e.style) ≠ libKey d.name (faceOf d.style))
  | [], l, done, h => by
    simp only [FontRegistry.eachLoop, List.append_nil, true_and]
    exact ⟨h, fun a d b hh => by simp at hh⟩
  | fd :: fds, l, done, h => by
    -- a font that was taken in, or not needed
    have step : ∀ l1 : Lib, addFont read parse fd l = (l1, none) → l1.width = l.width → l1.height = l.height →
        (∀ k, k ∈ l1.fonts ↔ ∃ d ∈ done ++ [fd], Loads read parse d ∧ k = libKey d.name (faceOf d.style)) →
        (∃ bs, read fd.filePath = some bs ∧
          (parse bs ≠ .refused ∨ ∃ e ∈ done, Loads read parse e ∧ libKey e.name (faceOf e.style) = libKey fd.name (faceOf fd.style))) →
        match FontRegistry.eachLoop (addFont read parse) (fd :: fds) l with
        | (l', none) => l'.width = l.width ∧ l'.height = l.height ∧
            (∀ k, k ∈ l'.fonts ↔ ∃ d ∈ done ++ fd :: fds, Loads read parse d ∧ k = libKey d.name (faceOf d.style)) ∧
            ∀ a d b, fd :: fds = a ++ d :: b → ∃ bs, read d.filePath = some bs ∧
              (parse bs ≠ .refused ∨ ∃ e ∈ done ++ a, Loads read parse e ∧ libKey e.name (faceOf e.style) = libKey d.name (faceOf d.style))
        | (_, some _) => ∃ a d b, fd :: fds = a ++ d :: b ∧ (read d.filePath = none ∨ ∃ bs, read d.filePath = some bs ∧ parse bs = .refused ∧
              ∀ e ∈ done ++ a, Loads read parse e → libKey e.name (faceOf e.style) ≠ libKey d.name (faceOf d.style)) := by
      intro l1 hstep hw1 hh1 h' hthis
      have := addFonts read parse fds l1 (done ++ [fd]) h'
      unfold FontRegistry.eachLoop
      rw [hstep]
      simp only
      generalize FontRegistry.eachLoop (addFont read parse) fds l1 = q at this ⊢
      match q, this with
      | (l', none), this =>
        obtain ⟨w, hh, k, r⟩ := this
        refine ⟨w.trans hw1, hh.trans hh1, by simpa using k, ?_⟩
        intro a d b e
        cases a with
        | nil =>
          simp only [List.nil_append, List.cons.injEq] at e
          obtain ⟨rfl, rfl⟩ := e
          simpa using hthis
        | cons x a =>
          simp only [List.cons_append, List.cons.injEq] at e
          obtain ⟨rfl, e⟩ := e
          obtain ⟨bs', r1, r2⟩ := r a d b e
          exact ⟨bs', r1, by simpa using r2⟩
      | (_, some _), this =>
        obtain ⟨a, d, b, e, r⟩ := this
        refine ⟨fd :: a, d, b, by rw [e]; rfl, ?_⟩
        simpa using r
    cases hr : read fd.filePath with
    | none =>
      have hstep : addFont read parse fd l = (l, some ()) := by simp [addFont, hr]
      unfold FontRegistry.eachLoop
      rw [hstep]
      exact ⟨[], fd, fds, rfl, .inl hr⟩
    | some bs =>
      by_cases hk : libKey fd.name (faceOf fd.style) ∈ l.fonts
      · obtain ⟨e0, he0, hl0, hk0⟩ := (h _).mp hk
        refine step l (by simp [addFont, hr, libAddFont, hk]) rfl rfl ?_ ⟨bs, hr, .inr ⟨e0, he0, hl0, hk0.symm⟩⟩
        intro k
        rw [h k]
        constructor
        · rintro ⟨d, hd, hl, e⟩; exact ⟨d, by simp [hd], hl, e⟩
        · rintro ⟨d, hd, hl, e⟩
          rcases List.mem_append.mp hd with hd | hd
          · exact ⟨d, hd, hl, e⟩
          · rw [List.mem_singleton.mp hd] at e; exact ⟨e0, he0, hl0, by rw [e, hk0]⟩
      · cases hv : parse bs with
        | font =>
          refine step { l with fonts := l.fonts ++ [libKey fd.name (faceOf fd.style)] } (by simp [addFont, hr, libAddFont, hk, hv]) rfl rfl ?_
            ⟨bs, hr, .inl (by rw [hv]; decide)⟩
          intro k
          simp only [List.mem_append, List.mem_singleton, h k]
          constructor
          · rintro (⟨d, hd, hl, e⟩ | e)
            · exact ⟨d, .inl hd, hl, e⟩
            · exact ⟨fd, .inr rfl, ⟨bs, hr, hv⟩, e⟩
          · rintro ⟨d, hd | rfl, hl, e⟩
            · exact .inl ⟨d, hd, hl, e⟩
            · exact .inr e
        | ignored =>
          refine step l (by simp [addFont, hr, libAddFont, hk, hv]) rfl rfl ?_ ⟨bs, hr, .inl (by rw [hv]; decide)⟩
          intro k
          rw [h k]
          constructor
          · rintro ⟨d, hd, hl, e⟩; exact ⟨d, by simp [hd], hl, e⟩
          · rintro ⟨d, hd, hl, e⟩
            rcases List.mem_append.mp hd with hd | hd
            · exact ⟨d, hd, hl, e⟩
            · rw [List.mem_singleton.mp hd] at hl
              obtain ⟨bs', q1, q2⟩ := hl
              rw [hr] at q1
              rw [← Option.some.inj q1, hv] at q2
              exact absurd q2 (by decide)
        | refused =>
          have hstep : addFont read parse fd l = (l, some ()) := by simp [addFont, hr, libAddFont, hk, hv]
          unfold FontRegistry.eachLoop
          rw [hstep]
          refine ⟨[], fd, fds, rfl, .inr ⟨bs, hr, hv, ?_⟩⟩
          intro x hx hl heq
          rw [List.append_nil] at hx
          exact hk ((h _).mpr ⟨x, hx, hl, heq.symm⟩)

end Verif.Proofs
