import Verif.Model.ImageMain
import Verif.Proofs.PageNumber
import Verif.Proofs.Quote
/-
C105: the program image says what it is asked for.
-/
namespace Verif.Props
open Verif.Go Verif.Model Verif.Proofs Verif.Spec

private theorem takeWhile_all {p : UInt8 → Bool} {d : Str} (hd : ∀ c ∈ d, p c = true) {x : UInt8} {t : Str} (hx : p x = false) :
    (d ++ x :: t).takeWhile p = d ∧ (d ++ x :: t).dropWhile p = x :: t := by
  induction d with
  | nil => simp [hx]
  | cons c d ih =>
    have := ih fun y hy => hd y (by simp [hy])
    simp [hd c (by simp), this]

private theorem readNumber_itoa (n : Int) {x : UInt8} {t : Str} (hx : ¬ (48 ≤ x ∧ x ≤ 57)) : readNumber (itoa n ++ x :: t) = some (n, x :: t) := by
  obtain ⟨h1, h2⟩ := natDigits_digit n.natAbs
  obtain ⟨h3, -⟩ := natDigits_value n.natAbs
  have hd : ∀ c ∈ natDigits n.natAbs, (decide ((48 : UInt8) ≤ c) && decide (c ≤ 57)) = true := fun c hc => by simp [h2 c hc]
  have hx' : (decide ((48 : UInt8) ≤ x) && decide (x ≤ 57)) = false := by simpa using hx
  obtain ⟨e1, e2⟩ := takeWhile_all hd (x := x) (t := t) hx'
  unfold itoa
  split
  · rename_i hn
    rw [List.cons_append]
    unfold readNumber
    simp only [e1, e2, if_neg h1, h3]
    congr 2
    omega
  · rename_i hn
    obtain ⟨c, u, hc⟩ : ∃ c u, natDigits n.natAbs = c :: u := List.exists_cons_of_ne_nil h1
    have hc45 : c ≠ 45 := by
      intro h
      have := h2 c (by rw [hc]; simp)
      rw [h] at this
      revert this
      decide
    rw [hc] at e1 e2 h3 h1 ⊢
    rw [List.cons_append] at e1 e2 ⊢
    unfold readNumber
    split
    · rename_i h
      simp only [List.cons.injEq] at h
      exact absurd h.1 hc45
    · simp only [e1, e2, if_neg h1, h3]
      congr 2
      omega

private theorem expect_append (p s : Str) : expect p (p ++ s) = some s := by
  unfold expect
  rw [if_pos (by simp), List.drop_left]

/-- C105: the program image ends with exit code 0 exactly if a file is named, can be read and is an image; then what it prints reads as the
name of the file, the format of the image and its size.  Without a name it ends with exit code 1, otherwise with exit code 2. -/
theorem C105_program (isPrint : Nat → Bool) (config : Str → Option (Str × Int × Int)) (w : World) :
    (∀ prog src rest bs format width height, w.args = prog :: src :: rest → w.files (absPath w.wd src) = some bs → config bs = some (format, width, height) →
      ∃ out, imageMain isPrint config w = (.code 0, .text out) ∧ readImageText out = some (src, format, width, height)) ∧
    (∀ prog src rest, w.args = prog :: src :: rest → (∀ bs, w.files (absPath w.wd src) = some bs → config bs = none) →
      imageMain isPrint config w = (.code 2, .message)) ∧
    (w.args.length < 2 → imageMain isPrint config w = (.code 1, .message)) := by
  refine ⟨?_, ?_, ?_⟩
  · intro prog src rest bs format width height ha hf hc
    refine ⟨imageText isPrint src format width height, ?_, ?_⟩
    · simp only [imageMain, ha, World.read, hf, hc]
    · unfold readImageText imageText
      simp only [List.append_assoc]
      rw [expect_append]
      simp only [Option.bind_eq_bind, Option.bind_some, readLiteral_quote]
      rw [expect_append]
      simp only [Option.bind_some, readLiteral_quote]
      rw [expect_append]
      simp only [Option.bind_some]
      rw [show itoa width ++ (b!", h=" ++ (itoa height ++ b!"\n")) = itoa width ++ 44 :: ([32, 104, 61] ++ (itoa height ++ b!"\n")) from rfl,
        readNumber_itoa width (by decide)]
      simp only [Option.bind_some]
      rw [show (44 :: ([32, 104, 61] ++ (itoa height ++ b!"\n")) : Str) = b!", h=" ++ (itoa height ++ b!"\n") from rfl, expect_append]
      simp only [Option.bind_some]
      rw [readNumber_itoa height (t := []) (by decide)]
      rfl
  · intro prog src rest ha hf
    simp only [imageMain, ha, World.read]
    cases hb : w.files (absPath w.wd src) with
    | none => rfl
    | some bs => simp only [hf bs hb]
  · intro h
    unfold imageMain
    split
    · rename_i h'
      rw [h'] at h
      simp only [List.length_cons] at h
      omega
    · rfl

/-- C105: whatever the names in it are, the output is three lines without control characters (of ASCII). -/
theorem C105_lines {isPrint : Nat → Bool} (hp : ∀ r < 128, isPrint r = true → 32 ≤ r ∧ r ≤ 126) {config : Str → Option (Str × Int × Int)} {w : World} {out : Str}
    (h : imageMain isPrint config w = (.code 0, .text out)) :
    ∃ a b c : Str, out = a ++ b!"\n" ++ b ++ b!"\n" ++ c ++ b!"\n" ∧ ∀ x ∈ a ++ b ++ c, 32 ≤ x.toNat ∧ x.toNat ≠ 127 := by
  unfold imageMain at h
  split at h
  · rename_i src _ _
    split at h
    · simp at h
    split at h
    · simp at h
    rename_i format width height _
    simp only [Prod.mk.injEq, Printed.text.injEq, true_and] at h
    refine ⟨b!"Source: " ++ quote isPrint src, b!"Format: " ++ quote isPrint format, b!"Dim   : w=" ++ itoa width ++ b!", h=" ++ itoa height, ?_, ?_⟩
    · rw [← h]
      simp [imageText]
    · have hlit : ∀ s : Str, (s.all fun c => 32 ≤ c.toNat && c.toNat != 127) = true → ∀ c ∈ s, 32 ≤ c.toNat ∧ c.toNat ≠ 127 := by
        intro s hs c hc
        have := List.all_eq_true.mp hs c hc
        simpa using this
      have hnum : ∀ n : Int, ∀ c ∈ itoa n, 32 ≤ c.toNat ∧ c.toNat ≠ 127 := by
        intro n c hc
        rcases (itoa_chars n).2 c hc with rfl | ⟨h1, h2⟩
        · decide
        · rw [UInt8.le_iff_toNat_le] at h1 h2
          have e1 : (48 : UInt8).toNat = 48 := rfl
          have e2 : (57 : UInt8).toNat = 57 := rfl
          omega
      intro x hx
      simp only [List.mem_append, List.append_assoc] at hx
      rcases hx with hx | hx | hx | hx | hx | hx | hx | hx
      · exact hlit b!"Source: " (by decide) x hx
      · exact quote_shown hp src x hx
      · exact hlit b!"Format: " (by decide) x hx
      · exact quote_shown hp format x hx
      · exact hlit b!"Dim   : w=" (by decide) x hx
      · exact hnum _ x hx
      · exact hlit b!", h=" (by decide) x hx
      · exact hnum _ x hx
  · simp at h

/-- C105: a name of usual characters is printed as it is. -/
theorem C105_plain {isPrint : Nat → Bool} (hp : ∀ r, 32 ≤ r → r ≤ 126 → isPrint r = true) {config : Str → Option (Str × Int × Int)} {w : World} {out : Str}
    (h : imageMain isPrint config w = (.code 0, .text out)) {prog src : Str} {rest : List Str} (ha : w.args = prog :: src :: rest)
    (hs : ∀ c ∈ src, 32 ≤ c.toNat ∧ c.toNat ≤ 126 ∧ c ≠ 34 ∧ c ≠ 92) : b!"Source: \"" ++ src ++ b!"\"\n" <+: out := by
  simp only [imageMain, ha] at h
  split at h
  · simp at h
  split at h
  · simp at h
  simp only [Prod.mk.injEq, Printed.text.injEq, true_and] at h
  rw [← h, imageText, quote_plain hp src hs]
  simp only [List.append_assoc]
  exact ⟨_, by simp; rfl⟩

/-! Cases: a file with a strange name, and a usual one. -/

private def exPrint (r : Nat) : Bool := (32 ≤ r && r ≤ 126) || r == 0xE4 || r == 0x65E5 || r == 0xFFFD

private def exName : Str := b!"a\"\\" ++ [10, 0xFF, 0xC3, 0xA4, 0xE6, 0x97, 0xA5, 0xC2, 0x80, 0xF0, 0x90, 0x80, 0x80, 27, 0xEF, 0xBF, 0xBD]

private def exWorld (name : Str) : World := ⟨[b!"image", name], b!"/", fun p => if p = absPath b!"/" name then some b!"data" else none, fun _ => false⟩

example : imageMain exPrint (fun _ => some (b!"png", 640, 480)) (exWorld exName) =
    (.code 0, .text (b!"Source: \"a\\\"\\\\\\n\\xff" ++ [0xC3, 0xA4, 0xE6, 0x97, 0xA5] ++ b!"\\u0080\\U00010000\\x1b" ++ [0xEF, 0xBF, 0xBD] ++ b!"\"\nFormat: \"png\"\nDim   : w=640, h=480\n")) := by
  decide +kernel

example : readImageText (b!"Source: \"a\\\"\\\\\\n\\xff" ++ [0xC3, 0xA4, 0xE6, 0x97, 0xA5] ++ b!"\\u0080\\U00010000\\x1b" ++ [0xEF, 0xBF, 0xBD] ++ b!"\"\nFormat: \"png\"\nDim   : w=640, h=480\n") =
    some (exName, b!"png", 640, 480) := by decide +kernel

example : imageMain exPrint (fun _ => some (b!"jpeg", 1, 2)) (exWorld b!"x.jpg") = (.code 0, .text b!"Source: \"x.jpg\"\nFormat: \"jpeg\"\nDim   : w=1, h=2\n") := by
  decide +kernel

example : imageMain exPrint (fun _ => none) (exWorld b!"x.jpg") = (.code 2, .message) := by decide +kernel

end Verif.Props
