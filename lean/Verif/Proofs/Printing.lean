import Verif.Spec.Printing
import Verif.Proofs.Sim
/-
Proofs about what the program prints (C117).
-/
namespace Verif.Proofs
open Verif.Go Verif.Model Verif.Spec

variable {print : List Mark → Str} {p : Paper} {ctx : Ctx}

theorem prel_refl {E : Type} (s : PState E) : PRel Eq s s := ⟨rfl, rfl, rfl⟩

theorem prel_eq {E : Type} {s u : PState E} (h : PRel Eq s u) : u = s := by
  obtain ⟨_, _, _⟩ := s
  obtain ⟨_, _, _⟩ := u
  obtain ⟨h1, h2, h3⟩ := h
  simp only at h1 h2 h3
  rw [h1, h2, h3]

theorem sim_refl {E α : Type} (m : M E α) : Sim Eq m m := by
  intro s u hs a s' h
  rw [prel_eq hs]
  exact ⟨s', h, prel_refl s'⟩

theorem sim_eq {E α : Type} {m m' : M E α} (h : Sim Eq m m') (h' : Sim Eq m' m) : m = m' := by
  funext s
  cases hm : m s with
  | some q =>
    obtain ⟨u, hu, k⟩ := h s s (prel_refl s) q.1 q.2 hm
    rw [prel_eq k] at hu
    exact hu.symm
  | none =>
    cases hm' : m' s with
    | none => rfl
    | some q =>
      obtain ⟨u, hu, _⟩ := h' s s (prel_refl s) q.1 q.2 hm'
      rw [hm] at hu
      exact absurd hu (by simp)

/-- Only writing is different. -/
theorem two_printing (c : Calls Fpdf) : Two (printing print p) (Fpdf.engine p) Eq (fun _ => True) c c ∧ Two (Fpdf.engine p) (printing print p) Eq (fun _ => True) c c := by
  constructor <;> constructor <;> first
    | exact fun t => sim_refl _
    | exact sim_refl _
    | (rintro _ _ rfl; rfl)
    | (rintro _ _ _ rfl; rfl)
    | (rintro _ _ _ _ rfl; rfl)
    | (rintro _ _ _ _ _ _ _ rfl; rfl)

theorem callback_printing (c : Calls Fpdf) (iss : List Instr) : callback (printing print p) ctx c iss = callback (Fpdf.engine p) ctx c iss :=
  sim_eq (callback_sim (two_printing c).1 fun _ _ _ _ => trivial) (callback_sim (two_printing c).2 fun _ _ _ _ => trivial)

theorem callsAt_printing (n : Nat) : callsAt (printing print p) ctx n = callsAt (Fpdf.engine p) ctx n := by
  induction n with
  | zero => rfl
  | succ n ih =>
    unfold callsAt runWith
    rw [ih]
    simp only [callback_printing]
    rfl

theorem bind_map {E α β : Type} {m m' : M E α} {k k' : α → M E β} {g : β × PState E → β × PState E} (hk : ∀ a s, k a s = (k' a s).map g) (hm : m = m' := by rfl) (s : PState E) :
    (m >>= k) s = ((m' >>= k') s).map g := by
  rw [bind_eq, bind_eq, hm]
  cases m' s with
  | none => rfl
  | some q => exact hk q.1 q.2

theorem process_printing (n : Nat) (s : PState Fpdf) : process (printing print p) ctx n s =
    (process (Fpdf.engine p) ctx n s).map fun q => ({ written := if q.1.failed then [] else print q.2.eng.out, failed := q.1.failed }, q.2) := by
  have hi : processInstrs (printing print p) ctx (callsAt (Fpdf.engine p) ctx n) ctx.body = processInstrs (Fpdf.engine p) ctx (callsAt (Fpdf.engine p) ctx n) ctx.body :=
    sim_eq (processInstrs_sim (two_printing _).1 fun _ _ _ _ => trivial) (processInstrs_sim (two_printing _).2 fun _ _ _ _ => trivial)
  have hw : ∀ s : PState Fpdf, runWith (printing print p) ctx (callsAt (Fpdf.engine p) ctx (n - 1)) (printing print p).writePDF s =
      (runWith (Fpdf.engine p) ctx (callsAt (Fpdf.engine p) ctx (n - 1)) (Fpdf.engine p).writePDF s).map
        fun q => ({ written := if q.1.failed then [] else print q.2.eng.out, failed := q.1.failed }, q.2) := by
    intro s
    unfold runWith
    rw [callback_printing, callback_printing]
    show runProg _ _ (.footer _ _) _ = Option.map _ (runProg _ _ (.footer _ _) _)
    simp only [runProg]
    split <;> rfl
  unfold process
  rw [callsAt_printing, callsAt_printing, hi]
  refine bind_map (m' := upd ((Fpdf.engine p).setPageCountAlias b!"{np}")) (fun _ => bind_map fun (s1 : PState Fpdf) =>
    bind_map (m' := changeFontM (Fpdf.engine p) s1.curr.font) (fun _ => bind_map fun _ => bind_map fun _ => bind_map (m' := ask (Fpdf.engine p).failed) ?_ rfl) rfl) rfl s
  intro failed s
  split
  · rfl
  · exact hw s

end Verif.Proofs
