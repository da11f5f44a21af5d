import Verif.Proofs.Process
/-
What processing instructions needs to know of the document: not the body.
-/
namespace Verif.Proofs
open Verif.Go Verif.Model Verif.Spec

section
variable {E : Type} (eng : Engine E)

theorem renderCellItems_body (ctx : Ctx) (c : Calls E) (x : List Instr) (v : Str) (pa : Area) (iss : List Instr) :
    renderCellItems eng { ctx with body := x } c v pa iss = renderCellItems eng ctx c v pa iss := by
  induction iss with
  | nil => rfl
  | cons i iss ih => cases i <;> simp only [renderCellItems, ih] <;> rfl

theorem renderCell_body (ctx : Ctx) (c : Calls E) (x : List Instr) (pa : Area) (sty : Styles) (iss : List Instr) :
    renderCell eng { ctx with body := x } c pa sty iss = renderCell eng ctx c pa sty iss := by
  unfold renderCell
  simp only [renderCellItems_body]
  rfl

theorem renderTable_body (ctx : Ctx) (c : Calls E) (x : List Instr) (st : Styled) (rh : Int) (rows : List TableRow) :
    renderTable eng { ctx with body := x } c st rh rows = renderTable eng ctx c st rh rows := by
  have h : ∀ t, tableOps eng { ctx with body := x } c t = tableOps eng ctx c t := fun t => by
    unfold tableOps
    simp only [renderCell_body]
  unfold renderTable
  simp only [h]
  rfl

theorem processInstr_body (ctx : Ctx) (c : Calls E) (x : List Instr) (i : Instr) :
    processInstr eng { ctx with body := x } c i = processInstr eng ctx c i := by
  cases i
  case table => exact renderTable_body eng ctx c x _ _ _
  all_goals rfl

theorem processInstrs_body (ctx : Ctx) (c : Calls E) (x : List Instr) (iss : List Instr) :
    processInstrs eng { ctx with body := x } c iss = processInstrs eng ctx c iss := by
  induction iss with
  | nil => rfl
  | cons i iss ih => simp only [processInstrs, processInstr_body, ih]

theorem runWith_body {α : Type} (ctx : Ctx) (c : Calls E) (x : List Instr) (op : E → Prog E α) :
    runWith eng { ctx with body := x } c op = runWith eng ctx c op := by
  funext s
  simp only [runWith, callback, processInstrs_body]

theorem callsAt_body (ctx : Ctx) (x : List Instr) (n : Nat) : callsAt eng { ctx with body := x } n = callsAt eng ctx n := by
  induction n with
  | zero => rfl
  | succ n ih => simp only [callsAt, ih, runWith_body]

end
end Verif.Proofs
