import Verif.Spec.Content
/-
The page count placeholder in sources and in written texts (C74).
-/
namespace Verif.Spec
open Verif.Go Verif.Model

/-- How often the page count placeholder (process.go:48) occurs in a text. -/
def occ : Str → Nat
  | [] => 0
  | c :: s => (if b!"{np}" <+: c :: s then 1 else 0) + occ s

/-- How often it occurs in the texts that are put. -/
def occPuts : List Put → Nat
  | [] => 0
  | .text t :: ps => occ t + occPuts ps
  | _ :: ps => occPuts ps

/-- How often it occurs in the text blocks and paragraphs of a text. -/
def occText : List Instr → Nat
  | [] => 0
  | .textBlock t :: iss => occ t + occText iss
  | .paragraph _ t :: iss => occ t + occText iss
  | _ :: iss => occText iss

/-- How often it occurs in the boxes of a cell. -/
def occBoxes : List Instr → Nat
  | [] => 0
  | .box _ b :: iss => occText b + occBoxes iss
  | _ :: iss => occBoxes iss

/-- How often it occurs in the instructions of body, header or footer that are rendered. -/
def occPart : List Instr → Nat
  | [] => 0
  | .text _ t :: iss => occText t + occPart iss
  | .box _ t :: iss => occText t + occPart iss
  | .table _ _ rows :: iss => (rows.map fun r => (r.cells.map fun c => occText c.iss + occBoxes c.iss).sum).sum + occPart iss
  | _ :: iss => occPart iss

end Verif.Spec
