import Verif.Props.Text
import Verif.Props.Style
import Verif.Model.Table
/-
The tests of the repository that state an expected result, run on the model.  These are tests of the model, not properties:
text/text_test.go, style/style_test.go and style/class_test.go.
-/
namespace Verif.Props
open Verif.Go Verif.Model Verif.Spec Verif.Proofs

/-! ### text/text_test.go:8-28, TestRemoveTwins -/

example : removeTwins b!"foo bar baz" b!" " = b!"foo bar baz" := by rw [removeTwins_space]; decide
example : removeTwins b!"foo bar  baz" b!" " = b!"foo bar baz" := by rw [removeTwins_space]; decide
example : removeTwins b!"foo bar bar baz" b!"bar" = b!"foo bar bar baz" := by rw [removeTwins]; decide
example : removeTwins b!"foo barbar baz" b!"bar" = b!"foo bar baz" := by
  rw [removeTwins, if_neg (by decide), removeTwins]; decide
example : removeTwins b!"foo \n\n baz" b!"\n" = b!"foo \n baz" := by
  rw [removeTwins, if_neg (by decide), removeTwins]; decide

/-! ### text/text_test.go:30-50, TestWhitespaceRectified -/

example : whitespaceRectified b!"foo bar baz" = b!"foo bar baz" := by rw [C02_exact]; decide
example : whitespaceRectified b!"foo bar  baz" = b!"foo bar baz" := by rw [C02_exact]; decide
example : whitespaceRectified b!"foo bar bar baz" = b!"foo bar bar baz" := by rw [C02_exact]; decide
example : whitespaceRectified b!"foo \\bar \\ baz" = b!"foo\\bar\\baz" := by rw [C02_exact]; decide
example : whitespaceRectified b!"foo \n\n baz" = b!"foo baz" := by rw [C02_exact]; decide
example : whitespaceRectified b!"  \rfoo    \\\\bar \n\n baz\n  " = b!"foo\\\\bar baz" := by rw [C02_exact]; decide

/-! ### style/style_test.go:9-84, TestMutate -/

private def fl0 : Floats := { parseFloat := fun s => (parseInt s).map (fun n => (n : ℚ)), convertFloat := fun s => (parseInt s).map (fun n => (n : ℚ)) }
private def ordId : MapOrder := ⟨id, fun _ => .refl _⟩
private def ordRev : MapOrder := ⟨List.reverse, fun l => l.reverse_perm⟩

private def padded (l t r b : ℚ) : Styles := { zeroStyles with box := { zeroStyles.box with padding := ⟨l, t, r, b⟩ } }
private def testFont : Font := ⟨b!"space-type", 14, b!"italic", b!"bold", b!"underline"⟩

example : (decodeMutator fl0 ordId b!"padding: 1,2,3,4").map (fun m => mutate m zeroStyles) = some (padded 1 2 3 4) := by decide +kernel
example : decodeMutator fl0 ordId b!"padding: 1,2,3" = none := by decide +kernel
example : (decodeMutator fl0 ordId
    b!"font-family: space-type; font-point-size: 14; font-style: italic; font-weight: bold; font-decoration: underline;").map
    (fun m => mutate m zeroStyles) = some { zeroStyles with font := testFont } := by decide +kernel
example : (decodeMutator fl0 ordRev
    b!"font-family: space-type; font-point-size: 14; font-style: italic; font-weight: bold; font-decoration: underline;").map
    (fun m => mutate m zeroStyles) = some { zeroStyles with font := testFont } := by decide +kernel

/-! ### style/class_test.go, TestClasses and TestClassesSelectors -/

private def sheet1 : Str :=
  b!"\n\t\t\tpadded{\n\t\t\t\tpadding: 1,2,3,4;\n\t\t\t}\n\t\t\tbold-unerline{\n\t\t\t\tfont-family: space-type;\n\t\t\t\tfont-point-size: 14;\n\t\t\t\tfont-style: italic;\n\t\t\t\tfont-weight: bold;\n\t\t\t\tfont-decoration: underline;\n\t\t\t}\n\t\t\t"
private def sheet2 : Str :=
  b!"\n\t\t\tpadded{\n\t\t\t\tpadding: 1,2,3,4;\n\t\t\t}\n\t\t\tpadded:reverse{\n\t\t\t\tpadding: 4,3,2,1;\n\t\t\t}\t\t\t\n\t\t\t"

example : (decodeClasses fl0 (fun _ => ordId) sheet1).map (fun cs => cs.mutate [b!"padded", b!"bold-unerline"] zeroStyles) =
    some { padded 1 2 3 4 with font := testFont } := by decide +kernel
example : decodeClasses fl0 (fun _ => ordId) b!"xt{" = none := by decide +kernel
example : (decodeClasses fl0 (fun _ => ordId) sheet1).map (fun cs => cs.mutateWithSelector [] [b!"padded", b!"bold-unerline"] zeroStyles) =
    some { padded 1 2 3 4 with font := testFont } := by decide +kernel
example : (decodeClasses fl0 (fun _ => ordId) sheet2).map (fun cs => cs.mutateWithSelector [] [b!"padded"] zeroStyles) =
    some (padded 1 2 3 4) := by decide +kernel
example : (decodeClasses fl0 (fun _ => ordId) sheet2).map (fun cs => cs.mutateWithSelector b!"reverse" [b!"padded"] zeroStyles) =
    some (padded 4 3 2 1) := by decide +kernel

end Verif.Props
