import Verif.Go.Quote
import Verif.Model.Dump
/-
Model of /repo/cmd/image/main.go: the program that prints format and size of an image.
-/
namespace Verif.Model
open Verif.Go

/-- cmd/image/main.go:31-33: what is printed. -/
def imageText (isPrint : Nat → Bool) (src format : Str) (width height : Int) : Str :=
  b!"Source: " ++ quote isPrint src ++ b!"\nFormat: " ++ quote isPrint format ++ b!"\nDim   : w=" ++ itoa width ++ b!", h=" ++ itoa height ++ b!"\n"

/-- cmd/image/main.go:13-34, main.  `config` is image.DecodeConfig: format, width and height.  No file is written. -/
def imageMain (isPrint : Nat → Bool) (config : Str → Option (Str × Int × Int)) (w : World) : Exit × Printed :=
  match w.args with
  | _ :: src :: _ =>
    match w.read src with
    | none => (.code 2, .message)
    | some bs =>
      match config bs with
      | none => (.code 2, .message)
      | some (format, width, height) => (.code 0, .text (imageText isPrint src format width height))
  | _ => (.code 1, .message)

end Verif.Model
