import Verif.Go.Path
import Verif.Model.Fonts
/-
Model of how names of files are resolved: /repo/process.go, /repo/font/definition.go, /repo/cmd/xpdf/main.go.
-/
namespace Verif.Model
open Verif.Go

/-- process.go:35-41, resolveFile. -/
def resolveFile (wd name : Str) : Str := if isAbs name then name else clean (joinPath [wd, name])

/-- font/definition.go:38-43, resolve in the directory `absDir`. -/
def resolveFont (absDir file : Str) : Str := if isAbs file then file else joinPath [absDir, file]

/-- font/definition.go:25-57, LoadRegistryFromFile, after decoding; filepath.Abs does not fail. -/
def loadRegistryFile (wd file : Str) (defs : FontDefs) : FontRegistry := loadRegistry (resolveFont (dirPath (absPath wd file))) defs

/-- cmd/xpdf/main.go:18-31, the name of the input. -/
def inputName (args : List Str) : Str := args.getD 1 b!"../../examples/grid.xml"

/-- cmd/xpdf/main.go:32-39, the name of the output. -/
def outputName (args : List Str) : Str :=
  match args[2]? with
  | some out => out
  | none => trimSuffix (basePath (inputName args)) (extPath (inputName args)) ++ b!".pdf"

end Verif.Model
