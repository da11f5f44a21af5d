import Verif.Go.Bytes
/-
Model of /repo/font: the font registry and its definition file (after TOML decoding).
-/
namespace Verif.Model
open Verif.Go

/-- font/registry.go:12-16, Descriptor. -/
structure Descriptor where
  name : Str
  style : Str
  filePath : Str
deriving DecidableEq

/-- font/registry.go:18-21, Registry. -/
structure FontRegistry where
  monoFont : Str
  fonts : List Descriptor
deriving DecidableEq

/-- font/registry.go:23-25 -/
def FontRegistry.new : FontRegistry := { monoFont := [], fonts := [] }

/-- font/registry.go:27-29 -/
def FontRegistry.register (r : FontRegistry) (fd : Descriptor) : FontRegistry := { r with fonts := r.fonts ++ [fd] }

/-- font/registry.go:35-43, Each.  The callback acts on a state `σ` and returns an error (`some e`) or nil. -/
def FontRegistry.eachLoop {σ ε : Type} (act : Descriptor → σ → σ × Option ε) : List Descriptor → σ → σ × Option ε
  | [], s => (s, none)
  | fd :: fds, s =>
    match act fd s with
    | (s', some e) => (s', some e)
    | (s', none) => FontRegistry.eachLoop act fds s'

def FontRegistry.each {σ ε : Type} (r : FontRegistry) (act : Descriptor → σ → σ × Option ε) (s : σ) : σ × Option ε :=
  FontRegistry.eachLoop act r.fonts s

/-- font/definition.go:10-13, StyleDefinition. -/
structure StyleDef where
  style : Str
  filePath : Str

/-- font/definition.go:15-18, Definition. -/
structure FontDef where
  name : Str
  styles : List StyleDef

/-- font/definition.go:20-23, Definitions. -/
structure FontDefs where
  monoFont : Str
  fonts : List FontDef

/-- font/definition.go:45-57: registering the decoded definitions; `resolve` is the path resolution of lines
38-43.  TOML decoding and filepath.Abs (lines 26-36) are not modelled. -/
def loadRegistry (resolve : Str → Str) (defs : FontDefs) : FontRegistry :=
  defs.fonts.foldl
    (fun reg fnt => fnt.styles.foldl
      (fun reg sty => reg.register { name := fnt.name, style := sty.style, filePath := resolve sty.filePath }) reg)
    { FontRegistry.new with monoFont := defs.monoFont }

end Verif.Model
