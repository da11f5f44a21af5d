import Verif.Go.Bytes
/-
Go's path/filepath on Unix, from its documentation: paths are lists of elements between slashes.
-/
namespace Verif.Go

/-- `filepath.IsAbs`. -/
def isAbs (p : Str) : Bool := p.head? == some 47

/-- What `filepath.Clean` does with one more element; `st` are the elements so far, the last one first. -/
def cleanStep (rooted : Bool) (st : List Str) (e : Str) : List Str :=
  if e = [] ∨ e = b!"." then st
  else if e = b!".." then
    match st with
    | [] => if rooted then [] else [e]
    | t :: st' => if t = b!".." then e :: t :: st' else st'
  else e :: st

/-- `filepath.Clean`: drops empty elements and `.`, and `..` together with the element before it, or at the start of a rooted path. -/
def clean (p : Str) : Str :=
  let es := ((split 47 p).foldl (cleanStep (isAbs p)) []).reverse
  if isAbs p then 47 :: join es [47] else if es = [] then b!"." else join es [47]

/-- `filepath.Join`. -/
def joinPath : List Str → Str
  | [] => []
  | e :: es => if e = [] then joinPath es else clean (join (e :: es) [47])

/-- The part of a path behind its last slash. -/
def lastPart (p : Str) : Str := (split 47 p).getLast?.getD []

/-- `filepath.Dir`. -/
def dirPath (p : Str) : Str := clean (p.take (p.length - (lastPart p).length))

/-- `filepath.Base`. -/
def basePath (p : Str) : Str :=
  if p = [] then b!"."
  else
    let b := lastPart (trimRight (· == 47) p)
    if b = [] then [47] else b

/-- From the last dot of an element on; nothing if there is none. -/
def fromDot : Str → Str
  | [] => []
  | c :: cs => if fromDot cs = [] then if c = 46 then c :: cs else [] else fromDot cs

/-- `filepath.Ext`. -/
def extPath (p : Str) : Str := fromDot (lastPart p)

/-- `filepath.Abs` in the working directory `wd`. -/
def absPath (wd p : Str) : Str := if isAbs p then clean p else joinPath [wd, p]

/-- `strings.TrimSuffix`. -/
def trimSuffix (s suffix : Str) : Str := if suffix.isSuffixOf s then s.take (s.length - suffix.length) else s

end Verif.Go
