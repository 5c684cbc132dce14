import Verif.Model.Bytes
/-!
# Package path/filepath on Unix, as called in internal/utils/file.go:31
-/
namespace GoIdentity

/-- One component in `filepath.Clean`; `acc` holds the components kept so far, the last one first. -/
def cleanStep (rooted : Bool) (acc : List GoString) (c : GoString) : List GoString :=
  if c = [] ∨ c = gs! "." then acc
  else if c = gs! ".." then
    match acc with
    | [] => if rooted then [] else [c]
    | top :: rest => if top = gs! ".." then c :: top :: rest else rest
  else c :: acc

/-- The components `filepath.Clean` keeps. -/
def cleanParts (s : GoString) : List GoString :=
  ((splitByte 47 s).foldl (cleanStep (s.head? == some 47)) []).reverse

/-- `filepath.Clean`. -/
def pathClean (s : GoString) : GoString :=
  if s.head? = some 47 then 47 :: joinWith [47] (cleanParts s)
  else if cleanParts s = [] then gs! "."
  else joinWith [47] (cleanParts s)

/-- `filepath.Join` of two elements. -/
def joinPath (a b : GoString) : GoString :=
  if a ≠ [] then pathClean (a ++ [47] ++ b)
  else if b ≠ [] then pathClean b
  else []

end GoIdentity
