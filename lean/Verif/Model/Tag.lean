import Verif.Model.Types
/-!
# internal/tag/tag.go
-/
namespace GoIdentity.Tag

/-- internal/tag/tag.go:26-31 -/
structure Options where
  disabled : Bool := false
  disableTagPresent : Bool := false
  disableTagMismatch : Bool := false
  disableTagOnEmpty : Bool := false

/-- What reflection tells about one struct field (internal/tag/tag.go:56,72,84): its name, its type as printed, and its tags. -/
structure StructField where
  name : GoString
  type : GoString
  /-- `Tag.Get` -/
  tag : GoString → GoString

/-- What reflection tells about the resource (internal/tag/tag.go:45-47): it points to a struct of some name with its fields, or to
a type of another kind; or it has no element type, so that `Elem` panics. -/
inductive Resource
  | struct (name : GoString) (fields : List StructField)
  | other (kind : GoString)
  | noElem

/-- One line of the output, before it is formatted. -/
inductive Finding
  | notFound (tag : GoString) (f : StructField)
  | mismatch (tag : GoString) (f : StructField) (actual expected : GoString)
  | suggestion (fields : List StructField)

/-! ## strcase.ToSnake (github.com/iancoleman/strcase v0.2.0, called in internal/tag/tag.go:132) -/

/-- A lower-case ASCII letter. -/
def isLow (b : UInt8) : Bool := decide (97 ≤ b.toNat ∧ b.toNat ≤ 122)

/-- A byte written without regard to its neighbours: separators become underscores. -/
def snakePlain (b : UInt8) : UInt8 := if b = 32 ∨ b = 95 ∨ b = 45 ∨ b = 46 then 95 else b

/-- What is written for one byte, given its neighbours: letters in lower case, an underscore where letters and digits meet, where
upper case follows lower case, and before the last of several upper-case letters if lower case follows. -/
def snakeByte (prev : Option UInt8) (v : UInt8) (next : Option UInt8) : GoString :=
  let cap := isUpper v
  let low := isLow v
  let num := isDigit v
  let w := lowerByte v
  match next with
  | none => [snakePlain w]
  | some n =>
    if (cap && (isLow n || isDigit n)) || (low && (isUpper n || isDigit n)) || (num && (isUpper n || isLow n)) then
      (if cap && isLow n && prev.any isUpper then [95] else []) ++ [w] ++ (if low || num || isDigit n then [95] else [])
    else [snakePlain w]

/-- The loop over the bytes. -/
def snakeBytes : Option UInt8 → GoString → GoString
  | _, [] => []
  | prev, v :: t => snakeByte prev v t.head? ++ snakeBytes (some v) t

/-- `strcase.ToSnake`. -/
def toSnake (s : GoString) : GoString := snakeBytes none (trimSpace s)

/-- `strings.ReplaceAll` for a non-empty pattern; `fuel` bounds the length. -/
def replaceAllAux (old new : GoString) : Nat → GoString → GoString
  | 0, s => s
  | _ + 1, [] => []
  | n + 1, c :: s =>
    if old.isPrefixOf (c :: s) then new ++ replaceAllAux old new n ((c :: s).drop old.length)
    else c :: replaceAllAux old new n s

/-- `strings.ReplaceAll`. -/
def replaceAll (old new s : GoString) : GoString := replaceAllAux old new (s.length + 1) s

/-- `convertFieldToTag` (internal/tag/tag.go:131-136). -/
def convertFieldToTag (s : GoString) : GoString :=
  replaceAll (gs! "open_ssh") (gs! "openssh") (replaceAll (gs! "_md_5") (gs! "_md5") (toSnake s))

/-- `unicode.IsUpper(rune(Name[0]))` (internal/tag/tag.go:57): the first byte as a Latin-1 character. -/
def exported (f : StructField) : Bool :=
  match f.name with
  | [] => false
  | b :: _ => isUpper b || decide (0xC0 ≤ b.toNat ∧ b.toNat ≤ 0xDE ∧ b.toNat ≠ 0xD7)

/-- internal/tag/tag.go:54 -/
def requiredTags : List GoString := [gs! "json", gs! "xml", gs! "yaml"]

/-- The expected value (internal/tag/tag.go:62-65). -/
def expected (o : Options) (f : StructField) : GoString :=
  convertFieldToTag f.name ++ (if !o.disableTagOnEmpty then gs! ",omitempty" else [])

/-- The loop over the tag names (internal/tag/tag.go:67-113): findings and whether a suggestion is recorded for the field. -/
def checkTags (o : Options) (f : StructField) : List GoString → List Finding × Bool
  | [] => ([], false)
  | t :: ts =>
    let v := f.tag t
    if v = gs! "-" then ([], false)
    else if v = [] ∧ !o.disableTagPresent then
      let (fs, s) := checkTags o f ts
      (.notFound t f :: fs, s || ts.isEmpty)
    else if v ≠ expected o f ∧ !o.disableTagMismatch then
      let (fs, s) := checkTags o f ts
      (.mismatch t f v (expected o f) :: fs, s)
    else checkTags o f ts

/-- The loop over the fields (internal/tag/tag.go:55-114). -/
def checkFields (o : Options) : List StructField → List Finding × List StructField
  | [] => ([], [])
  | f :: fs =>
    let (out, sugg) := checkFields o fs
    if !exported f then (out, sugg)
    else
      let (a, s) := checkTags o f requiredTags
      (a ++ out, if s then f :: sugg else sugg)

/-- All findings about a struct (internal/tag/tag.go:55-122). -/
def findings (o : Options) (fs : List StructField) : List Finding :=
  let (out, sugg) := checkFields o fs
  if sugg.length > 0 then out ++ [.suggestion sugg] else out

/-- `%q` of a Go identifier. -/
def quote (s : GoString) : GoString := [34] ++ s ++ [34]

/-- `makeTags` (internal/tag/tag.go:138-148). -/
def makeTags (tags : List GoString) (s : GoString) : GoString :=
  [96] ++ joinWith (gs! " ") (tags.map fun t => t ++ gs! ":\"" ++ s ++ gs! "\"") ++ [96]

/-- A suggested line of source text (internal/tag/tag.go:88-94). -/
def suggestedLine (o : Options) (f : StructField) : GoString :=
  f.name ++ gs! " " ++ replaceAll (gs! "identity.") [] f.type ++ gs! " " ++ makeTags requiredTags (expected o f)

/-- The wording of a finding (internal/tag/tag.go:80-87,101-109,117-121). -/
def Finding.text (o : Options) (name : GoString) : Finding → GoString
  | .notFound t f => gs! "tag " ++ quote t ++ gs! " not found in " ++ name ++ gs! "." ++ f.name ++ gs! " (" ++ f.type ++ gs! ")"
  | .mismatch t f actual expected =>
    gs! "tag " ++ quote t ++ gs! " mismatch found in " ++ name ++ gs! "." ++ f.name ++ gs! " (" ++ f.type ++ gs! "): " ++ actual ++
      gs! " (actual) vs. " ++ expected ++ gs! " (expected)"
  | .suggestion fs => gs! "suggested struct changes to " ++ name ++ gs! ":\n" ++ joinWith [10] (fs.map (suggestedLine o))

/-- `GetTagCompliance` (internal/tag/tag.go:34-129): the output and the error, or `none` for a panic. -/
def getTagCompliance (r : Resource) (opts : Option Options) : Option (List GoString × Option GoString) :=
  let o := opts.getD {}
  if o.disabled then some ([], none)
  else
    match r with
    | .noElem => none
    | .other kind => some ([], some (gs! "resource kind " ++ quote kind ++ gs! " is unsupported"))
    | .struct name fs =>
      let out := (findings o fs).map (Finding.text o name)
      some (out, if out.length > 0 then some (gs! "struct " ++ quote name ++ gs! " is not compliant") else none)

end GoIdentity.Tag
