import Verif.Model.Json
import Verif.Model.Tag
/-!
# `reflect.StructTag.Get` (called in internal/tag/tag.go:72)

The raw text of a struct tag, as it stands between backquotes in the source, and the value `Get` finds in it.
-/
namespace GoIdentity.Tag

/-- The number written by `n` hexadecimal digits, and what follows. -/
def hexRun : Nat → Nat → GoString → Option (Nat × GoString)
  | 0, acc, s => some (acc, s)
  | _ + 1, _, [] => none
  | n + 1, acc, b :: s =>
    match hexVal b with
    | none => none
    | some d => hexRun n (acc * 16 + d) s

/-- An escape in `strconv.UnquoteChar`, for double quotes, by the character after the backslash: the bytes it stands for, and what
follows. -/
def unquoteEscape (c : UInt8) (s : GoString) : Option (GoString × GoString) :=
  if c = 97 then some ([7], s)
  else if c = 98 then some ([8], s)
  else if c = 102 then some ([12], s)
  else if c = 110 then some ([10], s)
  else if c = 114 then some ([13], s)
  else if c = 116 then some ([9], s)
  else if c = 118 then some ([11], s)
  else if c = 92 ∨ c = 34 then some ([c], s)
  else if c = 120 then (hexRun 2 0 s).map fun p => ([UInt8.ofNat p.1], p.2)
  else if c = 117 ∨ c = 85 then
    match hexRun (if c = 117 then 4 else 8) 0 s with
    | none => none
    | some (v, s) => if (0xD800 ≤ v ∧ v ≤ 0xDFFF) ∨ 0x10FFFF < v then none else some (encodeRune v, s)
  else if 48 ≤ c.toNat ∧ c.toNat ≤ 55 then
    match s with
    | a :: b :: s =>
      let v := (c.toNat - 48) * 64 + (a.toNat - 48) * 8 + (b.toNat - 48)
      if 48 ≤ a.toNat ∧ a.toNat ≤ 55 ∧ 48 ≤ b.toNat ∧ b.toNat ≤ 55 ∧ v ≤ 255 then some ([UInt8.ofNat v], s) else none
    | _ => none
  else none

/-- `strconv.Unquote` of the text between two double quotes; `fuel` bounds the number of characters. -/
def unquoteAux : Nat → GoString → Option GoString
  | _, [] => some []
  | 0, _ :: _ => none
  | fuel + 1, b :: t =>
    if b = 34 ∨ b = 10 then none
    else if b = 92 then
      match t with
      | [] => none
      | c :: t =>
        match unquoteEscape c t with
        | none => none
        | some (v, t) => (unquoteAux fuel t).map (v ++ ·)
    else if b.toNat < 128 then (unquoteAux fuel t).map (b :: ·)
    else
      let (r, n) := decodeRune (b :: t)
      (unquoteAux fuel ((b :: t).drop n)).map (encodeRune r ++ ·)

/-- `strconv.Unquote` of the text between two double quotes. -/
def unquote (s : GoString) : Option GoString := unquoteAux s.length s

/-- A byte of the key: no space, quote, colon or control character. -/
def keyByte (b : UInt8) : Bool := decide (32 < b.toNat) && b != 58 && b != 34 && b != 127

/-- From behind an opening quote: the text up to the closing one, and what follows it.  A backslash hides the next byte. -/
def scanQuoted : GoString → Option (GoString × GoString)
  | [] => none
  | b :: t =>
    if b = 34 then some ([], t)
    else if b = 92 then
      match t with
      | [] => none
      | c :: t => (scanQuoted t).map fun p => (b :: c :: p.1, p.2)
    else (scanQuoted t).map fun p => (b :: p.1, p.2)

/-- `StructTag.Lookup`; `fuel` bounds the number of pairs. -/
def tagLookupAux (key : GoString) : Nat → GoString → Option GoString
  | 0, _ => none
  | fuel + 1, t =>
    let t := t.dropWhile (· == 32)
    let name := t.takeWhile keyByte
    match t.dropWhile keyByte with
    | c :: d :: q =>
      if name ≠ [] ∧ c = 58 ∧ d = 34 then
        match scanQuoted q with
        | none => none
        | some (raw, rest) => if name = key then unquote raw else tagLookupAux key fuel rest
      else none
    | _ => none

/-- `StructTag.Lookup`. -/
def tagLookup (key t : GoString) : Option GoString := tagLookupAux key (t.length + 1) t

/-- `StructTag.Get`. -/
def tagGet (key t : GoString) : GoString := (tagLookup key t).getD []

/-- A struct field with its tag as it stands in the source. -/
def rawField (name type raw : GoString) : StructField := ⟨name, type, fun key => tagGet key raw⟩

end GoIdentity.Tag
