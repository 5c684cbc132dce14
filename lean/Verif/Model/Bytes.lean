/-!
# Byte strings

A Go `string` is an immutable byte sequence; `len` counts bytes.  This file models the functions of package `strings`
and `unicode/utf8` that the repository calls.  They belong to Go's standard library, so they are cited by name and by
the places in `/repo` that call them.
-/

namespace GoIdentity

/-- A Go `string` or `[]byte`. -/
abbrev GoString := List UInt8

open Lean in
/-- `gs! "abc"` is the byte list of a string literal, expanded at elaboration time. -/
macro "gs!" s:str : term => do
  let bs := s.getString.toUTF8.data
  let elems ← bs.mapM fun b => `(($(Syntax.mkNumLit (toString b.toNat)) : UInt8))
  `(([$elems,*] : List UInt8))

/-! ## ASCII helpers -/

/-- `c < utf8.RuneSelf`. -/
def isASCII (b : UInt8) : Bool := decide (b.toNat < 128)

def isUpper (b : UInt8) : Bool := decide (65 ≤ b.toNat ∧ b.toNat ≤ 90)
def isLower (b : UInt8) : Bool := decide (97 ≤ b.toNat ∧ b.toNat ≤ 122)
def isDigit (b : UInt8) : Bool := decide (48 ≤ b.toNat ∧ b.toNat ≤ 57)
def isAlnum (b : UInt8) : Bool := isUpper b || isLower b || isDigit b

/-- ASCII lower-casing of one byte (the fast path of `strings.ToLower`). -/
def lowerByte (b : UInt8) : UInt8 := if isUpper b then b + 32 else b

/-! ## UTF-8 -/

/-- `utf8.RuneError`. -/
def runeError : Nat := 0xFFFD

/-- A continuation byte `10xxxxxx`. -/
def isCont (b : UInt8) : Bool := decide (0x80 ≤ b.toNat ∧ b.toNat ≤ 0xBF)

/-- `b` lies in `[lo, hi]`. -/
def inRange (lo hi : Nat) (b : UInt8) : Bool := decide (lo ≤ b.toNat ∧ b.toNat ≤ hi)

/-- `utf8.DecodeRuneInString`: the first code point and its width; `(RuneError, 1)` for an invalid encoding and
`(RuneError, 0)` for the empty string.  The accepted ranges of the second byte are those of the Go library
(no overlong forms, no surrogates, nothing above U+10FFFF). -/
def decodeRune : GoString → Nat × Nat
  | [] => (runeError, 0)
  | b0 :: t =>
    let n0 := b0.toNat
    if n0 < 0x80 then (n0, 1)
    else if n0 < 0xC2 then (runeError, 1)
    else if n0 < 0xE0 then
      match t with
      | b1 :: _ => if isCont b1 then ((n0 - 0xC0) * 64 + (b1.toNat - 0x80), 2) else (runeError, 1)
      | [] => (runeError, 1)
    else if n0 < 0xF0 then
      match t with
      | b1 :: b2 :: _ =>
        if inRange (if n0 = 0xE0 then 0xA0 else 0x80) (if n0 = 0xED then 0x9F else 0xBF) b1 && isCont b2 then
          ((n0 - 0xE0) * 4096 + (b1.toNat - 0x80) * 64 + (b2.toNat - 0x80), 3)
        else (runeError, 1)
      | _ => (runeError, 1)
    else if n0 < 0xF5 then
      match t with
      | b1 :: b2 :: b3 :: _ =>
        if inRange (if n0 = 0xF0 then 0x90 else 0x80) (if n0 = 0xF4 then 0x8F else 0xBF) b1 && isCont b2 && isCont b3 then
          ((n0 - 0xF0) * 262144 + (b1.toNat - 0x80) * 4096 + (b2.toNat - 0x80) * 64 + (b3.toNat - 0x80), 4)
        else (runeError, 1)
      | _ => (runeError, 1)
    else (runeError, 1)

/-- `utf8.EncodeRune` / `strings.Builder.WriteRune`: surrogates and values above U+10FFFF are written as U+FFFD. -/
def encodeRune (r : Nat) : GoString :=
  if r < 0x80 then [UInt8.ofNat r]
  else if r < 0x800 then [UInt8.ofNat (0xC0 + r / 64), UInt8.ofNat (0x80 + r % 64)]
  else if (0xD800 ≤ r ∧ r ≤ 0xDFFF) ∨ 0x10FFFF < r then [0xEF, 0xBF, 0xBD]
  else if r < 0x10000 then
    [UInt8.ofNat (0xE0 + r / 4096), UInt8.ofNat (0x80 + r / 64 % 64), UInt8.ofNat (0x80 + r % 64)]
  else
    [UInt8.ofNat (0xF0 + r / 262144), UInt8.ofNat (0x80 + r / 4096 % 64), UInt8.ofNat (0x80 + r / 64 % 64),
      UInt8.ofNat (0x80 + r % 64)]

/-- The runes of a `for range` loop over a string, with their widths; `fuel` bounds the number of steps (the length
of the string always suffices). -/
def runesAux : Nat → GoString → List (Nat × Nat)
  | 0, _ => []
  | _ + 1, [] => []
  | fuel + 1, b :: t =>
    let rw := decodeRune (b :: t)
    rw :: runesAux fuel ((b :: t).drop rw.2)

/-- The runes visited by a Go `for range` loop over `s`. -/
def runes (s : GoString) : List (Nat × Nat) := runesAux s.length s

/-- `utf8.ValidString`: no position decodes to `(RuneError, 1)`. -/
def validUTF8 (s : GoString) : Bool := (runes s).all fun rw => !(rw.1 == runeError && rw.2 == 1)

/-! ## strings.TrimSpace -/

/-- The UTF-8 encodings of the code points for which `unicode.IsSpace` holds. -/
def spaceRunes : List GoString :=
  [[0x09], [0x0A], [0x0B], [0x0C], [0x0D], [0x20], [0xC2, 0x85], [0xC2, 0xA0], [0xE1, 0x9A, 0x80],
   [0xE2, 0x80, 0x80], [0xE2, 0x80, 0x81], [0xE2, 0x80, 0x82], [0xE2, 0x80, 0x83], [0xE2, 0x80, 0x84],
   [0xE2, 0x80, 0x85], [0xE2, 0x80, 0x86], [0xE2, 0x80, 0x87], [0xE2, 0x80, 0x88], [0xE2, 0x80, 0x89],
   [0xE2, 0x80, 0x8A], [0xE2, 0x80, 0xA8], [0xE2, 0x80, 0xA9], [0xE2, 0x80, 0xAF], [0xE2, 0x81, 0x9F],
   [0xE3, 0x80, 0x80]]

/-- Length of the first pattern of `pats` that `s` starts with, or 0. -/
def leadLen (pats : List GoString) (s : GoString) : Nat :=
  match pats.find? (fun p => p.isPrefixOf s) with
  | some p => p.length
  | none => 0

/-- Repeatedly removes a leading pattern. -/
def dropPats (pats : List GoString) : Nat → GoString → GoString
  | 0, s => s
  | fuel + 1, s =>
    match leadLen pats s with
    | 0 => s
    | n + 1 => dropPats pats fuel (s.drop (n + 1))

/-- `strings.TrimLeftFunc(s, unicode.IsSpace)`. -/
def trimLeft (s : GoString) : GoString := dropPats spaceRunes s.length s

/-- `strings.TrimRightFunc(s, unicode.IsSpace)`.  `utf8.DecodeLastRuneInString` yields a given white-space rune iff the
string ends with its encoding, so the scan runs over the reversed string with reversed patterns. -/
def trimRight (s : GoString) : GoString :=
  (dropPats (spaceRunes.map List.reverse) s.length s.reverse).reverse

/-- `strings.TrimSpace` (called in role.go:30, name.go:78-79, user.go:116, password.go:73, mfa_token.go:335,355,367,451). -/
def trimSpace (s : GoString) : GoString := trimRight (trimLeft s)

/-! ## strings.Split / Join / Contains / HasPrefix / HasSuffix -/

/-- `strings.Split(s, string(sep))` for a one-byte separator (role.go:34, name.go:76, email.go:46). -/
def splitByte (sep : UInt8) : GoString → List GoString
  | [] => [[]]
  | b :: t =>
    if b = sep then [] :: splitByte sep t
    else
      match splitByte sep t with
      | [] => [[b]]
      | p :: ps => (b :: p) :: ps

/-- `strings.Join(parts, sep)` (role.go:41, mfa_token.go:277, database.go:754,795). -/
def joinWith (sep : GoString) : List GoString → GoString
  | [] => []
  | [p] => p
  | p :: ps => p ++ sep ++ joinWith sep ps

/-- `strings.Contains(s, string(b))` for one byte (database.go:386, name.go:73). -/
def containsByte (b : UInt8) (s : GoString) : Bool := s.any (· == b)

/-- `strings.Contains(s, sub)` (public_key.go:121,125). -/
def containsSub (sub : GoString) : GoString → Bool
  | [] => sub.isPrefixOf []
  | b :: t => sub.isPrefixOf (b :: t) || containsSub sub t

/-- `strings.HasPrefix`. -/
def hasPrefix (s pre : GoString) : Bool := pre.isPrefixOf s

/-- `strings.HasSuffix`. -/
def hasSuffix (s suf : GoString) : Bool := suf.isSuffixOf s

/-! ## Decimal numbers (`fmt.Sprintf("%d")`, `strconv`) -/

/-- Decimal digits of `n`, most significant first, no leading zeros (`0` is `"0"`). `fuel` bounds the digits. -/
def natDigitsAux : Nat → Nat → GoString → GoString
  | 0, _, acc => acc
  | fuel + 1, n, acc =>
    let acc := UInt8.ofNat (48 + n % 10) :: acc
    if n / 10 = 0 then acc else natDigitsAux fuel (n / 10) acc

/-- `%d` of a natural number. -/
def natDec (n : Nat) : GoString := natDigitsAux (n + 1) n []

/-- `%d` of an integer. -/
def intDec (n : Int) : GoString := if n < 0 then 45 :: natDec n.natAbs else natDec n.natAbs

/-- `fmt.Sprintf("%0Nd", n)` of a non-negative number: zero padded to at least `w` characters. -/
def padDec (w n : Nat) : GoString := List.replicate (w - (natDec n).length) 48 ++ natDec n

/-- Value of a digit byte. -/
def digitVal (b : UInt8) : Nat := b.toNat - 48

/-- Value of a decimal digit string. -/
def decVal (s : GoString) : Nat := s.foldl (fun acc b => acc * 10 + digitVal b) 0

end GoIdentity
