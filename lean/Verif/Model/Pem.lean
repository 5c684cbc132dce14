import Verif.Model.Base64
/-!
# `encoding/pem`
(called in public_key.go:182-186 and public_key.go:253)
-/
namespace GoIdentity

/-- The base64 text in lines of 64 characters; `fuel` bounds the number of lines. -/
def wrap64 : Nat → GoString → GoString
  | 0, _ => []
  | _ + 1, [] => []
  | fuel + 1, b :: t => (b :: t).take 64 ++ 10 :: wrap64 fuel ((b :: t).drop 64)

/-- `pem.EncodeToMemory` of a block without headers. -/
def pemEncode (type bytes : GoString) : GoString :=
  let b64 := b64Encode bytes
  gs! "-----BEGIN " ++ type ++ gs! "-----\n" ++ wrap64 b64.length b64 ++ gs! "-----END " ++ type ++ gs! "-----\n"

/-- `bytes.TrimRight(line, " \t")`. -/
def trimRightBlank (s : GoString) : GoString := (s.reverse.dropWhile fun b => b == 32 || b == 9).reverse

/-- `getLine`: the first line without its end and without trailing blanks, and what follows. -/
def pemLine (s : GoString) : GoString × GoString :=
  match s.findIdx? (· == 10) with
  | none => (trimRightBlank s, [])
  | some i =>
    let line := s.take i
    (trimRightBlank (if hasSuffix line [13] then line.take (i - 1) else line), s.drop (i + 1))

/-- `bytes.Index(s, pat)`. -/
def indexSub (pat : GoString) : GoString → Option Nat
  | [] => if pat.isPrefixOf [] then some 0 else none
  | b :: t => if pat.isPrefixOf (b :: t) then some 0 else (indexSub pat t).map (· + 1)

/-- The loop over the header lines: whether there were any, and the text after them; `none` if the text ends before a line
without a colon.  `fuel` bounds the number of lines. -/
def pemHeaders : Nat → Bool → GoString → Option (Bool × GoString)
  | 0, _, _ => none
  | _ + 1, _, [] => none
  | fuel + 1, any, b :: t =>
    let (line, next) := pemLine (b :: t)
    if containsByte 58 line then pemHeaders fuel true next else some (any, b :: t)

/-- What follows the first `-----BEGIN ` at the beginning of a line. -/
def pemBegin (data : GoString) : Option GoString :=
  if hasPrefix data (gs! "-----BEGIN ") then some (data.drop 11)
  else (indexSub (gs! "\n-----BEGIN ") data).map fun i => data.drop (i + 12)

/-- The base64 text of the block and what follows `-----END `; `any` tells whether there were headers. -/
def pemEndMark (any : Bool) (rest : GoString) : Option (GoString × GoString) :=
  if !any && hasPrefix rest (gs! "-----END ") then some ([], rest.drop 9)
  else (indexSub (gs! "\n-----END ") rest).map fun i => (rest.take i, rest.drop (i + 10))

/-- The bytes of a block whose type is known, from the text after its headers. -/
def pemBody (type : GoString) (any : Bool) (rest : GoString) : Option GoString :=
  match pemEndMark any rest with
  | none => none
  | some (body, trailer) =>
    if hasPrefix trailer (type ++ gs! "-----") && (pemLine (trailer.drop (type.length + 5))).1 = [] then
      b64Decode (body.filter fun b => !(b == 32 || b == 9))
    else none

/-- `pem.Decode`: type and bytes of the first well-formed block.  After a malformed block the search goes on behind its type
line or its headers (`decodeError`); `fuel` bounds the number of attempts. -/
def pemDecodeAux : Nat → GoString → Option (GoString × GoString)
  | 0, _ => none
  | fuel + 1, data =>
    match pemBegin data with
    | none => none
    | some rest =>
      let (line, rest) := pemLine rest
      if hasSuffix line (gs! "-----") then
        let type := line.take (line.length - 5)
        match pemHeaders (rest.length + 1) false rest with
        | none => none
        | some (any, rest) =>
          match pemBody type any rest with
          | some bytes => some (type, bytes)
          | none => pemDecodeAux fuel rest
      else pemDecodeAux fuel rest

/-- `pem.Decode`. -/
def pemDecode (data : GoString) : Option (GoString × GoString) := pemDecodeAux (data.length + 1) data

end GoIdentity
