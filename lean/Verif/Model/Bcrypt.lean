import Verif.Model.Base64
/-!
# `golang.org/x/crypto/bcrypt` (called in password.go:82,96 and api_key.go:106)

Everything but the Blowfish computation itself, which is the parameter `Ext.bcryptRaw`.
-/
namespace GoIdentity
variable [Ext]

/-- The key material bcrypt uses: the password with a trailing NUL, repeated cyclically to 72 bytes (golang.org/x/crypto
bcrypt appends a NUL and the Blowfish key schedule reads 18 words cyclically). -/
def bcryptKey (pw : GoString) : GoString :=
  (List.range 72).map fun i => (pw ++ [0]).getD (i % (pw.length + 1)) 0

/-- A buffer of `n` bytes holding `s`: cut, or filled up with zeros. -/
def buffer (n : Nat) (s : GoString) : GoString := (s ++ List.replicate n 0).take n

/-- bcrypt's base64 alphabet. -/
def bcAlphabet : GoString := gs! "./ABCDEFGHIJKLMNOPQRSTUVWXYZabcdefghijklmnopqrstuvwxyz0123456789"

/-- `base64Encode`: no padding. -/
def bcEncode (s : GoString) : GoString :=
  ((b64Encode s).filter (· != 61)).map fun b => bcAlphabet.getD ((b64Val b).getD 0) 0

/-- A character of bcrypt's alphabet as one of the standard alphabet; the characters the decoder treats specially stay, and the
others become invalid. -/
def bcToStd (b : UInt8) : UInt8 :=
  if b = 10 ∨ b = 13 ∨ b = 61 then b
  else if bcAlphabet.contains b then b64Char (bcAlphabet.idxOf b) else 0

/-- `base64Decode` of the 22 characters of a salt. -/
def bcDecodeSalt (s : GoString) : Option GoString := b64Decode ((s ++ [61, 61]).map bcToStd)

/-- `bcrypt`: 23 of the 24 bytes computed with Blowfish. -/
def bcryptDigest (cost : Nat) (salt key : GoString) : GoString := buffer 23 (Ext.bcryptRaw cost salt key)

/-- `%02d` of a cost. -/
def twoDigits (n : Nat) : GoString := [UInt8.ofNat (48 + n / 10 % 10), UInt8.ofNat (48 + n % 10)]

/-- `strconv.Atoi` of two characters, for the values that `checkCost` allows. -/
def costOf (a b : UInt8) : Option Nat :=
  let d (c : UInt8) : Option Nat := if isDigit c then some (c.toNat - 48) else none
  match (if a = 43 then some 0 else d a), d b with
  | some x, some y => if 4 ≤ 10 * x + y ∧ 10 * x + y ≤ 31 then some (10 * x + y) else none
  | _, _ => none

/-- `newFromPassword` and `Hash`: the text of a hash made with version 2a; the salt is 16 bytes. -/
def bcryptText (cost : Nat) (salt pw : GoString) : GoString :=
  gs! "$2a$" ++ twoDigits cost ++ gs! "$" ++ bcEncode (buffer 16 salt) ++ bcEncode (bcryptDigest cost (buffer 16 salt) (bcryptKey pw))

/-- `newFromHash` with `decodeVersion` and `decodeCost`: cost, 22 characters of salt, the rest. -/
def bcryptParse (h : GoString) : Option (Nat × GoString × GoString) :=
  if h.length < 59 then none
  else
    match h with
    | c0 :: c1 :: c2 :: t =>
      if c0 ≠ 36 then none
      else if 50 < c1.toNat then none
      else
        match (if c2 = 36 then t else t.drop 1) with
        | a :: b :: _ :: t =>
          match costOf a b with
          | none => none
          | some c => some (c, t.take 22, t.drop 22)
        | _ => none
    | _ => none

/-- `bcrypt.GenerateFromPassword`: cost below 4 becomes 10, above 31 is an error, the salt may be unavailable. -/
def bcryptGenerate (pw : GoString) (cost : Int) (salt : Option GoString) : Res GoString :=
  let cost := if cost < 4 then 10 else cost
  if 31 < cost then .err (.ext (gs! "crypto/bcrypt: cost " ++ intDec cost ++ gs! " is outside allowed range (4,31)"))
  else
    match salt with
    | none => .err (.ext (gs! "entropy"))
    | some s => .ok (bcryptText cost.toNat s pw)

/-- `bcrypt.CompareHashAndPassword(...) == nil`.  Both texts are written with the same version, cost and salt, so they are equal
if the 31 characters of the digest are; `Hash` cuts a longer one and fills a shorter one up with zero bytes. -/
def bcryptMatch (hash pw : GoString) : Bool :=
  match bcryptParse hash with
  | none => false
  | some (cost, salt, rest) =>
    match bcDecodeSalt salt with
    | none => false
    | some s => buffer 31 rest == bcEncode (bcryptDigest cost s (bcryptKey pw))

end GoIdentity
