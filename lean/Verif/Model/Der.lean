import Verif.Model.Sha
/-!
# Integers as bytes, and the DER form of an RSA public key

`math/big`, `encoding/asn1` and the RSA part of `x509.MarshalPKIXPublicKey` and `x509.ParsePKIXPublicKey` (public_key.go:178,260).
-/
namespace GoIdentity
open Sha (beNat natBE)

/-- `big.Int.Bytes` of a non-negative number: big-endian without leading zeros. -/
def natBytes (n : Nat) : GoString := if n = 0 then [] else natBE (Nat.log2 n / 8 + 1) n

/-- Complement of every byte. -/
def notBytes (l : GoString) : GoString := l.map fun b => UInt8.ofNat (255 - b.toNat)

/-- The first byte has its high bit set. -/
def highBit : GoString → Bool
  | b :: _ => decide (128 ≤ b.toNat)
  | [] => false

/-- Two's complement in the fewest bytes, zero being empty (`marshalInt` of golang.org/x/crypto/ssh). -/
def intBytes : Int → GoString
  | .ofNat n => if highBit (natBytes n) then 0 :: natBytes n else natBytes n
  | .negSucc n => if highBit (notBytes (natBytes n)) then notBytes (natBytes n) else 255 :: notBytes (natBytes n)

/-- The number in two's complement. -/
def bytesInt (l : GoString) : Int := if highBit l then -((beNat (notBytes l) : Int) + 1) else beNat l

/-! ## Writing -/

/-- The length octets. -/
def derLenBytes (n : Nat) : GoString := if n < 128 then [UInt8.ofNat n] else UInt8.ofNat (128 + (natBytes n).length) :: natBytes n

/-- An element: tag, length, content. -/
def derElem (tag : UInt8) (content : GoString) : GoString := tag :: derLenBytes content.length ++ content

/-- INTEGER. -/
def derInt (n : Int) : GoString := derElem 0x02 (if n = 0 then [0] else intBytes n)

/-- The object identifier 1.2.840.113549.1.1.1 (rsaEncryption). -/
def oidRSA : GoString := [0x2a, 0x86, 0x48, 0x86, 0xf7, 0x0d, 0x01, 0x01, 0x01]

/-- `pkcs1PublicKey`: the modulus and the exponent. -/
def rsaInner (e : Nat) (n : Int) : GoString := derElem 0x30 (derInt n ++ derInt e)

/-- `x509.MarshalPKIXPublicKey` of an RSA key. -/
def marshalPKIX (e : Nat) (n : Int) : GoString :=
  derElem 0x30 (derElem 0x30 (derElem 0x06 oidRSA ++ [0x05, 0x00]) ++ derElem 0x03 (0 :: rsaInner e n))

/-! ## Reading -/

/-- The bytes of a long length: no leading zeros, and the number stays below `2 ^ 31`. -/
def derLongLen : Nat → Nat → GoString → Option (Nat × GoString)
  | 0, acc, l => some (acc, l)
  | _ + 1, _, [] => none
  | k + 1, acc, b :: t =>
    if acc ≥ 2 ^ 23 then none
    else if acc * 256 + b.toNat = 0 then none
    else derLongLen k (acc * 256 + b.toNat) t

/-- The length octets: definite, and long only if it must be. -/
def derLen : GoString → Option (Nat × GoString)
  | [] => none
  | b :: t =>
    if b.toNat < 128 then some (b.toNat, t)
    else if b.toNat = 128 then none
    else
      match derLongLen (b.toNat - 128) 0 t with
      | none => none
      | some (n, t) => if n < 128 then none else some (n, t)

/-- An element with the given tag: its content and what follows. -/
def derTake (tag : UInt8) : GoString → Option (GoString × GoString)
  | [] => none
  | b :: t =>
    if b = tag then
      match derLen t with
      | none => none
      | some (n, t) => if t.length < n then none else some (t.take n, t.drop n)
    else none

/-- `checkInteger`: at least one byte, and no superfluous first byte. -/
def derIntOk : GoString → Bool
  | [] => false
  | [_] => true
  | a :: b :: _ => !((a.toNat = 0 && decide (b.toNat < 128)) || (a.toNat = 255 && decide (128 ≤ b.toNat)))

/-- INTEGER: its value and what follows. -/
def derTakeInt (l : GoString) : Option (Int × GoString × GoString) :=
  match derTake 0x02 l with
  | none => none
  | some (c, rest) => if derIntOk c then some (bytesInt c, c, rest) else none

/-- `parseBitString` and `BitString.RightAlign`. -/
def derBits : GoString → Option GoString
  | [] => none
  | p :: c =>
    if p.toNat > 7 || (c = [] && decide (p.toNat > 0)) || decide (beNat c % 2 ^ p.toNat ≠ 0) then none
    else some (if p.toNat = 0 then c else natBE c.length (beNat c / 2 ^ p.toNat))

/-- The modulus and the exponent (which must fit an `int64`); bytes after them inside the sequence are ignored, bytes after the
sequence are not.  Both must be positive. -/
def parseRsaInner (l : GoString) : Option (Nat × Int) :=
  match derTake 0x30 l with
  | some (c, []) =>
    match derTakeInt c with
    | none => none
    | some (n, _, c) =>
      match derTakeInt c with
      | none => none
      | some (e, eb, _) => if eb.length > 8 then none else if n ≤ 0 then none else if e ≤ 0 then none else some (e.toNat, n)
  | _ => none

/-- What `x509.ParsePKIXPublicKey` finds: nothing, an RSA key, or a well-started key of another algorithm. -/
inductive Pkix
  | bad
  | rsa (e : Nat) (n : Int)
  | other
  deriving DecidableEq, Repr

/-- `x509.ParsePKIXPublicKey` as far as RSA goes: a sequence with nothing after it, of an algorithm identifier and a bit string
(later elements are ignored).  An RSA key must have NULL parameters. -/
def parsePKIX (der : GoString) : Pkix :=
  match derTake 0x30 der with
  | some (c, []) =>
    match derTake 0x30 c with
    | none => .bad
    | some (alg, c) =>
      match derTake 0x06 alg with
      | none => .bad
      | some (oid, params) =>
        if oid = oidRSA then
          if hasPrefix params [0x05, 0x00] then
            match derTake 0x03 c with
            | none => .bad
            | some (bits, _) =>
              match (derBits bits).bind parseRsaInner with
              | none => .bad
              | some (e, n) => .rsa e n
          else .bad
        else .other
  | _ => .bad

end GoIdentity
