import Verif.Model.SshKeys
/-!
# RSA public keys as bytes

RFC 4251 §5 (`string`, `mpint`), RFC 4253 §6.6 (`ssh-rsa`) and the DER form of RFC 3279 §2.3.1, written without the functions of
the model.
-/
namespace GoIdentity

/-- An unsigned number, most significant byte first. -/
def unsignedBE (b : GoString) : Nat := b.foldl (fun a x => a * 256 + x.toNat) 0

/-- A number in two's complement, most significant byte first; no bytes at all mean zero. -/
def signedBE (b : GoString) : Int :=
  match b with
  | [] => 0
  | x :: _ => if x.toNat < 128 then (unsignedBE b : Int) else (unsignedBE b : Int) - 256 ^ b.length

/-- RFC 4251 `string`: the length in four bytes, then the contents. -/
def IsString (raw s : GoString) : Prop := ∃ len, len.length = 4 ∧ unsignedBE len = s.length ∧ raw = len ++ s

/-- RFC 4253 `ssh-rsa`: the name and two integers, each a string.  The integers need not be in the fewest bytes. -/
def RsaBlob (raw : GoString) (e n : Int) : Prop :=
  ∃ a b c eb nb, raw = a ++ b ++ c ∧ IsString a (gs! "ssh-rsa") ∧ IsString b eb ∧ IsString c nb ∧
    signedBE eb = e ∧ signedBE nb = n

/-- The exponents the SSH library accepts. -/
def OddExponent (e : Int) : Prop := 3 ≤ e ∧ e < 2 ^ 24 ∧ e % 2 = 1

/-- The usual form: both integers in the fewest bytes. -/
def CanonicalBlob (raw : GoString) (e n : Int) : Prop :=
  RsaBlob raw e n ∧ ∀ raw', RsaBlob raw' e n → raw.length ≤ raw'.length

/-! ## DER -/

/-- The octets of a definite length in their shortest form. -/
def DerLength (lb : GoString) (n : Nat) : Prop :=
  (n < 128 ∧ ∃ b : UInt8, b.toNat = n ∧ lb = [b]) ∨
    (128 ≤ n ∧ ∃ (k : UInt8) (bs : GoString), k.toNat = 128 + bs.length ∧ lb = k :: bs ∧ unsignedBE bs = n ∧ bs.head? ≠ some 0)

/-- An element: tag, length, contents. -/
def IsElement (tag : UInt8) (raw contents : GoString) : Prop := ∃ lb, DerLength lb contents.length ∧ raw = tag :: lb ++ contents

/-- The contents of an INTEGER: at least one byte, and as few as possible. -/
def DerInteger (c : GoString) (v : Int) : Prop :=
  c ≠ [] ∧ signedBE c = v ∧ ∀ c' : GoString, c' ≠ [] → signedBE c' = v → c.length ≤ c'.length

/-- `SubjectPublicKeyInfo` of an RSA key: the algorithm rsaEncryption with NULL parameters, and as a bit string the sequence of
modulus and exponent. -/
def RsaSpki (raw : GoString) (e n : Int) : Prop :=
  ∃ alg oid bits inner ni ei nc ec,
    IsElement 0x30 raw (alg ++ bits) ∧ IsElement 0x30 alg (oid ++ [0x05, 0x00]) ∧
    IsElement 0x06 oid [0x2a, 0x86, 0x48, 0x86, 0xf7, 0x0d, 0x01, 0x01, 0x01] ∧ IsElement 0x03 bits (0 :: inner) ∧
    IsElement 0x30 inner (ni ++ ei) ∧ IsElement 0x02 ni nc ∧ IsElement 0x02 ei ec ∧ DerInteger nc n ∧ DerInteger ec e

/-! ## PEM -/

/-- Text in lines of 64 characters, the last one possibly shorter but not empty. -/
inductive Lines64 : GoString → GoString → Prop
  | nil : Lines64 [] []
  | last {l : GoString} (h : l ≠ []) (hl : l.length ≤ 64) : Lines64 (l ++ [10]) l
  | more {l text t : GoString} (hl : l.length = 64) (ht : t ≠ []) (h : Lines64 text t) : Lines64 (l ++ [10] ++ text) (l ++ t)

/-- A PEM block of type `RSA PUBLIC KEY` without headers. -/
def IsPem (text der : GoString) : Prop :=
  ∃ lines, Lines64 lines (b64Encode der) ∧
    text = gs! "-----BEGIN RSA PUBLIC KEY-----\n" ++ lines ++ gs! "-----END RSA PUBLIC KEY-----\n"

end GoIdentity
