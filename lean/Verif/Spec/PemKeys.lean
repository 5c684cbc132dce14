import Verif.Spec.KeyFormats
/-!
# PEM blocks and DER keys as a reader may find them

RFC 7468 with the liberties the reader takes, and the key inside with bytes that are passed over; written without the functions of
the model (but for base64).
-/
namespace GoIdentity

/-- Blanks and a line break. -/
def LineEnd (e : GoString) : Prop := ∃ bl : GoString, (∀ b ∈ bl, b = 32 ∨ b = 9) ∧ (e = bl ++ [10] ∨ e = bl ++ [13, 10])

/-- Header lines: each has a colon in it. -/
inductive HeaderLines : GoString → Prop
  | nil : HeaderLines []
  | cons {l rest : GoString} (hc : 58 ∈ l) (hn : 10 ∉ l) (h : HeaderLines rest) : HeaderLines (l ++ 10 :: rest)

/-- Nothing but blanks up to the end of the line. -/
def RestBlank (post : GoString) : Prop :=
  ∃ bl : GoString, (∀ b ∈ bl, b = 32 ∨ b = 9) ∧ (post = bl ∨ ∃ r, post = bl ++ 10 :: r ∨ post = bl ++ 13 :: 10 :: r)

/-- Somewhere in the text, at the beginning of a line, there is a block with the same label at both ends. -/
def HasBlock (data type der : GoString) : Prop :=
  ∃ pre e hdr body brk post,
    data = pre ++ gs! "-----BEGIN " ++ type ++ gs! "-----" ++ e ++ hdr ++ body ++ brk ++ gs! "-----END " ++ type ++ gs! "-----" ++ post ∧
    (pre = [] ∨ pre.getLast? = some 10) ∧ LineEnd e ∧ HeaderLines hdr ∧ (brk = [10] ∨ brk = [] ∧ hdr = [] ∧ body = []) ∧
    RestBlank post ∧ b64Decode (body.filter fun b => !(b == 32 || b == 9)) = some der

/-- The contents of a bit string (with `pad` unused bits in the last byte) and the bytes it stands for once shifted to the right. -/
def AlignedBits (contents bytes : GoString) : Prop :=
  ∃ (pad : UInt8) (c : GoString), contents = pad :: c ∧ pad.toNat ≤ 7 ∧ (c = [] → pad = 0) ∧ bytes.length = c.length ∧
    unsignedBE c = unsignedBE bytes * 2 ^ pad.toNat

/-- A form of the key that is looser than `RsaSpki`. -/
def LooseSpki (raw : GoString) (e n : Int) : Prop :=
  ∃ alg oid bits bc inner ni ei nc ec t1 t2 t3,
    IsElement 0x30 raw (alg ++ bits ++ t1) ∧ IsElement 0x30 alg (oid ++ [0x05, 0x00] ++ t2) ∧
    IsElement 0x06 oid [0x2a, 0x86, 0x48, 0x86, 0xf7, 0x0d, 0x01, 0x01, 0x01] ∧ IsElement 0x03 bits bc ∧ AlignedBits bc inner ∧
    IsElement 0x30 inner (ni ++ ei ++ t3) ∧ IsElement 0x02 ni nc ∧ IsElement 0x02 ei ec ∧ DerInteger nc n ∧ DerInteger ec e

end GoIdentity
