import Verif.Model.Bytes
/-!
# What base64 text stands for (RFC 4648)
-/
namespace GoIdentity

/-- The value of a character of the standard alphabet: A-Z, a-z, 0-9, plus, slash. -/
def StdValue (b : UInt8) (v : Nat) : Prop :=
  (65 ≤ b.toNat ∧ b.toNat ≤ 90 ∧ v = b.toNat - 65) ∨ (97 ≤ b.toNat ∧ b.toNat ≤ 122 ∧ v = b.toNat - 97 + 26) ∨
  (48 ≤ b.toNat ∧ b.toNat ≤ 57 ∧ v = b.toNat - 48 + 52) ∨ (b.toNat = 43 ∧ v = 62) ∨ (b.toNat = 47 ∧ v = 63)

/-- The value of a character of bcrypt's alphabet: dot, slash, A-Z, a-z, 0-9. -/
def BcryptValue (b : UInt8) (v : Nat) : Prop :=
  (b.toNat = 46 ∧ v = 0) ∨ (b.toNat = 47 ∧ v = 1) ∨ (65 ≤ b.toNat ∧ b.toNat ≤ 90 ∧ v = b.toNat - 65 + 2) ∨
  (97 ≤ b.toNat ∧ b.toNat ≤ 122 ∧ v = b.toNat - 97 + 28) ∨ (48 ≤ b.toNat ∧ b.toNat ≤ 57 ∧ v = b.toNat - 48 + 54)

/-- The number with these digits, the first one highest. -/
def number (base : Nat) (ds : List Nat) : Nat := ds.foldl (fun n d => n * base + d) 0

/-- Digits of six bits each hold these bytes of eight bits and, behind them, fewer than eight spare bits. -/
def Holds (vs : List Nat) (x : GoString) (spare : Nat) : Prop :=
  x.length = 6 * vs.length / 8 ∧ spare < 2 ^ (6 * vs.length % 8) ∧
  number 64 vs = number 256 (x.map UInt8.toNat) * 2 ^ (6 * vs.length % 8) + spare

end GoIdentity
