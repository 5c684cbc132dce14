import Verif.Model.Uuid
import Verif.Spec.Reach
/-!
# Version 4 UUIDs (RFC 4122)
-/
namespace GoIdentity

/-- The lower-case hexadecimal digits. -/
def hexDigits : List UInt8 := gs! "0123456789abcdef"

/-- What may stand at place `i` of a version 4 UUID (RFC 4122). -/
def v4Chars (i : Nat) : List UInt8 :=
  if i = 8 ∨ i = 13 ∨ i = 18 ∨ i = 23 then [45]
  else if i = 14 then [52]
  else if i = 19 then gs! "89ab"
  else hexDigits

/-- A version 4 UUID in its canonical text form. -/
def IsV4 (s : GoString) : Prop := s.length = 36 ∧ ∀ (i : Nat) (b : UInt8), s[i]? = some b → b ∈ v4Chars i

/-- The two draws of 16 bytes agree in the 122 bits that count. -/
def SameFree (r r' : List UInt8) : Prop :=
  (∀ i, i ≠ 6 → i ≠ 8 → r[i]? = r'[i]?) ∧ (r.getD 6 0).toNat % 16 = (r'.getD 6 0).toNat % 16 ∧
    (r.getD 8 0).toNat % 64 = (r'.getD 8 0).toNat % 64

/-- Every `AddUser` of the history draws its first identifier from these 16 bytes. -/
def DrawsIDs (draw : Op → List UInt8) (ops : List Op) : Prop :=
  ∀ o ∈ ops, o.call = .addUser → (draw o).length = 16 ∧ o.nd.ids.head? = some (newID (draw o))

end GoIdentity
