import Verif.Lemmas.Base64
import Verif.Spec.Toy
/-!
# Base64 texts: C111
-/
set_option linter.unusedSectionVars false
namespace GoIdentity
open Toy

/-! ## C111 -/

/-- C111: exactly which texts the decoder reads, and as which bytes: without carriage returns and newlines, characters of the standard
alphabet and then at most two signs `=` that make the length a multiple of four; the bits of the characters are those of the bytes and
then some spare ones, which do not matter. -/
theorem C111_decode {s x : GoString} : b64Decode s = some x ↔ ∃ body vs p spare,
    s.filter (fun b => b ≠ 10 ∧ b ≠ 13) = body ++ List.replicate p 61 ∧ p ≤ 2 ∧ (body.length + p) % 4 = 0 ∧
    List.Forall₂ StdValue body vs ∧ Holds vs x spare := by
  have e : s.filter (fun b => !(b == 10 || b == 13)) = s.filter (fun b => b ≠ 10 ∧ b ≠ 13) := by
    refine List.filter_congr fun b _ => ?_
    by_cases h1 : b = 10 <;> by_cases h2 : b = 13 <;> simp [h1, h2]
  unfold b64Decode
  rw [decodeGroups_iff, e]
  rfl

/-- C111: the encoder writes the one such text that has no line breaks and whose spare bits are zero. -/
theorem C111_encode {x s : GoString} : b64Encode x = s ↔ ∃ body vs p, s = body ++ List.replicate p 61 ∧ p ≤ 2 ∧ (body.length + p) % 4 = 0 ∧
    List.Forall₂ StdValue body vs ∧ Holds vs x 0 := encode_iff

/-- C111: bcrypt writes salts and digests with its own alphabet, as few characters as the bits need, no padding, and spare bits zero. -/
theorem C111_bcrypt_encode {x s : GoString} : bcEncode x = s ↔ ∃ vs, List.Forall₂ BcryptValue s vs ∧ vs.length = (8 * x.length + 5) / 6 ∧ Holds vs x 0 :=
  bcEncode_iff

/-- C111: and exactly these salts of a stored hash are read: line breaks are skipped, the other characters are of its alphabet, and their
number is two more than a multiple of four. -/
theorem C111_bcrypt_salt {s x : GoString} : bcDecodeSalt s = some x ↔ ∃ vs spare,
    List.Forall₂ BcryptValue (s.filter fun b => b ≠ 10 ∧ b ≠ 13) vs ∧ vs.length % 4 = 2 ∧ Holds vs x spare := by
  have e : s.filter (fun b => !(b == 10 || b == 13)) = s.filter (fun b => b ≠ 10 ∧ b ≠ 13) := by
    refine List.filter_congr fun b _ => ?_
    by_cases h1 : b = 10 <;> by_cases h2 : b = 13 <;> simp [h1, h2]
  rw [bcDecodeSalt_iff, e]

/-- C111: bytes and spare bits are determined by the characters. -/
theorem C111_unique {vs : List Nat} {x y : GoString} {r r' : Nat} (h : Holds vs x r) (h' : Holds vs y r') : x = y ∧ r = r' := h.unique h'

-- The examples of RFC 4648, a text with other spare bits and a line break, and texts that are not read.
example : b64Encode (gs! "foob") = gs! "Zm9vYg==" ∧ b64Encode (gs! "fooba") = gs! "Zm9vYmE=" ∧ b64Encode (gs! "foobar") = gs! "Zm9vYmFy" ∧
    b64Decode (gs! "Zm9v\nYh==") = some (gs! "foob") ∧ b64Decode (gs! "Zm9vYg=") = none ∧ b64Decode (gs! "Zm9v Yg==") = none ∧
    b64Decode (gs! "Zg==Zg==") = none ∧ b64Decode (gs! "_-==") = none ∧ b64Encode [251, 255] = gs! "+/8=" := by
  decide +kernel

-- The number of a text: "Zg" holds the byte 102 and four spare bits.
example : Holds [25, 32] (gs! "f") 0 ∧ StdValue 90 25 ∧ StdValue 103 32 ∧ ¬ ∃ v, StdValue 61 v := by
  refine ⟨⟨by decide, by decide, by decide⟩, by decide, by decide, ?_⟩
  rintro ⟨v, h⟩
  exact h.ne rfl

end GoIdentity
