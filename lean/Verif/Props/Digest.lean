import Verif.Lemmas.Digest
import Verif.Lemmas.Totp
import Verif.Props.KeyFormats
/-!
# The digests: C115
-/
namespace GoIdentity
open Fips Toy

/-- C115: the function the model calls SHA-1 is that of FIPS 180-4: for every message it gives the one digest of the standard. -/
theorem C115_sha1_iff (m d : GoString) : IsSha1 m d ↔ Sha.sha1 m = d := isSha1_iff

/-- C115: SHA-256. -/
theorem C115_sha256_iff (m d : GoString) : IsSha256 m d ↔ Sha.sha256 m = d := isSha256_iff

/-- C115: SHA-512. -/
theorem C115_sha512_iff (m d : GoString) : IsSha512 m d ↔ Sha.sha512 m = d := isSha512_iff

/-- C115: MD5 is that of RFC 1321, with the sines of 1 to 64 as its constants. -/
theorem C115_md5_iff (m d : GoString) : IsMd5 m d ↔ Md5.md5 m = d := isMd5_iff

/-- C115: HMAC is that of RFC 2104, with blocks of 64 bytes for SHA-1 and SHA-256 and of 128 for SHA-512. -/
theorem C115_hmac_iff (key m d : GoString) :
    (IsHmac IsSha1 64 key m d ↔ Sha.hmac .sha1 key m = d) ∧ (IsHmac IsSha256 64 key m d ↔ Sha.hmac .sha256 key m = d) ∧
      (IsHmac IsSha512 128 key m d ↔ Sha.hmac .sha512 key m = d) :=
  ⟨isHmac_iff .sha1 rfl, isHmac_iff .sha256 rfl, isHmac_iff .sha512 rfl⟩

/-- C115: so a passcode is the one of RFC 4226 and RFC 6238: `digits` decimal digits, whose value is the 31-bit number read from the
HMAC of the eight bytes of the counter, modulo `10 ^ digits`. -/
theorem C115_otp_iff (h : HashAlg) (secret : GoString) (digits counter : Nat) (code : GoString) :
    IsOtp h secret digits counter code ↔ ∃ msg mac : GoString, msg.length = 8 ∧ number msg = counter ∧
      IsHmac (IsHash h) (if h = .sha512 then 128 else 64) secret msg mac ∧ code.length = digits ∧ (∀ b ∈ code, IsDigit b) ∧
      decVal code = otpNumber mac % 10 ^ digits := by
  have hb : Sha.blockSize h = if h = .sha512 then 128 else 64 := by cases h <;> rfl
  have hn : ∀ l : GoString, bytesVal l = number l := by
    intro l
    rw [number_eq]
    induction l with
    | nil => rfl
    | cons b t ih => rw [bytesVal, beNat_cons, ih]
  unfold IsOtp
  simp only [isHmac_iff h hb, hn]
  constructor
  · rintro ⟨msg, h1, h2, h3, h4, h5⟩
    exact ⟨msg, _, h1, h2, rfl, h3, h4, h5⟩
  · rintro ⟨msg, mac, h1, h2, rfl, h3, h4, h5⟩
    exact ⟨msg, h1, h2, h3, h4, h5⟩

/-- C115: and the fingerprints of a key are those of its one SHA-256 and its one MD5 digest. -/
theorem C115_fingerprints (blob s : GoString) :
    (s = Sha256Print blob ↔ ∃ d, IsSha256 blob d ∧ s = (b64Encode d).filter (· != 61)) ∧
      (s = Md5Print blob ↔ ∃ d, IsMd5 blob d ∧ s = joinWith [58] (d.map fun b => [hexDigit (b.toNat / 16), hexDigit (b.toNat % 16)])) := by
  constructor
  · constructor
    · rintro rfl
      exact ⟨_, isSha256_iff.2 rfl, rfl⟩
    · rintro ⟨d, h, rfl⟩
      rw [← isSha256_iff.1 h]; rfl
  · constructor
    · rintro rfl
      exact ⟨_, isMd5_iff.2 rfl, rfl⟩
    · rintro ⟨d, h, rfl⟩
      rw [← isMd5_iff.1 h]; rfl

/-- C115: every message has exactly one digest of each kind, of 20, 32, 64 and 16 bytes. -/
theorem C115_one_digest (m : GoString) :
    (∃ d, (∀ d', IsSha1 m d' ↔ d' = d) ∧ d.length = 20) ∧ (∃ d, (∀ d', IsSha256 m d' ↔ d' = d) ∧ d.length = 32) ∧
      (∃ d, (∀ d', IsSha512 m d' ↔ d' = d) ∧ d.length = 64) ∧ (∃ d, (∀ d', IsMd5 m d' ↔ d' = d) ∧ d.length = 16) := by
  refine ⟨⟨_, fun d' => isSha1_iff.trans eq_comm, Sha.sha1_length m⟩, ⟨_, fun d' => isSha256_iff.trans eq_comm, Sha.sha2_length _ rfl m⟩,
    ⟨_, fun d' => isSha512_iff.trans eq_comm, Sha.sha2_length _ rfl m⟩, ⟨_, fun d' => isMd5_iff.trans eq_comm, ?_⟩⟩
  exact md5_length m

-- The standards' own examples.
example : IsSha1 (gs! "abc") (Sha.natBE 20 0xa9993e364706816aba3e25717850c26c9cd0d89d) := (C115_sha1_iff _ _).2 (by decide +kernel)
example : IsSha256 (gs! "abc") (Sha.natBE 32 0xba7816bf8f01cfea414140de5dae2223b00361a396177a9cb410ff61f20015ad) :=
  (C115_sha256_iff _ _).2 (by decide +kernel)
example : IsSha512 (gs! "abc") (Sha.natBE 64
    0xddaf35a193617abacc417349ae20413112e6fa4e89a97ea20a9eeee64b55d39a2192992a274fc1a836ba3c23a3feebbd454d4423643ce80e2a9ac94fa54ca49f) :=
  (C115_sha512_iff _ _).2 (by decide +kernel)
example : IsMd5 (gs! "abc") (Sha.natBE 16 0x900150983cd24fb0d6963f7d28e17f72) := (C115_md5_iff _ _).2 (by decide +kernel)
example : IsMd5 [] (Sha.natBE 16 0xd41d8cd98f00b204e9800998ecf8427e) := (C115_md5_iff _ _).2 (by decide +kernel)
example : ¬ IsMd5 (gs! "abd") (Sha.natBE 16 0x900150983cd24fb0d6963f7d28e17f72) := fun h =>
  absurd ((C115_md5_iff _ _).1 h) (by decide +kernel)
example : IsHmac IsSha256 64 (gs! "Jefe") (gs! "what do ya want for nothing?")
    (Sha.natBE 32 0x5bdcc146bf60754e6a042426089575c75a003f089d2739839dec58b964ec3843) :=
  (C115_hmac_iff _ _ _).2.1.2 (by decide +kernel)
example : ∃ d, IsMd5 (gs! "key") d ∧ Md5Print (gs! "key") = joinWith [58] (d.map fun b => [hexDigit (b.toNat / 16), hexDigit (b.toNat % 16)]) ∧
    Md5Print (gs! "key") = gs! "3c:6e:0b:8a:9c:15:22:4a:82:28:b9:a9:8c:a1:53:1d" := by
  obtain ⟨d, h, e⟩ := (C115_fingerprints (gs! "key") _).2.1 rfl
  exact ⟨d, h, e, by decide +kernel⟩

end GoIdentity
