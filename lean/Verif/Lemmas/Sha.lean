import Verif.Model.Sha
/-!
# Digest lengths
-/
namespace GoIdentity.Sha

theorem natBE_length (k n : Nat) : (natBE k n).length = k := by
  induction k with
  | zero => rfl
  | succ k ih => simp [natBE, ih]

theorem overBlocks_length {f : List Nat → GoString → List Nat} {m : Nat} (hf : ∀ s b, s.length = m → (f s b).length = m) (block n : Nat)
    (s : List Nat) (l : GoString) (hs : s.length = m) : (overBlocks f block n s l).length = m := by
  induction n generalizing s l with
  | zero => exact hs
  | succ n ih => exact ih _ _ (hf _ _ hs)

theorem sha1Rounds_length (t : Nat) (ws s : List Nat) : (sha1Rounds t ws s).length = s.length := by
  fun_induction sha1Rounds t ws s with
  | case1 t w ws a b c d e f k hf ih => rw [ih]; rfl
  | case2 => rfl

theorem sha2Rounds_length (p : Sha2) (ks ws s : List Nat) : (sha2Rounds p ks ws s).length = s.length := by
  fun_induction sha2Rounds p ks ws s with
  | case1 k ks w ws a b c d e f g h t1 t2 ih => rw [ih]; rfl
  | case2 => rfl

theorem flatMap_natBE_length (k : Nat) (l : List Nat) : (l.flatMap (natBE k)).length = l.length * k := by
  induction l with
  | nil => simp
  | cons a l ih => rw [List.flatMap_cons, List.length_append, ih, natBE_length, List.length_cons, Nat.succ_mul, Nat.add_comm]

theorem sha1_length (m : GoString) : (sha1 m).length = 20 := by
  rw [sha1, flatMap_natBE_length, overBlocks_length (m := 5) ?_ _ _ _ _ rfl]
  intro s b hs
  rw [sha1Block, List.length_zipWith, sha1Rounds_length, Nat.min_self, hs]

theorem sha2_length (p : Sha2) (hp : p.init.length = 8) (m : GoString) : (sha2 p m).length = 8 * (p.w / 8) := by
  rw [sha2, flatMap_natBE_length, overBlocks_length (m := 8) ?_ _ _ _ _ hp]
  intro s b hs
  rw [sha2Block, List.length_zipWith, sha2Rounds_length, Nat.min_self, hs]

theorem hash_length (a : HashAlg) (m : GoString) : (hash a m).length = a.size := by
  cases a
  · exact sha1_length m
  · exact sha2_length p256 rfl m
  · exact sha2_length p512 rfl m

theorem hmac_length (a : HashAlg) (key msg : GoString) : (hmac a key msg).length = a.size := hash_length ..

/-- Zero bytes at the end of a key that fits in a block make no difference. -/
theorem hmac_zeros (a : HashAlg) (key msg : GoString) (n : Nat) (h : key.length + n ≤ blockSize a) :
    hmac a (key ++ List.replicate n 0) msg = hmac a key msg := by
  have e : hmacKey a (key ++ List.replicate n 0) = hmacKey a key := by
    unfold hmacKey
    dsimp only
    rw [if_neg (by simp; omega), if_neg (by omega), List.append_assoc, List.replicate_append_replicate]
    congr 2
    simp
    omega
  unfold hmac
  rw [e]

/-- A key that does not fit in a block is the same key as its digest. -/
theorem hmac_long_key (a : HashAlg) (key msg : GoString) (h : blockSize a < key.length) :
    hmac a key msg = hmac a (hash a key) msg := by
  have e : hmacKey a (hash a key) = hmacKey a key := by
    unfold hmacKey
    dsimp only
    rw [if_pos h, if_neg (by rw [hash_length]; cases a <;> decide)]
  unfold hmac
  rw [e]

/-! ### Test vectors: FIPS 180-4 (messages of one and two blocks) and RFC 2202 / RFC 4231 -/

example : sha1 (gs! "abc") = natBE 20
    0xa9993e364706816aba3e25717850c26c9cd0d89d := by decide +kernel
example : sha256 (gs! "abc") = natBE 32
    0xba7816bf8f01cfea414140de5dae2223b00361a396177a9cb410ff61f20015ad := by decide +kernel
example : sha512 (gs! "abc") = natBE 64
    0xddaf35a193617abacc417349ae20413112e6fa4e89a97ea20a9eeee64b55d39a2192992a274fc1a836ba3c23a3feebbd454d4423643ce80e2a9ac94fa54ca49f := by decide +kernel
example : sha1 (gs! "abcdbcdecdefdefgefghfghighijhijkijkljklmklmnlmnomnopnopq") = natBE 20
    0x84983e441c3bd26ebaae4aa1f95129e5e54670f1 := by decide +kernel
example : sha256 (gs! "abcdbcdecdefdefgefghfghighijhijkijkljklmklmnlmnomnopnopq") = natBE 32
    0x248d6a61d20638b8e5c026930c3e6039a33ce45964ff2167f6ecedd419db06c1 := by decide +kernel
example : sha512 (gs! "abcdbcdecdefdefgefghfghighijhijkijkljklmklmnlmnomnopnopq") = natBE 64
    0x204a8fc6dda82f0a0ced7beb8e08a41657c16ef468b228a8279be331a703c33596fd15c13b1b07f9aa1d3bea57789ca031ad85c7a71dd70354ec631238ca3445 := by decide +kernel
example : hmac .sha1 (gs! "Jefe") (gs! "what do ya want for nothing?") = natBE 20
    0xeffcdf6ae5eb2fa2d27416d5f184df9c259a7c79 := by decide +kernel
example : hmac .sha256 (gs! "Jefe") (gs! "what do ya want for nothing?") = natBE 32
    0x5bdcc146bf60754e6a042426089575c75a003f089d2739839dec58b964ec3843 := by decide +kernel
example : hmac .sha512 (gs! "Jefe") (gs! "what do ya want for nothing?") = natBE 64
    0x164b7a7bfcf819e2e395fbe73b56e0a387bd64222e831fd610270cd7ea2505549758bf75c05a994a6d034f65f8f0e6fdcaeab1a34d4a6b4b636e070a38bce737 := by decide +kernel
example : hmac .sha256 (List.replicate 131 0xaa) (gs! "Test Using Larger Than Block-Size Key - Hash Key First") = natBE 32
    0x60e431591ee0b67f0d8a26aacbf5b77f8e0bc6213728c5140546040f0ee37f54 := by decide +kernel
example : hmac .sha512 (List.replicate 131 0xaa) (gs! "Test Using Larger Than Block-Size Key - Hash Key First") = natBE 64
    0x80b24263c7c1a3ebb71493c1dd7be8b49b46d1f41b4aeec1121b013783f8f3526b56d037e05f2598bd0fd2215d6a1e5295e64f73f63f0aec8b915a985d786598 := by decide +kernel

/-! ### The constants are the digits that FIPS 180-4 says they are -/

/-- The first 80 primes. -/
def primes : List Nat := (List.range 410).filter fun n => 2 ≤ n && (List.range n).all fun d => d < 2 || n % d != 0

/-- `k` is the first `w` bits of the fractional part of the `e`-th root of `p`, whose integer part is below 8. -/
def IsRootFraction (e w p k : Nat) : Prop :=
  k < 2 ^ w ∧ ∃ q < 8, (q * 2 ^ w + k) ^ e ≤ p * 2 ^ (e * w) ∧ p * 2 ^ (e * w) < (q * 2 ^ w + k + 1) ^ e

instance (e w p k : Nat) : Decidable (IsRootFraction e w p k) := by unfold IsRootFraction; infer_instance

example : primes.length = 80 ∧ k256.length = 64 ∧ k512.length = 80 ∧ init256.length = 8 ∧ init512.length = 8 := by decide +kernel
example : ∀ x ∈ primes.zip k256, IsRootFraction 3 32 x.1 x.2 := by decide +kernel
example : ∀ x ∈ primes.zip k512, IsRootFraction 3 64 x.1 x.2 := by decide +kernel
example : ∀ x ∈ primes.zip init256, IsRootFraction 2 32 x.1 x.2 := by decide +kernel
example : ∀ x ∈ primes.zip init512, IsRootFraction 2 64 x.1 x.2 := by decide +kernel

end GoIdentity.Sha
