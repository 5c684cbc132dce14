import Verif.Model.Ext
/-!
# SHA-1, SHA-2 and HMAC

The library functions behind mfa_token.go:478-497 (`hmac.New(sha1.New, …)` and so on) and mfa_token.go:416-418 (`sha256.Sum256`),
after FIPS 180-4 and RFC 2104.  Words are natural numbers below a power of two.
-/
namespace GoIdentity.Sha

/-- Addition of words of `w` bits. -/
def add (w a b : Nat) : Nat := (a + b) % 2 ^ w

/-- Rotation to the right of a word of `w` bits. -/
def rotr (w n x : Nat) : Nat := (x >>> n) ||| ((x <<< (w - n)) % 2 ^ w)

/-- Complement of a word of `w` bits. -/
def not (w x : Nat) : Nat := x ^^^ (2 ^ w - 1)

/-- The big-endian number in a byte string. -/
def beNat (l : GoString) : Nat := l.foldl (fun a b => a * 256 + b.toNat) 0

/-- The last `k` bytes of a number, big-endian. -/
def natBE : Nat → Nat → GoString
  | 0, _ => []
  | k + 1, n => UInt8.ofNat (n / 256 ^ k) :: natBE k n

/-- The first `n` words of `k` bytes. -/
def wordsBE (k : Nat) : Nat → GoString → List Nat
  | 0, _ => []
  | n + 1, l => beNat (l.take k) :: wordsBE k n (l.drop k)

/-- Padding to whole blocks (FIPS 180-4, 5.1): a one bit, zero bits and the length in bits, written in `len` bytes. -/
def pad (block len : Nat) (m : GoString) : GoString :=
  m ++ [0x80] ++ List.replicate ((block - (m.length + 1 + len) % block) % block) 0 ++ natBE len (8 * m.length)

/-- Run a compression function over `n` blocks. -/
def overBlocks (f : List Nat → GoString → List Nat) (block : Nat) : Nat → List Nat → GoString → List Nat
  | 0, s, _ => s
  | n + 1, s, l => overBlocks f block n (f s (l.take block)) (l.drop block)

/-- The message schedule, last word first, extended `n` times with `next`. -/
def schedule (next : List Nat → Nat) : Nat → List Nat → List Nat
  | 0, ws => ws
  | n + 1, ws => schedule next n (next ws :: ws)

/-! ## SHA-1 (FIPS 180-4, 4.1.1, 4.2.1, 5.3.1, 6.1.2) -/

/-- The function and the constant of round `t`. -/
def sha1F (t b c d : Nat) : Nat × Nat :=
  if t < 20 then ((b &&& c) ^^^ (not 32 b &&& d), 0x5a827999)
  else if t < 40 then (b ^^^ c ^^^ d, 0x6ed9eba1)
  else if t < 60 then ((b &&& c) ^^^ (b &&& d) ^^^ (c &&& d), 0x8f1bbcdc)
  else (b ^^^ c ^^^ d, 0xca62c1d6)

/-- The next word of the schedule. -/
def sha1Next (ws : List Nat) : Nat :=
  rotr 32 31 (ws.getD 2 0 ^^^ ws.getD 7 0 ^^^ ws.getD 13 0 ^^^ ws.getD 15 0)

/-- The rounds from `t` on. -/
def sha1Rounds : Nat → List Nat → List Nat → List Nat
  | t, w :: ws, [a, b, c, d, e] =>
    let (f, k) := sha1F t b c d
    sha1Rounds (t + 1) ws [add 32 (add 32 (add 32 (add 32 (rotr 32 27 a) f) e) k) w, a, rotr 32 2 b, c, d]
  | _, _, s => s

/-- One block. -/
def sha1Block (s : List Nat) (b : GoString) : List Nat :=
  List.zipWith (add 32) s (sha1Rounds 0 (schedule sha1Next 64 (wordsBE 4 16 b).reverse).reverse s)

/-- SHA-1. -/
def sha1 (m : GoString) : GoString :=
  let p := pad 64 8 m
  (overBlocks sha1Block 64 (p.length / 64) [0x67452301, 0xefcdab89, 0x98badcfe, 0x10325476, 0xc3d2e1f0] p).flatMap (natBE 4)

/-! ## SHA-2 (FIPS 180-4, 4.1.2, 4.1.3, 4.2.2, 4.2.3, 5.3.3, 5.3.5, 6.2.2, 6.4.2) -/

/-- What distinguishes SHA-256 from SHA-512: word size, rotation amounts, constants and initial value. -/
structure Sha2 where
  w : Nat
  /-- Σ0, Σ1: three rotations each; σ0, σ1: two rotations and a shift each -/
  S0 : Nat × Nat × Nat
  S1 : Nat × Nat × Nat
  s0 : Nat × Nat × Nat
  s1 : Nat × Nat × Nat
  k : List Nat
  init : List Nat

/-- First 32 bits of the fractional parts of the cube roots of the first 64 primes. -/
def k256 : List Nat :=
  [0x428a2f98, 0x71374491, 0xb5c0fbcf, 0xe9b5dba5, 0x3956c25b, 0x59f111f1, 0x923f82a4, 0xab1c5ed5, 0xd807aa98, 0x12835b01,
   0x243185be, 0x550c7dc3, 0x72be5d74, 0x80deb1fe, 0x9bdc06a7, 0xc19bf174, 0xe49b69c1, 0xefbe4786, 0x0fc19dc6, 0x240ca1cc,
   0x2de92c6f, 0x4a7484aa, 0x5cb0a9dc, 0x76f988da, 0x983e5152, 0xa831c66d, 0xb00327c8, 0xbf597fc7, 0xc6e00bf3, 0xd5a79147,
   0x06ca6351, 0x14292967, 0x27b70a85, 0x2e1b2138, 0x4d2c6dfc, 0x53380d13, 0x650a7354, 0x766a0abb, 0x81c2c92e, 0x92722c85,
   0xa2bfe8a1, 0xa81a664b, 0xc24b8b70, 0xc76c51a3, 0xd192e819, 0xd6990624, 0xf40e3585, 0x106aa070, 0x19a4c116, 0x1e376c08,
   0x2748774c, 0x34b0bcb5, 0x391c0cb3, 0x4ed8aa4a, 0x5b9cca4f, 0x682e6ff3, 0x748f82ee, 0x78a5636f, 0x84c87814, 0x8cc70208,
   0x90befffa, 0xa4506ceb, 0xbef9a3f7, 0xc67178f2]

/-- First 64 bits of the fractional parts of the cube roots of the first 80 primes. -/
def k512 : List Nat :=
  [0x428a2f98d728ae22, 0x7137449123ef65cd, 0xb5c0fbcfec4d3b2f, 0xe9b5dba58189dbbc, 0x3956c25bf348b538, 0x59f111f1b605d019,
   0x923f82a4af194f9b, 0xab1c5ed5da6d8118, 0xd807aa98a3030242, 0x12835b0145706fbe, 0x243185be4ee4b28c, 0x550c7dc3d5ffb4e2,
   0x72be5d74f27b896f, 0x80deb1fe3b1696b1, 0x9bdc06a725c71235, 0xc19bf174cf692694, 0xe49b69c19ef14ad2, 0xefbe4786384f25e3,
   0x0fc19dc68b8cd5b5, 0x240ca1cc77ac9c65, 0x2de92c6f592b0275, 0x4a7484aa6ea6e483, 0x5cb0a9dcbd41fbd4, 0x76f988da831153b5,
   0x983e5152ee66dfab, 0xa831c66d2db43210, 0xb00327c898fb213f, 0xbf597fc7beef0ee4, 0xc6e00bf33da88fc2, 0xd5a79147930aa725,
   0x06ca6351e003826f, 0x142929670a0e6e70, 0x27b70a8546d22ffc, 0x2e1b21385c26c926, 0x4d2c6dfc5ac42aed, 0x53380d139d95b3df,
   0x650a73548baf63de, 0x766a0abb3c77b2a8, 0x81c2c92e47edaee6, 0x92722c851482353b, 0xa2bfe8a14cf10364, 0xa81a664bbc423001,
   0xc24b8b70d0f89791, 0xc76c51a30654be30, 0xd192e819d6ef5218, 0xd69906245565a910, 0xf40e35855771202a, 0x106aa07032bbd1b8,
   0x19a4c116b8d2d0c8, 0x1e376c085141ab53, 0x2748774cdf8eeb99, 0x34b0bcb5e19b48a8, 0x391c0cb3c5c95a63, 0x4ed8aa4ae3418acb,
   0x5b9cca4f7763e373, 0x682e6ff3d6b2b8a3, 0x748f82ee5defb2fc, 0x78a5636f43172f60, 0x84c87814a1f0ab72, 0x8cc702081a6439ec,
   0x90befffa23631e28, 0xa4506cebde82bde9, 0xbef9a3f7b2c67915, 0xc67178f2e372532b, 0xca273eceea26619c, 0xd186b8c721c0c207,
   0xeada7dd6cde0eb1e, 0xf57d4f7fee6ed178, 0x06f067aa72176fba, 0x0a637dc5a2c898a6, 0x113f9804bef90dae, 0x1b710b35131c471b,
   0x28db77f523047d84, 0x32caab7b40c72493, 0x3c9ebe0a15c9bebc, 0x431d67c49c100d4c, 0x4cc5d4becb3e42b6, 0x597f299cfc657e2a,
   0x5fcb6fab3ad6faec, 0x6c44198c4a475817]

/-- First 32 bits of the fractional parts of the square roots of the first 8 primes. -/
def init256 : List Nat :=
  [0x6a09e667, 0xbb67ae85, 0x3c6ef372, 0xa54ff53a, 0x510e527f, 0x9b05688c, 0x1f83d9ab, 0x5be0cd19]

/-- First 64 bits of the fractional parts of the square roots of the first 8 primes. -/
def init512 : List Nat :=
  [0x6a09e667f3bcc908, 0xbb67ae8584caa73b, 0x3c6ef372fe94f82b, 0xa54ff53a5f1d36f1, 0x510e527fade682d1, 0x9b05688c2b3e6c1f,
   0x1f83d9abfb41bd6b, 0x5be0cd19137e2179]

def p256 : Sha2 := ⟨32, (2, 13, 22), (6, 11, 25), (7, 18, 3), (17, 19, 10), k256, init256⟩
def p512 : Sha2 := ⟨64, (28, 34, 39), (14, 18, 41), (1, 8, 7), (19, 61, 6), k512, init512⟩

/-- Σ: three rotations. -/
def bigSigma (w : Nat) (r : Nat × Nat × Nat) (x : Nat) : Nat := rotr w r.1 x ^^^ rotr w r.2.1 x ^^^ rotr w r.2.2 x

/-- σ: two rotations and a shift. -/
def smallSigma (w : Nat) (r : Nat × Nat × Nat) (x : Nat) : Nat := rotr w r.1 x ^^^ rotr w r.2.1 x ^^^ (x >>> r.2.2)

/-- The next word of the schedule. -/
def sha2Next (p : Sha2) (ws : List Nat) : Nat :=
  add p.w (add p.w (smallSigma p.w p.s1 (ws.getD 1 0)) (ws.getD 6 0))
    (add p.w (smallSigma p.w p.s0 (ws.getD 14 0)) (ws.getD 15 0))

/-- The rounds, one for each word and constant. -/
def sha2Rounds (p : Sha2) : List Nat → List Nat → List Nat → List Nat
  | k :: ks, w :: ws, [a, b, c, d, e, f, g, h] =>
    let t1 := add p.w (add p.w (add p.w (add p.w h (bigSigma p.w p.S1 e)) ((e &&& f) ^^^ (not p.w e &&& g))) k) w
    let t2 := add p.w (bigSigma p.w p.S0 a) ((a &&& b) ^^^ (a &&& c) ^^^ (b &&& c))
    sha2Rounds p ks ws [add p.w t1 t2, a, b, c, add p.w d t1, e, f, g]
  | _, _, s => s

/-- One block. -/
def sha2Block (p : Sha2) (s : List Nat) (b : GoString) : List Nat :=
  List.zipWith (add p.w) s
    (sha2Rounds p p.k (schedule (sha2Next p) (p.k.length - 16) (wordsBE (p.w / 8) 16 b).reverse).reverse s)

/-- SHA-2 with words of `p.w` bits: blocks of 16 words, the length in two words. -/
def sha2 (p : Sha2) (m : GoString) : GoString :=
  let q := pad (2 * p.w) (p.w / 4) m
  (overBlocks (sha2Block p) (2 * p.w) (q.length / (2 * p.w)) p.init q).flatMap (natBE (p.w / 8))

def sha256 (m : GoString) : GoString := sha2 p256 m
def sha512 (m : GoString) : GoString := sha2 p512 m

/-! ## HMAC (RFC 2104) -/

/-- The block size of a hash function in bytes. -/
def blockSize : HashAlg → Nat
  | .sha1 => 64
  | .sha256 => 64
  | .sha512 => 128

/-- The hash functions. -/
def hash : HashAlg → GoString → GoString
  | .sha1 => sha1
  | .sha256 => sha256
  | .sha512 => sha512

/-- The key as used: hashed if it is longer than a block, then filled up with zeros. -/
def hmacKey (a : HashAlg) (key : GoString) : GoString :=
  let k := if key.length > blockSize a then hash a key else key
  k ++ List.replicate (blockSize a - k.length) 0

/-- `hmac.New(h, key)`, `Write(msg)`, `Sum(nil)`. -/
def hmac (a : HashAlg) (key msg : GoString) : GoString :=
  let k := hmacKey a key
  hash a (k.map (· ^^^ 0x5c) ++ hash a (k.map (· ^^^ 0x36) ++ msg))

end GoIdentity.Sha
