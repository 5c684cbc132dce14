import Verif.Model.Sha
/-!
# MD5

The digest behind `ssh.FingerprintLegacyMD5` (public_key.go:165,268), after RFC 1321.  Words are natural numbers below `2 ^ 32`.
-/
namespace GoIdentity.Md5
open Sha (add rotr)

/-- The little-endian number in a byte string. -/
def leNat : GoString → Nat
  | [] => 0
  | b :: t => b.toNat + 256 * leNat t

/-- The first `k` bytes of a number, little-endian. -/
def natLE : Nat → Nat → GoString
  | 0, _ => []
  | k + 1, n => UInt8.ofNat n :: natLE k (n / 256)

/-- The first `n` words of four bytes. -/
def wordsLE : Nat → GoString → List Nat
  | 0, _ => []
  | n + 1, l => leNat (l.take 4) :: wordsLE n (l.drop 4)

/-- Padding to whole blocks (RFC 1321, 3.1 and 3.2). -/
def pad (m : GoString) : GoString :=
  m ++ [0x80] ++ List.replicate ((64 - (m.length + 9) % 64) % 64) 0 ++ natLE 8 (8 * m.length)

/-- The integer part of `4294967296 * abs(sin(i))` for `i` from 1 to 64. -/
def table : List Nat :=
  [0xd76aa478, 0xe8c7b756, 0x242070db, 0xc1bdceee, 0xf57c0faf, 0x4787c62a, 0xa8304613, 0xfd469501, 0x698098d8, 0x8b44f7af,
   0xffff5bb1, 0x895cd7be, 0x6b901122, 0xfd987193, 0xa679438e, 0x49b40821, 0xf61e2562, 0xc040b340, 0x265e5a51, 0xe9b6c7aa,
   0xd62f105d, 0x02441453, 0xd8a1e681, 0xe7d3fbc8, 0x21e1cde6, 0xc33707d6, 0xf4d50d87, 0x455a14ed, 0xa9e3e905, 0xfcefa3f8,
   0x676f02d9, 0x8d2a4c8a, 0xfffa3942, 0x8771f681, 0x6d9d6122, 0xfde5380c, 0xa4beea44, 0x4bdecfa9, 0xf6bb4b60, 0xbebfbc70,
   0x289b7ec6, 0xeaa127fa, 0xd4ef3085, 0x04881d05, 0xd9d4d039, 0xe6db99e5, 0x1fa27cf8, 0xc4ac5665, 0xf4292244, 0x432aff97,
   0xab9423a7, 0xfc93a039, 0x655b59c3, 0x8f0ccc92, 0xffeff47d, 0x85845dd1, 0x6fa87e4f, 0xfe2ce6e0, 0xa3014314, 0x4e0811a1,
   0xf7537e82, 0xbd3af235, 0x2ad7d2bb, 0xeb86d391]

/-- The function, the index of the word and the rotation to the left of step `i` (RFC 1321, 3.4). -/
def stepF (i b c d : Nat) : Nat × Nat × Nat :=
  if i < 16 then ((b &&& c) ||| (Sha.not 32 b &&& d), i, [7, 12, 17, 22].getD (i % 4) 0)
  else if i < 32 then ((b &&& d) ||| (c &&& Sha.not 32 d), (5 * i + 1) % 16, [5, 9, 14, 20].getD (i % 4) 0)
  else if i < 48 then (b ^^^ c ^^^ d, (3 * i + 5) % 16, [4, 11, 16, 23].getD (i % 4) 0)
  else (c ^^^ (b ||| Sha.not 32 d), 7 * i % 16, [6, 10, 15, 21].getD (i % 4) 0)

/-- The steps from `i` on, one for each constant. -/
def steps (x : List Nat) : Nat → List Nat → List Nat → List Nat
  | i, t :: ts, [a, b, c, d] =>
    let (f, k, s) := stepF i b c d
    steps x (i + 1) ts [d, add 32 b (rotr 32 (32 - s) (add 32 (add 32 (add 32 a f) (x.getD k 0)) t)), b, c]
  | _, _, s => s

/-- One block. -/
def block (s : List Nat) (b : GoString) : List Nat := List.zipWith (add 32) s (steps (wordsLE 16 b) 0 table s)

/-- MD5. -/
def md5 (m : GoString) : GoString :=
  let p := pad m
  (Sha.overBlocks block 64 (p.length / 64) [0x67452301, 0xefcdab89, 0x98badcfe, 0x10325476] p).flatMap (natLE 4)

end GoIdentity.Md5
