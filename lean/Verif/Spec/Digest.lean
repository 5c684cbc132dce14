import Verif.Model.Bytes
import Verif.Model.Ext
import Mathlib.Data.Nat.Digits.Defs
import Mathlib.Analysis.Complex.Trigonometric
/-!
# The digests, after the standards

SHA-1, SHA-256 and SHA-512 as FIPS 180-4 describes them and MD5 as RFC 1321 does, over words of 32 or 64 bits; the constants are
described, not listed.
-/
namespace GoIdentity.Fips

/-- The number a byte string writes, first byte first. -/
def number (l : GoString) : Nat := Nat.ofDigits 256 (l.reverse.map UInt8.toNat)

/-- The number a byte string writes, last byte first. -/
def numberLE (l : GoString) : Nat := Nat.ofDigits 256 (l.map UInt8.toNat)

/-- The bytes of a word, first byte first. -/
def bytesOf {w : Nat} (x : BitVec w) : GoString := (List.range (w / 8)).map fun j => UInt8.ofBitVec (x.extractLsb' (w - 8 * (j + 1)) 8)

/-- The bytes of a word, last byte first. -/
def bytesOfLE {w : Nat} (x : BitVec w) : GoString := (List.range (w / 8)).map fun j => UInt8.ofBitVec (x.extractLsb' (8 * j) 8)

/-- `q` is `m` padded to whole blocks of `block` bytes: a byte with a one bit, as few zero bytes as possible, and `len` bytes
which write the length of `m` in bits (`read` says how). -/
def Padded (read : GoString → Nat) (block len : Nat) (m q : GoString) : Prop :=
  ∃ (zeros : Nat) (size : GoString), q = m ++ 0x80 :: (List.replicate zeros 0 ++ size) ∧ zeros < block ∧ q.length % block = 0 ∧
    size.length = len ∧ read size = 8 * m.length % 256 ^ len

/-- Word `t` of block `i`, with blocks of sixteen words. -/
def wordAt (read : GoString → Nat) (w : Nat) (q : GoString) (i t : Nat) : BitVec w :=
  BitVec.ofNat w (read ((q.drop ((16 * i + t) * (w / 8))).take (w / 8)))

/-- `Ch`, `Maj` and `Parity`. -/
def Ch {w : Nat} (x y z : BitVec w) : BitVec w := (x &&& y) ^^^ (~~~ x &&& z)
def Maj {w : Nat} (x y z : BitVec w) : BitVec w := (x &&& y) ^^^ (x &&& z) ^^^ (y &&& z)
def Parity {w : Nat} (x y z : BitVec w) : BitVec w := x ^^^ y ^^^ z

/-- Three rotations. -/
def Rot3 {w : Nat} (a b c : Nat) (x : BitVec w) : BitVec w := x.rotateRight a ^^^ x.rotateRight b ^^^ x.rotateRight c

/-- Two rotations and a shift. -/
def Rot2 {w : Nat} (a b c : Nat) (x : BitVec w) : BitVec w := x.rotateRight a ^^^ x.rotateRight b ^^^ x >>> c

/-! ## The constants -/

/-- The primes below 410: there are eighty. -/
def primes : List Nat := (List.range 410).filter fun n => decide (2 ≤ n ∧ ∀ d ∈ List.range n, 2 ≤ d → n % d ≠ 0)

/-- `k` is the first `w` bits of the fractional part of the `e`-th root of `n`. -/
def RootFraction (e w n k : Nat) : Prop :=
  k < 2 ^ w ∧ ∃ whole, (whole * 2 ^ w + k) ^ e ≤ n * 2 ^ (e * w) ∧ n * 2 ^ (e * w) < (whole * 2 ^ w + k + 1) ^ e

/-! ## SHA-2 -/

/-- The working variables. -/
structure Vars (w : Nat) where
  a : BitVec w
  b : BitVec w
  c : BitVec w
  d : BitVec w
  e : BitVec w
  f : BitVec w
  g : BitVec w
  h : BitVec w

/-- Addition, one by one. -/
def Vars.add {w : Nat} (x y : Vars w) : Vars w :=
  ⟨x.a + y.a, x.b + y.b, x.c + y.c, x.d + y.d, x.e + y.e, x.f + y.f, x.g + y.g, x.h + y.h⟩

def Vars.bytes {w : Nat} (x : Vars w) : GoString :=
  bytesOf x.a ++ bytesOf x.b ++ bytesOf x.c ++ bytesOf x.d ++ bytesOf x.e ++ bytesOf x.f ++ bytesOf x.g ++ bytesOf x.h

/-- What differs between SHA-256 and SHA-512. -/
structure Kind (w : Nat) where
  S0 : BitVec w → BitVec w
  S1 : BitVec w → BitVec w
  s0 : BitVec w → BitVec w
  s1 : BitVec w → BitVec w
  rounds : Nat
  K : Nat → BitVec w
  H0 : Vars w

/-- The message schedule. -/
def Kind.W {w : Nat} (k : Kind w) (M : Nat → BitVec w) (t : Nat) : BitVec w :=
  if t < 16 then M t
  else k.s1 (k.W M (t - 2)) + k.W M (t - 7) + k.s0 (k.W M (t - 15)) + k.W M (t - 16)
termination_by t

/-- The working variables after `t` rounds. -/
def Kind.after {w : Nat} (k : Kind w) (M : Nat → BitVec w) (H : Vars w) : Nat → Vars w
  | 0 => H
  | t + 1 =>
    let v := k.after M H t
    let T1 := v.h + k.S1 v.e + Ch v.e v.f v.g + k.K t + k.W M t
    let T2 := k.S0 v.a + Maj v.a v.b v.c
    ⟨T1 + T2, v.a, v.b, v.c, v.d + T1, v.e, v.f, v.g⟩

/-- The hash value after `i` blocks. -/
def Kind.H {w : Nat} (k : Kind w) (q : GoString) : Nat → Vars w
  | 0 => k.H0
  | i + 1 => (k.after (wordAt number w q i) (k.H q i) k.rounds).add (k.H q i)

/-- The initial hash value: fractions of the square roots of the first eight primes. -/
def Initial {w : Nat} (H : Vars w) : Prop :=
  ∀ (i : Nat) (v : BitVec w), [H.a, H.b, H.c, H.d, H.e, H.f, H.g, H.h][i]? = some v → ∃ p, primes[i]? = some p ∧ RootFraction 2 w p v.toNat

/-- The round constants: fractions of the cube roots of the first `n` primes. -/
def Constants {w : Nat} (n : Nat) (K : Nat → BitVec w) : Prop :=
  ∀ i < n, ∃ p, primes[i]? = some p ∧ RootFraction 3 w p (K i).toNat

/-- `d` is the SHA-256 digest of `m`. -/
def IsSha256 (m d : GoString) : Prop :=
  ∃ (q : GoString) (K : Nat → BitVec 32) (H0 : Vars 32), Padded number 64 8 m q ∧ Constants 64 K ∧ Initial H0 ∧
    d = (Kind.H ⟨Rot3 2 13 22, Rot3 6 11 25, Rot2 7 18 3, Rot2 17 19 10, 64, K, H0⟩ q (q.length / 64)).bytes

/-- `d` is the SHA-512 digest of `m`. -/
def IsSha512 (m d : GoString) : Prop :=
  ∃ (q : GoString) (K : Nat → BitVec 64) (H0 : Vars 64), Padded number 128 16 m q ∧ Constants 80 K ∧ Initial H0 ∧
    d = (Kind.H ⟨Rot3 28 34 39, Rot3 14 18 41, Rot2 1 8 7, Rot2 19 61 6, 80, K, H0⟩ q (q.length / 128)).bytes

/-! ## SHA-1 -/

structure Vars5 where
  a : BitVec 32
  b : BitVec 32
  c : BitVec 32
  d : BitVec 32
  e : BitVec 32

def sha1W (M : Nat → BitVec 32) (t : Nat) : BitVec 32 :=
  if t < 16 then M t
  else (sha1W M (t - 3) ^^^ sha1W M (t - 8) ^^^ sha1W M (t - 14) ^^^ sha1W M (t - 16)).rotateLeft 1
termination_by t

/-- The function of round `t`. -/
def sha1f (t : Nat) (x y z : BitVec 32) : BitVec 32 :=
  if t ≤ 19 then Ch x y z else if t ≤ 39 then Parity x y z else if t ≤ 59 then Maj x y z else Parity x y z

/-- The constant of round `t` is the whole part of `2 ^ 30` times the square root of 2, 3, 5 or 10. -/
def Sha1Constants (K : Nat → BitVec 32) : Prop :=
  ∀ t < 80, ∃ n, [2, 3, 5, 10][t / 20]? = some n ∧ (K t).toNat ^ 2 ≤ n * 2 ^ 60 ∧ n * 2 ^ 60 < ((K t).toNat + 1) ^ 2

def sha1After (K : Nat → BitVec 32) (M : Nat → BitVec 32) (H : Vars5) : Nat → Vars5
  | 0 => H
  | t + 1 =>
    let v := sha1After K M H t
    ⟨v.a.rotateLeft 5 + sha1f t v.b v.c v.d + v.e + K t + sha1W M t, v.a, v.b.rotateLeft 30, v.c, v.d⟩

def sha1H (K : Nat → BitVec 32) (q : GoString) : Nat → Vars5
  | 0 => ⟨0x67452301, 0xefcdab89, 0x98badcfe, 0x10325476, 0xc3d2e1f0⟩
  | i + 1 =>
    let H := sha1H K q i
    let v := sha1After K (wordAt number 32 q i) H 80
    ⟨v.a + H.a, v.b + H.b, v.c + H.c, v.d + H.d, v.e + H.e⟩

/-- `d` is the SHA-1 digest of `m`. -/
def IsSha1 (m d : GoString) : Prop :=
  ∃ (q : GoString) (K : Nat → BitVec 32), Padded number 64 8 m q ∧ Sha1Constants K ∧
    let H := sha1H K q (q.length / 64)
    d = bytesOf H.a ++ bytesOf H.b ++ bytesOf H.c ++ bytesOf H.d ++ bytesOf H.e

/-! ## MD5 -/

structure Vars4 where
  a : BitVec 32
  b : BitVec 32
  c : BitVec 32
  d : BitVec 32

/-- The auxiliary functions. -/
def F (x y z : BitVec 32) : BitVec 32 := (x &&& y) ||| (~~~ x &&& z)
def G (x y z : BitVec 32) : BitVec 32 := (x &&& z) ||| (y &&& ~~~ z)
def I (x y z : BitVec 32) : BitVec 32 := y ^^^ (x ||| ~~~ z)

/-- The function, the word and the rotation of step `t`, as the four tables of the RFC list them. -/
def md5Step (t : Nat) : (BitVec 32 → BitVec 32 → BitVec 32 → BitVec 32) × Nat × Nat :=
  match t / 16 with
  | 0 => (F, [0, 1, 2, 3, 4, 5, 6, 7, 8, 9, 10, 11, 12, 13, 14, 15].getD (t % 16) 0, [7, 12, 17, 22].getD (t % 4) 0)
  | 1 => (G, [1, 6, 11, 0, 5, 10, 15, 4, 9, 14, 3, 8, 13, 2, 7, 12].getD (t % 16) 0, [5, 9, 14, 20].getD (t % 4) 0)
  | 2 => (Parity, [5, 8, 11, 14, 1, 4, 7, 10, 13, 0, 3, 6, 9, 12, 15, 2].getD (t % 16) 0, [4, 11, 16, 23].getD (t % 4) 0)
  | _ => (I, [0, 7, 14, 5, 12, 3, 10, 1, 8, 15, 6, 13, 4, 11, 2, 9].getD (t % 16) 0, [6, 10, 15, 21].getD (t % 4) 0)

def md5After (T : Nat → BitVec 32) (X : Nat → BitVec 32) (H : Vars4) : Nat → Vars4
  | 0 => H
  | t + 1 =>
    let v := md5After T X H t
    let (f, k, s) := md5Step t
    ⟨v.d, v.b + (v.a + f v.b v.c v.d + X k + T t).rotateLeft s, v.b, v.c⟩

def md5H (T : Nat → BitVec 32) (q : GoString) : Nat → Vars4
  | 0 => ⟨0x67452301, 0xefcdab89, 0x98badcfe, 0x10325476⟩
  | i + 1 =>
    let H := md5H T q i
    let v := md5After T (wordAt numberLE 32 q i) H 64
    ⟨H.a + v.a, H.b + v.b, H.c + v.c, H.d + v.d⟩

/-- `d` is the MD5 digest of `m`, with the given table of constants. -/
def IsMd5With (T : Nat → BitVec 32) (m d : GoString) : Prop :=
  ∃ q : GoString, Padded numberLE 64 8 m q ∧
    let H := md5H T q (q.length / 64)
    d = bytesOfLE H.a ++ bytesOfLE H.b ++ bytesOfLE H.c ++ bytesOfLE H.d

/-- The constants of MD5: the whole part of `2 ^ 32` times the sine of 1, 2, …, 64 (in radians), without its sign. -/
def SineTable (T : Nat → BitVec 32) : Prop :=
  ∀ t < 64, ((T t).toNat : ℝ) ≤ 2 ^ 32 * |Real.sin ((t + 1 : Nat) : ℝ)| ∧ 2 ^ 32 * |Real.sin ((t + 1 : Nat) : ℝ)| < (T t).toNat + 1

/-- `d` is the MD5 digest of `m`. -/
def IsMd5 (m d : GoString) : Prop := ∃ T : Nat → BitVec 32, SineTable T ∧ IsMd5With T m d

/-! ## HMAC (RFC 2104) -/

/-- `d` is the HMAC of `m` under `key`, for a hash with blocks of `block` bytes. -/
def IsHmac (Hash : GoString → GoString → Prop) (block : Nat) (key m d : GoString) : Prop :=
  ∃ short padded inner : GoString, (key.length ≤ block → short = key) ∧ (block < key.length → Hash key short) ∧
    padded = short ++ List.replicate (block - short.length) 0 ∧
    Hash (padded.map (fun b => b ^^^ 0x36) ++ m) inner ∧ Hash (padded.map (fun b => b ^^^ 0x5c) ++ inner) d

/-- `d` is the digest of `m`. -/
def IsHash : HashAlg → GoString → GoString → Prop
  | .sha1 => IsSha1
  | .sha256 => IsSha256
  | .sha512 => IsSha512

end GoIdentity.Fips
