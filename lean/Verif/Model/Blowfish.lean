import Verif.Model.Bcrypt
/-!
# The computation inside bcrypt

`golang.org/x/crypto/blowfish` and the functions `bcrypt` and `expensiveBlowfishSetup` of `golang.org/x/crypto/bcrypt` (called in
password.go:82,96 and api_key.go:106).  Written from the published algorithm; compared with another implementation (DESIGN.md §3).
The rest of the model leaves this computation open (`Ext.bcryptRaw`).
-/
namespace GoIdentity.Blowfish

/-- Fixed-point arctangent of `1/n`: `sum` of the terms `term / k` with alternating signs. -/
def arctanLoop (sq : Nat) : (fuel k : Nat) → (plus : Bool) → (term : Nat) → (sum : Int) → Int
  | 0, _, _, _, sum => sum
  | fuel + 1, k, plus, term, sum =>
    arctanLoop sq fuel (k + 2) (!plus) (term / sq) (if plus then sum + term / k else sum - term / k)

/-- The number of bits after the point: 1042 words and 64 more. -/
def piBits : Nat := 32 * 1042 + 64

/-- The number π with `piBits` bits after the point, by Machin's formula. -/
def piFixed : Nat :=
  (16 * arctanLoop 25 7300 1 true (2 ^ piBits / 5) 0 - 4 * arctanLoop (239 * 239) 2200 1 true (2 ^ piBits / 239) 0).toNat

/-- The 18 words `p` and the four tables `s0`, ..., `s3` of 256 words, one after another: the bits of π after the point. -/
def start : Array UInt32 :=
  (List.range 1042).toArray.map fun i => UInt32.ofNat (piFixed >>> (piBits - 32 * (i + 1)))

/-- `Cipher`: the words `p`, `s0`, `s1`, `s2`, `s3`. -/
abbrev Cipher := Array UInt32

/-- The word at an index. -/
def Cipher.at (c : Cipher) (i : Nat) : UInt32 := Array.getD c i 0

/-- The function of a round: the four bytes of the word select from the four tables. -/
def Cipher.mix (c : Cipher) (x : UInt32) : UInt32 :=
  ((c.at (18 + (x >>> 24).toNat) + c.at (274 + (x >>> 16 &&& 255).toNat)) ^^^ c.at (530 + (x >>> 8 &&& 255).toNat)) +
    c.at (786 + (x &&& 255).toNat)

/-- `encryptBlock`: sixteen rounds, each of which changes one half by the other. -/
def encryptBlock (c : Cipher) (l r : UInt32) : UInt32 × UInt32 :=
  let x := (List.range 16).foldl (fun x i => (x.2 ^^^ (c.mix x.1 ^^^ c.at (i + 1)), x.1)) (l ^^^ c.at 0, r)
  (x.2 ^^^ c.at 17, x.1)

/-- The next byte, cyclically, and the position after it. -/
def nextByte (b : GoString) (j : Nat) : UInt8 × Nat := (b.getD j 0, if b.length ≤ j + 1 then 0 else j + 1)

/-- `getNextWord`: four bytes, the first one highest. -/
def nextWord (b : GoString) (j : Nat) : UInt32 × Nat :=
  (List.range 4).foldl (fun x _ => (x.1 <<< 8 ||| (nextByte b x.2).1.toUInt32, (nextByte b x.2).2)) (0, j)

/-- The first loop of `ExpandKey` and `expandKeyWithSalt`: the key is added to the words `p`. -/
def addKey (key : GoString) (c : Cipher) : Cipher :=
  ((List.range 18).foldl (fun (x : Cipher × Nat) i => (x.1.setIfInBounds i (Cipher.at x.1 i ^^^ (nextWord key x.2).1), (nextWord key x.2).2)) (c, 0)).1

/-- The other loops of `ExpandKey`: all words are replaced, two at a time, by encrypting on. -/
def refill (c : Cipher) : Cipher :=
  ((List.range 521).foldl (fun (x : Cipher × UInt32 × UInt32) n =>
    let y := encryptBlock x.1 x.2.1 x.2.2
    ((x.1.setIfInBounds (2 * n) y.1).setIfInBounds (2 * n + 1) y.2, y)) (c, 0, 0)).1

/-- The other loops of `expandKeyWithSalt`: the salt is added before each encryption. -/
def refillSalted (salt : GoString) (c : Cipher) : Cipher :=
  ((List.range 521).foldl (fun (x : Cipher × (UInt32 × UInt32) × Nat) n =>
    let a := nextWord salt x.2.2
    let b := nextWord salt a.2
    let y := encryptBlock x.1 (x.2.1.1 ^^^ a.1) (x.2.1.2 ^^^ b.1)
    ((x.1.setIfInBounds (2 * n) y.1).setIfInBounds (2 * n + 1) y.2, y, b.2)) (c, (0, 0), 0)).1

/-- `ExpandKey`. -/
def expandKey (key : GoString) (c : Cipher) : Cipher := refill (addKey key c)

/-- Apply a function a number of times. -/
def repeated {α : Type} (f : α → α) : Nat → α → α
  | 0, x => x
  | n + 1, x => repeated f n (f x)

/-- `expensiveBlowfishSetup`, for a key with its trailing NUL and a decoded salt. -/
def setup (cost : Nat) (salt key : GoString) : Cipher :=
  repeated (fun c => expandKey salt (expandKey key c)) (2 ^ cost) (refillSalted salt (addKey key start))

/-- The four bytes of a word, the highest first. -/
def wordBytes (w : UInt32) : GoString := [(w >>> 24).toUInt8, (w >>> 16).toUInt8, (w >>> 8).toUInt8, w.toUInt8]

/-- `Cipher.Encrypt`, 64 times, of one block of `magicCipherData`. -/
def magicBlock (c : Cipher) (b : UInt32 × UInt32) : GoString :=
  let y := repeated (fun x => encryptBlock c x.1 x.2) 64 b
  wordBytes y.1 ++ wordBytes y.2

/-- `magicCipherData`, "OrpheanBeholderScryDoubt", as three blocks. -/
def magic : List (UInt32 × UInt32) := [(0x4F727068, 0x65616E42), (0x65686F6C, 0x64657253), (0x63727944, 0x6F756274)]

/-- `bcrypt` up to the encoding: 24 bytes, for a key with its trailing NUL. -/
def raw (cost : Nat) (salt key : GoString) : GoString := magic.flatMap (magicBlock (setup cost salt key))

/-- `bcrypt` of a password. -/
def ofPassword (cost : Nat) (salt pw : GoString) : GoString := raw cost salt (pw ++ [0])

end GoIdentity.Blowfish
