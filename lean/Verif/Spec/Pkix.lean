import Verif.Spec.PemKeys
/-!
# Public keys of other algorithms than RSA

RFC 3279 §2.3.2 and §2.3.5, RFC 8410 and FIPS 186-4 D.1.2 for the X.509 form, RFC 4253 §6.6, RFC 5656 §3.1 and RFC 8709 §4 for the
form of SSH; written without the functions of the model.
-/
namespace GoIdentity

/-- A `SubjectPublicKeyInfo`: the algorithm, what follows it in its identifier, and the bytes of the key.  Bytes may follow inside
the outer sequence. -/
def IsSpki (raw oid params key : GoString) : Prop :=
  ∃ alg o bits bc t, IsElement 0x30 raw (alg ++ bits ++ t) ∧ IsElement 0x30 alg (o ++ params) ∧ IsElement 0x06 o oid ∧
    IsElement 0x03 bits bc ∧ AlignedBits bc key

/-- An INTEGER. -/
def IsInteger (raw : GoString) (v : Int) : Prop := ∃ c, IsElement 0x02 raw c ∧ DerInteger c v

/-- RFC 4251 `mpint`: a string with the number in as few bytes as possible. -/
def IsMpint (raw : GoString) (v : Int) : Prop :=
  ∃ c, IsString raw c ∧ signedBE c = v ∧ ∀ c' : GoString, signedBE c' = v → c.length ≤ c'.length

/-- The curve `y² = x³ - 3 x + b` over the integers modulo `p`, with its object identifier and its name in SSH; coordinates take
`size` bytes. -/
structure CurveData where
  oid : GoString
  name : GoString
  size : Nat
  p : Int
  b : Int

/-- FIPS 186-4 D.1.2.3 to D.1.2.5. -/
def sshCurves : List CurveData :=
  [⟨[0x2a, 0x86, 0x48, 0xce, 0x3d, 0x03, 0x01, 0x07], gs! "nistp256", 32, 2 ^ 256 - 2 ^ 224 + 2 ^ 192 + 2 ^ 96 - 1,
      0x5ac635d8aa3a93e7b3ebbd55769886bc651d06b0cc53b0f63bce3c3e27d2604b⟩,
   ⟨[0x2b, 0x81, 0x04, 0x00, 0x22], gs! "nistp384", 48, 2 ^ 384 - 2 ^ 128 - 2 ^ 96 + 2 ^ 32 - 1,
      0xb3312fa7e23ee7e4988e056be3f82d19181d9c6efe8141120314088f5013875ac656398d8a2ed19d2a85c8edd3ec2aef⟩,
   ⟨[0x2b, 0x81, 0x04, 0x00, 0x23], gs! "nistp521", 66, 2 ^ 521 - 1,
      0x51953eb9618e1c9a1f929a21a0b68540eea2da725b99b315f3b8b489918ef109e156193951ec7e937b1652c0bd3bb1bf073573df883d2c34f1ef451fd46b503f00⟩]

/-- FIPS 186-4 D.1.2.2: the curve P-224, which SSH has no name for. -/
def p224 : CurveData :=
  ⟨[0x2b, 0x81, 0x04, 0x00, 0x21], [], 28, 2 ^ 224 - 2 ^ 96 + 1, 0xb4050a850c04b3abf54132565044b0b7d7bfd8ba270b39432355ffb4⟩

/-- The uncompressed form of a point of the curve. -/
def CurveData.IsPoint (c : CurveData) (key : GoString) : Prop :=
  ∃ xb yb, key = 4 :: xb ++ yb ∧ xb.length = c.size ∧ yb.length = c.size ∧
    (unsignedBE xb : Int) < c.p ∧ (unsignedBE yb : Int) < c.p ∧
    c.p ∣ (unsignedBE yb : Int) ^ 2 - ((unsignedBE xb : Int) ^ 3 - 3 * unsignedBE xb + c.b)

/-- An Ed25519 key: 32 bytes and no parameters. -/
def EdSpki (raw key : GoString) : Prop := IsSpki raw [0x2b, 0x65, 0x70] [] key ∧ key.length = 32

/-- An ECDSA key: a point on the named curve; anything may follow the name in the parameters. -/
def EcSpki (raw : GoString) (c : CurveData) (key : GoString) : Prop :=
  ∃ o t, IsSpki raw [0x2a, 0x86, 0x48, 0xce, 0x3d, 0x02, 0x01] (o ++ t) key ∧ IsElement 0x06 o c.oid ∧ c.IsPoint key

/-- A DSA key: four positive numbers. -/
def DsaSpki (raw : GoString) (p q g y : Int) : Prop :=
  ∃ key seq pi qi gi t1 t2, IsSpki raw [0x2a, 0x86, 0x48, 0xce, 0x38, 0x04, 0x01] (seq ++ t1) key ∧
    IsElement 0x30 seq (pi ++ qi ++ gi ++ t2) ∧ IsInteger pi p ∧ IsInteger qi q ∧ IsInteger gi g ∧ IsInteger key y ∧
    0 < p ∧ 0 < q ∧ 0 < g ∧ 0 < y

/-- The X.509 form `raw` and the SSH form `blob` of one key, which is of the given type. -/
inductive OtherKey : (raw type blob : GoString) → Prop
  | ed25519 {raw key a b : GoString} (h : EdSpki raw key) (ha : IsString a (gs! "ssh-ed25519")) (hb : IsString b key) :
      OtherKey raw (gs! "ssh-ed25519") (a ++ b)
  | ecdsa {raw key a b d : GoString} {c : CurveData} (hc : c ∈ sshCurves) (h : EcSpki raw c key)
      (ha : IsString a (gs! "ecdsa-sha2-" ++ c.name)) (hb : IsString b c.name) (hd : IsString d key) :
      OtherKey raw (gs! "ecdsa-sha2-" ++ c.name) (a ++ b ++ d)
  | dsa {raw a b c d e : GoString} {p q g y : Int} (h : DsaSpki raw p q g y) (ha : IsString a (gs! "ssh-dss")) (hb : IsMpint b p)
      (hc : IsMpint c q) (hd : IsMpint d g) (he : IsMpint e y) : OtherKey raw (gs! "ssh-dss") (a ++ b ++ c ++ d ++ e)

/-- The SSH form of a key of one of the types above, or of a security key, as a line may have it: the name in front of an ECDSA key may be that of another
curve, and the numbers of a DSA key need not be in the fewest bytes, but its prime has 1024 bits. -/
inductive OtherBlob : (blob type : GoString) → Prop
  | ed25519 {a b key : GoString} (ha : IsString a (gs! "ssh-ed25519")) (hb : IsString b key) (hl : key.length = 32) :
      OtherBlob (a ++ b) (gs! "ssh-ed25519")
  | ecdsa {a b d key : GoString} {c c' : CurveData} (hc : c ∈ sshCurves) (hc' : c' ∈ sshCurves)
      (ha : IsString a (gs! "ecdsa-sha2-" ++ c'.name)) (hb : IsString b c.name) (hd : IsString d key) (hk : c.IsPoint key) :
      OtherBlob (a ++ b ++ d) (gs! "ecdsa-sha2-" ++ c.name)
  | dsa {a b c d e p q g y : GoString} (ha : IsString a (gs! "ssh-dss")) (hb : IsString b p) (hc : IsString c q) (hd : IsString d g)
      (he : IsString e y) (hp : 2 ^ 1023 ≤ (signedBE p).natAbs ∧ (signedBE p).natAbs < 2 ^ 1024) :
      OtherBlob (a ++ b ++ c ++ d ++ e) (gs! "ssh-dss")
  | skEcdsa {a b d e key app : GoString} {c : CurveData} (hc : c ∈ sshCurves) (hn : c.name = gs! "nistp256")
      (ha : IsString a (gs! "sk-ecdsa-sha2-nistp256@openssh.com")) (hb : IsString b c.name) (hd : IsString d key) (hk : c.IsPoint key)
      (he : IsString e app) : OtherBlob (a ++ b ++ d ++ e) (gs! "sk-ecdsa-sha2-nistp256@openssh.com")
  | skEd25519 {a b c key app : GoString} (ha : IsString a (gs! "sk-ssh-ed25519@openssh.com")) (hb : IsString b key)
      (hl : key.length = 32) (hc : IsString c app) : OtherBlob (a ++ b ++ c) (gs! "sk-ssh-ed25519@openssh.com")

end GoIdentity
