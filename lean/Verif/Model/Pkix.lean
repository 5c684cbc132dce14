import Verif.Model.P256
/-!
# crypto/x509 and crypto/elliptic: public keys of other algorithms than RSA

What `x509.ParsePKIXPublicKey` and `ssh.NewPublicKey` make of DSA, ECDSA and Ed25519 keys (public_key.go:260-267).
-/
namespace GoIdentity

/-- A curve `y² = x³ - 3 x + b` modulo `p`, whose coordinates take `size` bytes; `kind` is the type of its keys in SSH, which has
none for P-224, and `id` the name of the curve there. -/
structure NistCurve where
  size : Nat
  p : Nat
  b : Nat
  kind : Option PkixKind
  id : GoString

/-- `elliptic.P224`. -/
def curve224 : NistCurve where
  size := 28
  p := 2 ^ 224 - 2 ^ 96 + 1
  b := 0xb4050a850c04b3abf54132565044b0b7d7bfd8ba270b39432355ffb4
  kind := none
  id := gs! "nistp224"

/-- `elliptic.P256`. -/
def curve256 : NistCurve where
  size := 32
  p := P256.p
  b := P256.b
  kind := some .p256
  id := gs! "nistp256"

/-- `elliptic.P384`. -/
def curve384 : NistCurve where
  size := 48
  p := 2 ^ 384 - 2 ^ 128 - 2 ^ 96 + 2 ^ 32 - 1
  b := 0xb3312fa7e23ee7e4988e056be3f82d19181d9c6efe8141120314088f5013875ac656398d8a2ed19d2a85c8edd3ec2aef
  kind := some .p384
  id := gs! "nistp384"

/-- `elliptic.P521`. -/
def curve521 : NistCurve where
  size := 66
  p := 2 ^ 521 - 1
  b := 0x0051953eb9618e1c9a1f929a21a0b68540eea2da725b99b315f3b8b489918ef109e156193951ec7e937b1652c0bd3bb1bf073573df883d2c34f1ef451fd46b503f00
  kind := some .p521
  id := gs! "nistp521"

/-- `elliptic.Unmarshal` accepts the bytes: the byte 4 and the coordinates of a point of the curve. -/
def NistCurve.point (c : NistCurve) (l : GoString) : Bool :=
  match l with
  | [] => false
  | t :: xy =>
    let x := Sha.beNat (xy.take c.size)
    let y := Sha.beNat (xy.drop c.size)
    t = 4 && decide (xy.length = 2 * c.size) && decide (x < c.p) && decide (y < c.p) &&
      decide ((y * y + 3 * x) % c.p = (x * x * x + c.b) % c.p)

/-- The object identifier 1.2.840.10045.2.1 (id-ecPublicKey). -/
def oidEC : GoString := [0x2a, 0x86, 0x48, 0xce, 0x3d, 0x02, 0x01]

/-- The object identifier 1.2.840.10040.4.1 (id-dsa). -/
def oidDSA : GoString := [0x2a, 0x86, 0x48, 0xce, 0x38, 0x04, 0x01]

/-- The object identifier 1.3.101.112 (id-Ed25519). -/
def oidEd25519 : GoString := [0x2b, 0x65, 0x70]

/-- `namedCurveFromOID`. -/
def curveOfOid (oid : GoString) : Option NistCurve :=
  if oid = [0x2b, 0x81, 0x04, 0x00, 0x21] then some curve224
  else if oid = [0x2a, 0x86, 0x48, 0xce, 0x3d, 0x03, 0x01, 0x07] then some curve256
  else if oid = [0x2b, 0x81, 0x04, 0x00, 0x22] then some curve384
  else if oid = [0x2b, 0x81, 0x04, 0x00, 0x23] then some curve521
  else none

/-- The key an algorithm identifier's parameters and the key bits stand for. -/
inductive OtherPub
  | dsa (p q g y : Int)
  | ec (c : NistCurve) (point : GoString)
  | ed25519 (key : GoString)

/-- The three numbers of `dsaAlgorithmParameters`; bytes after them inside the sequence are ignored. -/
def parseDsaParams (params : GoString) : Option (Int × Int × Int) :=
  match derTake 0x30 params with
  | none => none
  | some (c, _) =>
    match derTakeInt c with
    | none => none
    | some (p, _, c) =>
      match derTakeInt c with
      | none => none
      | some (q, _, c) =>
        match derTakeInt c with
        | none => none
        | some (g, _, _) => some (p, q, g)

/-- `x509.parsePublicKey` for the algorithms other than RSA: `params` is what follows the algorithm in its identifier, of which
only the first element counts. -/
def parseOtherKey (oid params key : GoString) : Option OtherPub :=
  if oid = oidDSA then
    match derTakeInt key with
    | some (y, _, []) =>
      match parseDsaParams params with
      | none => none
      | some (p, q, g) => if 0 < p ∧ 0 < q ∧ 0 < g ∧ 0 < y then some (.dsa p q g y) else none
    | _ => none
  else if oid = oidEC then
    match derTake 0x06 params with
    | none => none
    | some (co, _) =>
      match curveOfOid co with
      | none => none
      | some c => if c.point key then some (.ec c key) else none
  else if oid = oidEd25519 then
    if params = [] ∧ key.length = 32 then some (.ed25519 key) else none
  else none

/-- `x509.ParsePKIXPublicKey` for the algorithms other than RSA. -/
def parsePKIXOther (der : GoString) : Option OtherPub :=
  match derTake 0x30 der with
  | some (c, []) =>
    match derTake 0x30 c with
    | none => none
    | some (alg, c) =>
      match derTake 0x06 alg with
      | none => none
      | some (oid, params) =>
        match derTake 0x03 c with
        | none => none
        | some (bits, _) =>
          match derBits bits with
          | none => none
          | some key => parseOtherKey oid params key
  | _ => none

end GoIdentity
