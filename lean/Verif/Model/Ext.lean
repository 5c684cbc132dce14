import Verif.Model.Errors
/-!
# What the model does not compute: external algorithms (`Ext`) and per-call runtime choices (`Nondet`)
-/
namespace GoIdentity

/-- A `time.Time` as far as the repository uses stored times: it is set from `time.Now().UTC()` and formatted/parsed as
RFC 3339 text.  `off` is the zone offset in minutes (always 0 for times made by the code). -/
structure GoTime where
  year : Nat
  month : Nat
  day : Nat
  hour : Nat
  min : Nat
  sec : Nat
  nano : Nat
  off : Int
  deriving DecidableEq, Repr

/-- The zero `time.Time`. -/
def GoTime.zero : GoTime := ⟨1, 1, 1, 0, 0, 0, 0, 0⟩

/-- The hash functions selectable in mfa_token.go:481-487. -/
inductive HashAlg
  | sha1 | sha256 | sha512
  deriving DecidableEq, Repr

/-- Digest length in bytes. -/
def HashAlg.size : HashAlg → Nat
  | .sha1 => 20
  | .sha256 => 32
  | .sha512 => 64

/-- The types besides RSA of the keys that `ssh.NewPublicKey` makes from an X.509 key. -/
inductive PkixKind
  | dsa | p256 | p384 | p521 | ed25519
  deriving DecidableEq, Repr

/-- The name of the type. -/
def PkixKind.name : PkixKind → GoString
  | .dsa => gs! "ssh-dss"
  | .p256 => gs! "ecdsa-sha2-nistp256"
  | .p384 => gs! "ecdsa-sha2-nistp384"
  | .p521 => gs! "ecdsa-sha2-nistp521"
  | .ed25519 => gs! "ssh-ed25519"

/-- What golang.org/x/crypto/openpgp tells about one key-ring entry (public_key.go:203-239). -/
structure PgpEntity where
  hasPrimaryKey : Bool
  /-- `strconv.FormatUint(pk.KeyId, 16)` -/
  keyIdHex : GoString
  /-- `hex.EncodeToString(pk.Fingerprint[:])` -/
  fingerprintHex : GoString
  pubKeyAlgo : Nat
  /-- identity names, in the order in which the map iteration yields them -/
  identities : List GoString
  /-- `pk.CreationTime.UTC()` as printed by `%s` -/
  created : GoString
  deriving DecidableEq, Repr

/-- External algorithms.  Every definition and theorem is parametric in them. -/
class Ext where
  /-- `unicode.ToLower` on code points above 127 -/
  lowerRune : Nat → Nat
  /-- the Blowfish computation of bcrypt: cost, decoded salt and 72-byte key schedule input give the digest, of which 23 bytes
  are used (Model/Bcrypt.lean) -/
  bcryptRaw : Nat → GoString → GoString → GoString
  /-- `x509.Certificate.CheckSignature(ECDSAWithSHA256, data, sig)` for the P-256 key with coordinates X, Y, if they are not those
  of a point of the curve, or if the signature has more than the two integers inside its sequence (Model/P256.lean) -/
  ecdsaOdd : Nat → Nat → GoString → GoString → Bool
  /-- `openpgp.ReadArmoredKeyRing` -/
  pgpRead : GoString → Option (List PgpEntity)
  /-- `uint64(math.Floor(float64(unix)/float64(period)))` where the conversion is implementation-defined
  (negative time or non-positive period) -/
  oddStep : Int → Int → Nat
  /-- `os.UserHomeDir` -/
  homeDir : Option GoString
  /-- `app.Version` (database.go:64) -/
  appVersion : GoString

/-- Outcome of `ioutil.WriteFile`: success, failure to open (the file is untouched), or failure after `n` bytes (the file
was truncated and holds the first `n` bytes). -/
inductive WriteOutcome
  | ok
  | openErr
  | writeErr (n : Nat)
  deriving DecidableEq, Repr

/-- Successive readings of the clock, `time.Now().UTC()`.  The code may pass over some of them: a sequence with the readings
made at the places used stands for any sequence of readings. -/
abbrev Clock := Nat → GoTime

/-- The readings after the first `n`. -/
def Clock.skip (c : Clock) (n : Nat) : Clock := fun i => c (n + i)

/-- Everything the runtime chooses during one call. -/
structure Nondet where
  /-- the readings of the clock during the call, before it commits -/
  now : Clock
  /-- the reading of the clock when the call commits (database.go:457) -/
  commitTime : GoTime
  /-- `time.Now().Unix()` for TOTP -/
  unix : Int
  /-- the UUID drawn by `NewUser` (user.go:96) -/
  userID : GoString
  /-- the UUIDs drawn by the retry loop (database.go:267-273) -/
  ids : List GoString
  /-- salt read by the i-th bcrypt hash of the call, `none` if the entropy source fails -/
  salts : Nat → Option GoString
  /-- draws of the global `rand.Intn` (random.go:50,52) -/
  globalRand : Nat → Nat
  /-- draws of the package's `seed.Intn` (random.go:32) -/
  seedRand : Nat → Nat
  /-- outcome of the call's file write -/
  io : WriteOutcome
  /-- `os.Stat` fails for a reason other than absence -/
  statErr : Bool
  /-- `os.MkdirAll` fails -/
  mkdirErr : Bool
  /-- `ioutil.ReadFile` fails -/
  readErr : Bool
  /-- how many iterations of an unbounded loop are observed before it is called non-terminating -/
  fuel : Nat

/-! ## strings.ToLower -/

/-- `unicode.ToLower` on one code point: exact on ASCII, `Ext.lowerRune` above. -/
def lowerRuneAll [Ext] (r : Nat) : Nat :=
  if r < 128 then (if 65 ≤ r ∧ r ≤ 90 then r + 32 else r) else Ext.lowerRune r

/-- `strings.ToLower`: the ASCII fast path, otherwise `strings.Map(unicode.ToLower, s)`, which decodes runes (an invalid
byte counts as U+FFFD) and re-encodes them. -/
def toLower [Ext] (s : GoString) : GoString :=
  if s.all isASCII then s.map lowerByte
  else (runes s).flatMap fun rw => encodeRune (lowerRuneAll rw.1)

end GoIdentity
