import Verif.Model.Pkix
import Verif.Model.Pem
import Verif.Model.Md5
import Verif.Model.Codec
/-!
# golang.org/x/crypto/ssh: public keys

The version required by /repo/go.mod (20210813); called in public_key.go:156-175 and public_key.go:264-272.
-/
namespace GoIdentity

/-- A key the SSH library can hold: an RSA key, or one of another type by its name and the rest of its wire form. -/
inductive SshPub
  | rsa (e : Nat) (n : Int)
  | other (type rest : GoString)
  deriving DecidableEq, Repr

/-- A string on the wire: four bytes of length, then the bytes. -/
def sshString (s : GoString) : GoString := Sha.natBE 4 s.length ++ s

/-- `PublicKey.Type`. -/
def SshPub.type : SshPub → GoString
  | .rsa .. => gs! "ssh-rsa"
  | .other t _ => t

/-- `PublicKey.Marshal`. -/
def SshPub.wire : SshPub → GoString
  | .rsa e n => sshString (gs! "ssh-rsa") ++ sshString (intBytes e) ++ sshString (intBytes n)
  | .other t r => sshString t ++ r

/-- `ssh.FingerprintLegacyMD5`: pairs of hexadecimal digits with colons between them. -/
def SshPub.md5 (k : SshPub) : GoString :=
  joinWith [58] ((Md5.md5 k.wire).map fun b => [hexDigit (b.toNat / 16), hexDigit (b.toNat % 16)])

/-- The base64 text in `ssh.FingerprintSHA256`, which has no padding. -/
def SshPub.sha256 (k : SshPub) : GoString := (b64Encode (Sha.sha256 k.wire)).filter (· != 61)

/-- The base64 text of the wire form. -/
def SshPub.base64 (k : SshPub) : GoString := b64Encode k.wire

/-- `ssh.MarshalAuthorizedKey`. -/
def SshPub.line (k : SshPub) : GoString := k.type ++ [32] ++ k.base64 ++ [10]

/-- `parseString`. -/
def sshTake (l : GoString) : Option (GoString × GoString) :=
  if l.length < 4 then none
  else
    let n := Sha.beNat (l.take 4)
    if (l.drop 4).length < n then none else some ((l.drop 4).take n, (l.drop 4).drop n)

/-- The key types other than RSA that `parsePubKey` knows. -/
def otherSshTypes : List GoString :=
  [gs! "ssh-dss", gs! "ecdsa-sha2-nistp256", gs! "ecdsa-sha2-nistp384", gs! "ecdsa-sha2-nistp521", gs! "ssh-ed25519",
   gs! "sk-ecdsa-sha2-nistp256@openssh.com", gs! "sk-ssh-ed25519@openssh.com",
   gs! "ssh-rsa-cert-v01@openssh.com", gs! "ssh-dss-cert-v01@openssh.com", gs! "ecdsa-sha2-nistp256-cert-v01@openssh.com",
   gs! "ecdsa-sha2-nistp384-cert-v01@openssh.com", gs! "ecdsa-sha2-nistp521-cert-v01@openssh.com",
   gs! "sk-ecdsa-sha2-nistp256-cert-v01@openssh.com", gs! "ssh-ed25519-cert-v01@openssh.com",
   gs! "sk-ssh-ed25519-cert-v01@openssh.com"]

/-- `parseRSA` and the check for trailing bytes: the exponent is odd, at least 3 and has at most 24 bits; the modulus is any
integer. -/
def sshParseRsa (l : GoString) : Option SshPub :=
  match sshTake l with
  | none => none
  | some (eb, l) =>
    match sshTake l with
    | some (nb, []) =>
      let e := bytesInt eb
      if e.natAbs ≥ 2 ^ 24 then none
      else if e < 3 || e % 2 = 0 then none
      else some (.rsa e.toNat (bytesInt nb))
    | _ => none

/-- The curve with the given SSH name. -/
def curveOfId (id : GoString) : Option NistCurve :=
  if id = gs! "nistp256" then some curve256
  else if id = gs! "nistp384" then some curve384
  else if id = gs! "nistp521" then some curve521
  else none

/-- `parseECDSA`: the type of the key is that of the curve named inside, whatever the name before it says. -/
def sshTakeEC (l : GoString) : Option (PkixKind × GoString × GoString × GoString) :=
  match sshTake l with
  | none => none
  | some (id, l) =>
    match curveOfId id with
    | none => none
    | some c =>
      match c.kind, sshTake l with
      | some kind, some (key, l) => if c.point key then some (kind, id, key, l) else none
      | _, _ => none

/-- `parseDSA`, which wants a prime of 1024 bits. -/
def sshTakeDSA (l : GoString) : Option ((Int × Int × Int × Int) × GoString) :=
  match sshTake l with
  | none => none
  | some (p, l) =>
    match sshTake l with
    | none => none
    | some (q, l) =>
      match sshTake l with
      | none => none
      | some (g, l) =>
        match sshTake l with
        | none => none
        | some (y, l) =>
          if 2 ^ 1023 ≤ (bytesInt p).natAbs ∧ (bytesInt p).natAbs < 2 ^ 1024 then
            some ((bytesInt p, bytesInt q, bytesInt g, bytesInt y), l)
          else none

/-- What follows the type in the wire form of a DSA key. -/
def dsaWire (p q g y : Int) : GoString :=
  sshString (intBytes p) ++ sshString (intBytes q) ++ sshString (intBytes g) ++ sshString (intBytes y)

/-- `parsePubKey` for the types that are neither RSA nor certificates: the key and what follows it. -/
def sshPlain (algo l : GoString) : Option (SshPub × GoString) :=
  if algo = gs! "ssh-dss" then
    match sshTakeDSA l with
    | none => none
    | some ((p, q, g, y), l) => some (.other (gs! "ssh-dss") (dsaWire p q g y), l)
  else if algo = gs! "ecdsa-sha2-nistp256" ∨ algo = gs! "ecdsa-sha2-nistp384" ∨ algo = gs! "ecdsa-sha2-nistp521" then
    match sshTakeEC l with
    | none => none
    | some (kind, id, key, l) => some (.other kind.name (sshString id ++ sshString key), l)
  else if algo = gs! "ssh-ed25519" then
    match sshTake l with
    | none => none
    | some (key, l) => if key.length = 32 then some (.other (gs! "ssh-ed25519") (sshString key), l) else none
  else if algo = gs! "sk-ecdsa-sha2-nistp256@openssh.com" then
    match sshTakeEC l with
    | some (.p256, id, key, l) =>
      match sshTake l with
      | none => none
      | some (app, l) => some (.other algo (sshString id ++ sshString key ++ sshString app), l)
    | _ => none
  else if algo = gs! "sk-ssh-ed25519@openssh.com" then
    match sshTake l with
    | none => none
    | some (key, l) =>
      match sshTake l with
      | none => none
      | some (app, l) => if key.length = 32 then some (.other algo (sshString key ++ sshString app), l) else none
  else none

/-- `parseRSA` without the check for trailing bytes, as for a key inside a certificate. -/
def sshRsaRest (l : GoString) : Option GoString :=
  match sshTake l with
  | none => none
  | some (eb, l) =>
    match sshTake l with
    | none => none
    | some (_, l) =>
      let e := bytesInt eb
      if e.natAbs ≥ 2 ^ 24 then none
      else if e < 3 || e % 2 = 0 then none
      else some l

/-- The types of certificates, each after the type of the keys it is for (`certAlgoNames`). -/
def certTypes : List (GoString × GoString) :=
  [(gs! "ssh-rsa", gs! "ssh-rsa-cert-v01@openssh.com"), (gs! "ssh-dss", gs! "ssh-dss-cert-v01@openssh.com"),
   (gs! "ecdsa-sha2-nistp256", gs! "ecdsa-sha2-nistp256-cert-v01@openssh.com"),
   (gs! "ecdsa-sha2-nistp384", gs! "ecdsa-sha2-nistp384-cert-v01@openssh.com"),
   (gs! "ecdsa-sha2-nistp521", gs! "ecdsa-sha2-nistp521-cert-v01@openssh.com"),
   (gs! "sk-ecdsa-sha2-nistp256@openssh.com", gs! "sk-ecdsa-sha2-nistp256-cert-v01@openssh.com"),
   (gs! "ssh-ed25519", gs! "ssh-ed25519-cert-v01@openssh.com"),
   (gs! "sk-ssh-ed25519@openssh.com", gs! "sk-ssh-ed25519-cert-v01@openssh.com")]

/-- The strings of a list of principals; at most `fuel` of them. -/
def sshStrings : Nat → GoString → Bool
  | _, [] => true
  | 0, _ => false
  | f + 1, l =>
    match sshTake l with
    | none => false
    | some (_, l) => sshStrings f l

/-- `parseTuples`: names in ascending order, each with an empty value or one that holds a single string. -/
def sshTuples : Nat → Option GoString → GoString → Bool
  | _, _, [] => true
  | 0, _, _ => false
  | f + 1, last, l =>
    match sshTake l with
    | none => false
    | some (key, l) =>
      if last.any fun k => !bytesLt k key then false
      else
        match sshTake l with
        | none => false
        | some (val, l) =>
          if val = [] then sshTuples f (some key) l
          else
            match sshTake val with
            | some (_, []) => sshTuples f (some key) l
            | _ => false

/-- `parseSignatureBody`: a format and a blob; the formats of security keys may have more after them. -/
def sshSignature (l : GoString) : Bool :=
  match sshTake l with
  | none => false
  | some (format, l) =>
    match sshTake l with
    | none => false
    | some (_, l) =>
      l = [] ||
      [gs! "sk-ecdsa-sha2-nistp256@openssh.com", gs! "sk-ecdsa-sha2-nistp256-cert-v01@openssh.com",
        gs! "sk-ssh-ed25519@openssh.com", gs! "sk-ssh-ed25519-cert-v01@openssh.com"].contains format

/-- Skips `n` bytes. -/
def sshSkip (n : Nat) (l : GoString) : Option GoString := if l.length < n then none else some (l.drop n)

/-- What follows the key in a certificate: the signature key and whether the rest of it is in order (`genericCertData`). -/
def sshCertTail (l : GoString) : Option GoString :=
  match sshSkip 12 l with
  | none => none
  | some l =>
    match sshTake l with
    | none => none
    | some (_, l) =>
      match sshTake l with
      | none => none
      | some (principals, l) =>
        match sshSkip 16 l with
        | none => none
        | some l =>
          match sshTake l with
          | none => none
          | some (options, l) =>
            match sshTake l with
            | none => none
            | some (extensions, l) =>
              match sshTake l with
              | none => none
              | some (_, l) =>
                match sshTake l with
                | none => none
                | some (signer, l) =>
                  match sshTake l with
                  | some (sig, []) =>
                    if sshStrings principals.length principals && sshTuples options.length none options &&
                        sshTuples extensions.length none extensions && sshSignature sig then some signer
                    else none
                  | _ => none

/-- The key inside a certificate: its type and what follows it. -/
def sshCertKey (plain l : GoString) : Option (GoString × GoString) :=
  match sshTake l with
  | none => none
  | some (_, l) =>
    if plain = gs! "ssh-rsa" then (sshRsaRest l).map fun l => (plain, l)
    else (sshPlain plain l).map fun x => (x.1.type, x.2)

/-- `parsePubKey` for the types other than RSA, with nothing after the key.  A certificate holds the key that signed it, which may
again be a certificate; `fuel` bounds the depth.  The wire form of a certificate is kept as it was given, which nothing
depends on. -/
def sshOther : Nat → GoString → GoString → Option SshPub
  | fuel, algo, l =>
    match certTypes.find? fun x => x.2 = algo with
    | none =>
      match sshPlain algo l with
      | some (k, []) => some k
      | _ => none
    | some (plain, _) =>
      match fuel with
      | 0 => none
      | fuel + 1 =>
        match sshCertKey plain l with
        | none => none
        | some (type, tail) =>
          match sshCertTail tail with
          | none => none
          | some signer =>
            match sshTake signer with
            | none => none
            | some (algo', rest) =>
              if (if algo' = gs! "ssh-rsa" then sshParseRsa rest else sshOther fuel algo' rest).isSome then
                (certTypes.find? fun x => x.1 = type).map fun x => .other x.2 l
              else none

/-- `ssh.ParsePublicKey`. -/
def sshParse (l : GoString) : Option SshPub :=
  match sshTake l with
  | none => none
  | some (algo, rest) => if algo = gs! "ssh-rsa" then sshParseRsa rest else sshOther l.length algo rest

/-- `ssh.NewPublicKey` for the keys that are not RSA keys: the kind of key and what follows its type in the wire form. -/
def OtherPub.toSsh : OtherPub → Option (PkixKind × GoString)
  | .dsa p q g y => some (.dsa, dsaWire p q g y)
  | .ec c key => c.kind.map fun kind => (kind, sshString c.id ++ sshString key)
  | .ed25519 key => some (.ed25519, sshString key)

/-- `x509.ParsePKIXPublicKey` (outer option) followed by `ssh.NewPublicKey` (inner option). -/
def pkixToSsh (der : GoString) : Option (Option SshPub) :=
  match parsePKIX der with
  | .bad => none
  | .rsa e n => some (some (.rsa e n))
  | .other =>
    match (parsePKIXOther der).map OtherPub.toSsh with
    | none => none
    | some none => some none
    | some (some (kind, rest)) => some (some (.other kind.name rest))

/-- The PEM text of an RSA key made in public_key.go:178-186. -/
def rsaPem (e : Nat) (n : Int) : GoString := pemEncode (gs! "RSA PUBLIC KEY") (marshalPKIX e n)

end GoIdentity
