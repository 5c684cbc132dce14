import Verif.Model.SshKeys
import Verif.Model.Small
/-!
# public_key.go
-/
namespace GoIdentity
variable [Ext]

/-- `bytes.IndexAny(s, " \t")` (public_key.go:134,144). -/
def indexBlank (s : GoString) : Option Nat := s.findIdx? (fun b => b == 32 || b == 9)

/-- The base64 text, the comment and the OpenSSH text found in an authorized_keys line (public_key.go:131-150). -/
def splitOpenSSH (payload : GoString) : GoString × GoString × GoString :=
  let bs := trimSpace payload
  let i := (indexBlank bs).getD bs.length
  let b64 := bs.take i
  if b64.length < 20 then
    let b64 := trimSpace (bs.drop i)
    match indexBlank b64 with
    | some (i + 1) => (b64.take (i + 1), trimSpace (b64.drop (i + 1)), b64.take (i + 1))
    | _ => (b64, [], b64)
  else (b64, [], [])

/-- `parsePublicKeyOpenSSH` (public_key.go:131-192).  An RSA key is marshalled and parsed again before its PEM text is made; the
type assertion in public_key.go:177 would panic on anything but an RSA key. -/
def parsePublicKeyOpenSSH (p : PublicKey) : Res PublicKey :=
  let (b64, comment, openSSH) := splitOpenSSH p.payload
  let p := { p with openSSH := openSSH }
  match b64Decode b64 with
  | none => .err (.withE .publicKeyParse [] (.ext (gs! "base64")))
  | some k =>
    match sshParse k with
    | none => .err (.withE .publicKeyParse [] (.ext (gs! "ssh")))
    | some key =>
      let p := { p with
        type := key.type
        comment := if comment = [] then p.comment else comment
        fingerprintMD5 := key.md5
        fingerprint := gs! "SHA256:" ++ key.sha256 }
      if key.type = gs! "ssh-rsa" then
        match sshParse key.wire with
        | none => .err (.withE .publicKeyParse [] (.ext (gs! "ssh")))
        | some (.rsa e n) => .ok { p with payload := rsaPem e n }
        | some (.other ..) => .panic
      else .err (.withV .publicKeyTypeUnsupported [key.type] [])

/-- Algorithm name and key type of a PGP key (public_key.go:219-234). -/
def pgpAlgo (n : Nat) : Option (GoString × GoString) :=
  if n = 1 ∨ n = 2 ∨ n = 3 then some (gs! "RSA", gs! "rsa")
  else if n = 17 then some (gs! "DSA", gs! "dsa")
  else if n = 18 then some (gs! "ECDH", gs! "ecdh")
  else if n = 19 then some (gs! "ECDSA", gs! "ecdsa")
  else none

/-- `parsePublicKeyPGP` (public_key.go:194-246). -/
def parsePublicKeyPGP (p : PublicKey) : Res PublicKey :=
  let p := { p with payload := trimSpace p.payload }
  let bad : GoString → Res PublicKey := fun s => .err (.withE .publicKeyParse [] (.ext s))
  if !hasPrefix p.payload (gs! "-----BEGIN PGP PUBLIC KEY BLOCK-----") then bad (gs! "BEGIN PGP PUBLIC KEY BLOCK not found")
  else if !hasSuffix p.payload (gs! "-----END PGP PUBLIC KEY BLOCK-----") then bad (gs! "END PGP PUBLIC KEY BLOCK not found")
  else
    match Ext.pgpRead p.payload with
    | none => bad (gs! "openpgp")
    | some [e] =>
      if !e.hasPrimaryKey then bad (gs! "PGP keyring entry has no public key")
      else
        match e.identities with
        | [] => bad (gs! "PGP keyring entry has no identities")
        | user :: _ =>
          match pgpAlgo e.pubKeyAlgo with
          | none => bad (gs! "PGP keyring entry has unsupported public key algo " ++ natDec e.pubKeyAlgo)
          | some (algo, type) =>
            let comment := user ++ gs! ", algo " ++ algo ++ gs! ", created " ++ e.created
            .ok { p with
              id := e.keyIdHex
              fingerprint := e.fingerprintHex
              type := type
              comment := if p.comment ≠ [] then p.comment ++ gs! " (" ++ comment ++ gs! ")" else comment }
    | some es => bad (gs! "PGP keyring contains " ++ natDec es.length ++ gs! " entries")

/-- `strings.ReplaceAll(s, pat, "")` for a non-empty pattern (public_key.go:270); `skip` bytes are still to be left out. -/
def removeSub (pat : GoString) : Nat → GoString → GoString
  | _, [] => []
  | skip + 1, _ :: t => removeSub pat skip t
  | 0, b :: t => if hasPrefix (b :: t) pat then removeSub pat (pat.length - 1) t else b :: removeSub pat 0 t

/-- `strings.TrimLeft(s, cutset)` for a cutset of ASCII characters (public_key.go:272). -/
def trimLeftSet (cutset s : GoString) : GoString := s.dropWhile fun b => cutset.contains b

/-- `parsePublicKeyRSA` (public_key.go:248-275). -/
def parsePublicKeyRSA (p : PublicKey) : Res PublicKey :=
  if p.usage ≠ gs! "ssh" then .err (.withV .publicKeyUsagePayloadMismatch [p.usage] [])
  else
    match pemDecode (trimSpace p.payload) with
    | none => .err (.withV .publicKeyBlockType [[]] [])
    | some (type, bytes) =>
      if type ≠ gs! "RSA PUBLIC KEY" then .err (.withV .publicKeyBlockType [type] [])
      else
        match pkixToSsh bytes with
        | none => .err (.withE .publicKeyParse [] (.ext (gs! "x509")))
        | some none => .err (.ext (gs! "failed ssh.NewPublicKey"))
        | some (some key) =>
          .ok { p with
            type := key.type
            fingerprintMD5 := key.md5
            fingerprint := removeSub (gs! "SHA256:") 0 (gs! "SHA256:" ++ key.sha256)
            openSSH := trimLeftSet (key.type ++ [32]) key.line }

/-- `parse` (public_key.go:113-129). -/
def parsePublicKey (p : PublicKey) : Res PublicKey :=
  if ¬ (p.usage = gs! "ssh" ∨ p.usage = gs! "gpg") then .err (.withV .publicKeyInvalidUsage [p.usage] [])
  else if p.payload = [] then .err (.std .publicKeyEmptyPayload)
  else if containsSub (gs! "RSA PUBLIC KEY") p.payload then parsePublicKeyRSA p
  else if hasPrefix p.payload (gs! "ssh-rsa ") then parsePublicKeyOpenSSH p
  else if containsSub (gs! "BEGIN PGP PUBLIC KEY BLOCK") p.payload then parsePublicKeyPGP p
  else .err (.withV .publicKeyUsageUnsupported [p.usage] [])

/-- `NewPublicKey` (public_key.go:87-103); `id` is `GetRandomString(40)`. -/
def newPublicKey (now : Clock) (id : GoString) (k : ReqKey) : Res PublicKey :=
  match parsePublicKey
      { id := id, usage := k.usage, type := [], fingerprint := [], fingerprintMD5 := [], comment := k.comment,
        payload := k.payload, openSSH := [], expired := false, expiredAt := .zero, createdAt := now 0,
        disabled := false, disabledAt := .zero } with
  | .ok p => .ok (if k.disabled then { p with disabled := true, disabledAt := now 1 } else p)
  | .err e => .err e
  | .panic => .panic

/-- `PublicKey.Disable` (public_key.go:106-111).  It has no caller. -/
def PublicKey.disable (now : Clock) (p : PublicKey) : PublicKey :=
  { p with expired := true, expiredAt := now 0, disabled := true, disabledAt := now 1 }

end GoIdentity
