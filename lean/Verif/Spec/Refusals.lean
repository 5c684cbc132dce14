import Verif.Props.ApiKeys
import Verif.Props.Patterns
import Verif.Props.PublicKeys
import Verif.Props.Totp
import Verif.Props.WebAuthn
import Verif.Spec.Precond
/-!
# Tables of checks

What each call looks at, in order, and how it ends if the check applies.  The conditions are about the users, the request and
what the runtime delivered; the errors are written out in full.
-/
namespace GoIdentity
variable [Ext]

/-- One check: the outcomes it ends the call with, none if it does not apply. -/
abbrev Row := Outcome → Prop

/-- If the condition holds, the call ends in this way. -/
def endsIf (c : Prop) (o : Outcome) : Row := fun x => c ∧ x = o

/-- If the condition holds, the call returns this error. -/
def refuse (c : Prop) (e : GoErr) : Row := endsIf c (.fail e)

/-- A table ends a call in the way of the first check that applies. -/
inductive Decides : List Row → Outcome → Prop
  | here {r : Row} {rs : List Row} {o : Outcome} (h : r o) : Decides (r :: rs) o
  | later {r : Row} {rs : List Row} {o : Outcome} (h : ∀ x, ¬ r x) (t : Decides rs o) : Decides (r :: rs) o

namespace Checks

/-- Nothing is left to check. -/
def done : List Row := [endsIf True .success]

/-- The user a request speaks for: a username and an email address of users with the same identifier. -/
def identity (db : Database) (req : Request) (w : GoErr → GoErr) : List Row :=
  [refuse (∀ u ∈ db.users, ¬ NamesUser req.user.username u) (w (.std .databaseUserNotFound)),
   refuse (∀ u ∈ db.users, ¬ MailsUser req.user.email u) (w (.std .databaseUserNotFound)),
   refuse (∀ u, ¬ Addressed db req u) (w (.std .databaseInvalidUser))]

/-- Writing the file. -/
def write (nd : Nondet) (fs : FS) (path : GoString) (w : GoErr → GoErr) : List Row :=
  let failed := fun s => w (.withE .databaseCommit [path] (.ext s))
  [refuse (path = []) (failed (gs! "open : no such file or directory")),
   refuse (fs path = some .dir) (failed (gs! "open " ++ path ++ gs! ": is a directory")),
   refuse (nd.io = .openErr) (failed (gs! "open")),
   refuse (∃ n, nd.io = .writeErr n) (failed (gs! "write"))]

/-- Hashing a password. -/
def hashing (nd : Nondet) (password : GoString) (w : GoErr → GoErr) : List Row :=
  [refuse (Blank password) (w (.std .passwordEmpty)),
   refuse (nd.salts 0 = none) (w (.withE .passwordGenerate [] (.ext (gs! "entropy"))))]

/-- `AddUser`. -/
def addUser (nd : Nondet) (db : Database) (fs : FS) (req : Request) : List Row :=
  let w := GoErr.withE .addUser [req.user.username]
  [refuse (¬ UsernameAllowed db.policy req.user.username) (w (.std .userPolicyCompliance)),
   refuse (¬ PasswordAllowed db.policy req.user.password) (w (.std .passwordPolicyCompliance))] ++
  hashing nd req.user.password w ++
  [refuse (¬ emailPattern.Matches req.user.email) (w (.std .emailAddressInvalid)),
   refuse (∃ r ∈ req.user.roles, Blank r) (w (.std .roleEmpty)),
   refuse (¬ (Blank req.user.fullName ∨ (trimSpace req.user.fullName).count 44 = 1 ∨
       (trimSpace req.user.fullName).count 32 = 1)) (w (.withV .parseNameFailed [trimSpace req.user.fullName] [])),
   refuse (nd.userID.length ≠ 36) (w (.withV .userIDInvalidLength [] [nd.userID.length])),
   refuse (req.user.username = []) (w (.std .usernameEmpty)),
   refuse (∃ v ∈ db.users, toLower v.username = toLower req.user.username)
     (.withV .addUser [toLower req.user.username, gs! "username already in use"] []),
   refuse (∃ v ∈ db.users, ∃ e ∈ v.emailAddresses, toLower e.address = toLower req.user.email)
     (.withV .addUser [toLower req.user.email, gs! "email address already in use"] [])] ++
  write nd fs db.path (.withE .addUser [toLower req.user.username]) ++ done

/-- `DeleteUser`. -/
def deleteUser (db : Database) (req : Request) : List Row :=
  identity db req (.withE .deleteUser [req.query.id]) ++
  [refuse True (.withV .deleteUser [req.query.id, gs! "user delete operation is not supported"] [])]

/-- `AuthenticateUser`. -/
def authenticateUser (db : Database) (req : Request) : List Row :=
  let w := GoErr.withE .authFailed []
  let u := fun P : User → Prop => ∃ u ∈ db.users, Denotes req.user.username u ∧ P u
  let byPassword := req.user.password ≠ []
  [refuse (¬ u fun _ => True) (w (.std .databaseUserNotFound)),
   refuse (byPassword ∧ u fun u => u.passwords = []) (w (.std .userPasswordNotFound)),
   refuse (byPassword ∧ ¬ u fun u => ∃ p ∈ u.passwords, p.disabled = false ∧ p.expired = false ∧
       bcryptMatch p.hash req.user.password = true) (w (.std .userPasswordInvalid)),
   endsIf byPassword .success,
   refuse (req.webAuthn.request = []) (.withV .authFailed [gs! "malformed auth request"] []),
   refuse (b64Decode req.webAuthn.request = none) (w (.withE .webAuthnParse [] (.ext (gs! "base64")))),
   (fun o => ∃ doc e, b64Decode req.webAuthn.request = some doc ∧
     unmarshal authenticateRequestFields AuthenticateRequest.zero doc = .err e ∧ o = .fail (w (.withE .webAuthnParse [] e))),
   refuse (¬ u fun u => ∃ r, IsAuthRequest req.webAuthn.request r ∧
       ∃ pre t post, u.mfaTokens = pre ++ t :: post ∧ (∀ t' ∈ pre, ¬ IsCandidate t' r.id) ∧ IsCandidate t r.id ∧
         ValidAssertion t.parameters req.webAuthn.challenge r) (w (.std .webAuthnVerifyRequest))] ++ done

/-- Reading a public key. -/
def readKey (k : ReqKey) (w : GoErr → GoErr) : List Row :=
  let pem := Contains (gs! "RSA PUBLIC KEY") k.payload
  let line := ¬ pem ∧ gs! "ssh-rsa " <+: k.payload
  let armour := ¬ pem ∧ ¬ gs! "ssh-rsa " <+: k.payload ∧ Contains (gs! "BEGIN PGP PUBLIC KEY BLOCK") k.payload
  let bad := fun s => w (.withE .publicKeyParse [] (.ext s))
  let s := trimSpace k.payload
  [refuse (k.usage ≠ gs! "ssh" ∧ k.usage ≠ gs! "gpg") (w (.withV .publicKeyInvalidUsage [k.usage] [])),
   refuse (k.payload = []) (w (.std .publicKeyEmptyPayload)),
   -- a PEM block
   refuse (pem ∧ k.usage ≠ gs! "ssh") (w (.withV .publicKeyUsagePayloadMismatch [k.usage] [])),
   refuse (pem ∧ pemDecode s = none) (w (.withV .publicKeyBlockType [[]] [])),
   (fun o => pem ∧ ∃ type der, pemDecode s = some (type, der) ∧ type ≠ gs! "RSA PUBLIC KEY" ∧
     o = .fail (w (.withV .publicKeyBlockType [type] []))),
   refuse (pem ∧ ∃ type der, pemDecode s = some (type, der) ∧ pkixToSsh der = none) (bad (gs! "x509")),
   refuse (pem ∧ ∃ type der, pemDecode s = some (type, der) ∧ pkixToSsh der = some none)
     (w (.ext (gs! "failed ssh.NewPublicKey"))),
   -- an OpenSSH line
   refuse (line ∧ ∃ f c, LineFields k.payload f c ∧ b64Decode f = none) (bad (gs! "base64")),
   refuse (line ∧ ∃ f c raw, LineFields k.payload f c ∧ b64Decode f = some raw ∧ sshParse raw = none) (bad (gs! "ssh")),
   (fun o => line ∧ ∃ f c raw key, LineFields k.payload f c ∧ b64Decode f = some raw ∧ sshParse raw = some key ∧
     key.type ≠ gs! "ssh-rsa" ∧ o = .fail (w (.withV .publicKeyTypeUnsupported [key.type] []))),
   -- an armoured PGP block
   refuse (armour ∧ ¬ gs! "-----BEGIN PGP PUBLIC KEY BLOCK-----" <+: s) (bad (gs! "BEGIN PGP PUBLIC KEY BLOCK not found")),
   refuse (armour ∧ ¬ gs! "-----END PGP PUBLIC KEY BLOCK-----" <:+ s) (bad (gs! "END PGP PUBLIC KEY BLOCK not found")),
   refuse (armour ∧ Ext.pgpRead s = none) (bad (gs! "openpgp")),
   (fun o => armour ∧ ∃ es, Ext.pgpRead s = some es ∧ es.length ≠ 1 ∧
     o = .fail (bad (gs! "PGP keyring contains " ++ natDec es.length ++ gs! " entries"))),
   refuse (armour ∧ ∃ e, Ext.pgpRead s = some [e] ∧ e.hasPrimaryKey = false) (bad (gs! "PGP keyring entry has no public key")),
   refuse (armour ∧ ∃ e, Ext.pgpRead s = some [e] ∧ e.identities = []) (bad (gs! "PGP keyring entry has no identities")),
   (fun o => armour ∧ ∃ e, Ext.pgpRead s = some [e] ∧ e.pubKeyAlgo ∉ [1, 2, 3, 17, 18, 19] ∧
     o = .fail (bad (gs! "PGP keyring entry has unsupported public key algo " ++ natDec e.pubKeyAlgo))),
   -- anything else
   refuse (¬ pem ∧ ¬ line ∧ ¬ armour) (w (.withV .publicKeyUsageUnsupported [k.usage] []))]

/-- `AddPublicKey`. -/
def addPublicKey (nd : Nondet) (db : Database) (fs : FS) (req : Request) : List Row :=
  let w := GoErr.withE .addPublicKey [req.key.usage]
  identity db req w ++ readKey req.key w ++
  [refuse (∃ u key, Addressed db req u ∧ newPublicKey nd.now (getRandomString nd.seedRand 0 40) req.key = .ok key ∧
     ∃ x ∈ u.publicKeys, x.type = key.type ∧ x.fingerprint = key.fingerprint)
     (.withV .addPublicKey [req.key.usage, gs! "already exists"] [])] ++
  write nd fs db.path w ++ done

/-- `DeletePublicKey`; the last error is wrapped with the usage. -/
def deletePublicKey (nd : Nondet) (db : Database) (fs : FS) (req : Request) : List Row :=
  identity db req (.withE .deletePublicKey [req.key.id]) ++
  [refuse (¬ ∃ u, Addressed db req u ∧ ∃ k ∈ u.publicKeys, k.id = req.key.id)
     (.withV .deletePublicKey [req.key.id, gs! "not found"] [])] ++
  write nd fs db.path (.withE .deletePublicKey [req.key.usage]) ++ done

/-- `AddAPIKey`: `s` is the secret drawn.  Hashing is tried until it worked or failed twelve times; with a prefix in use it is
tried for ever. -/
def addAPIKey (nd : Nondet) (db : Database) (fs : FS) (req : Request) (s : GoString) : List Row :=
  let w := GoErr.withE .addAPIKey [req.key.usage]
  identity db req w ++
  [refuse ((∀ n < 12, nd.salts n = none) ∨
       ¬ PrefixUnused db (s.take 24) ∧ 12 ≤ ((List.range nd.fuel).filter fun n => (nd.salts n).isNone).length)
     (.withE .passwordGenerate [] (.ext (gs! "entropy"))),
   endsIf (¬ PrefixUnused db (s.take 24)) .hang,
   refuse (req.key.usage = []) (w (.std .apiKeyUsageEmpty)),
   refuse (req.key.usage ≠ gs! "api") (w (.withV .apiKeyUsageUnsupported [req.key.usage] [])),
   refuse (req.key.comment = []) (w (.std .apiKeyCommentEmpty))] ++
  write nd fs db.path w ++ done

/-- `DeleteAPIKey`; the last error is wrapped with the usage. -/
def deleteAPIKey (nd : Nondet) (db : Database) (fs : FS) (req : Request) : List Row :=
  identity db req (.withE .deleteAPIKey [req.key.id]) ++
  [refuse (¬ ∃ u, Addressed db req u ∧ ∃ k ∈ u.apiKeys, k.id = req.key.id)
     (.withV .deleteAPIKey [req.key.id, gs! "not found"] [])] ++
  write nd fs db.path (.withE .deleteAPIKey [req.key.usage]) ++ done

/-- `LookupAPIKey`. -/
def lookupAPIKey (db : Database) (req : Request) : List Row :=
  [refuse (req.key.payload = []) (.std .lookupAPIKeyPayloadEmpty),
   refuse (req.key.payload.length < 72) (.std .lookupAPIKeyMalformedPayload),
   refuse (¬ ∃ u ∈ db.users, ∃ k ∈ u.apiKeys, k.pfx = req.key.payload.take 24 ∧
     bcryptMatch k.payload req.key.payload = true) (.std .lookupAPIKeyFailed)] ++ done

/-- `ChangeUserPassword`. -/
def changeUserPassword (nd : Nondet) (db : Database) (fs : FS) (req : Request) : List Row :=
  let w := GoErr.withE .changeUserPassword []
  identity db req w ++
  [refuse (¬ PasswordAllowed db.policy req.user.password) (w (.std .passwordPolicyCompliance)),
   refuse (∃ u, Addressed db req u ∧ u.passwords = []) (w (.std .userPasswordNotFound)),
   refuse (¬ ∃ u, Addressed db req u ∧ ∃ p ∈ u.passwords, p.disabled = false ∧ p.expired = false ∧
     bcryptMatch p.hash req.user.oldPassword = true) (w (.std .userPasswordInvalid))] ++
  hashing nd req.user.password w ++ write nd fs db.path w ++ done

/-- Enrolling a TOTP token. -/
def enrol (nd : Nondet) (m : ReqMfaToken) (w : GoErr → GoErr) : List Row :=
  let totp := m.type = gs! "totp"
  let digits := if m.digits = 0 then 6 else m.digits
  let code := trimSpace m.passcode
  let bad := fun s => w (.withV .mfaTokenInvalidPasscode [s] [])
  [refuse (totp ∧ toLower m.algorithm ∉ [gs! "sha1", gs! "sha256", gs! "sha512", []])
     (w (.withV .mfaTokenInvalidAlgorithm [toLower m.algorithm] [])),
   refuse (totp ∧ (m.period < 30 ∨ 300 < m.period)) (w (.withV .mfaTokenInvalidPeriod [] [m.period])),
   refuse (totp ∧ (digits < 4 ∨ 8 < digits)) (w (.withV .mfaTokenInvalidDigits [] [digits])),
   refuse (totp ∧ Blank m.passcode) (bad (gs! "empty")),
   refuse (totp ∧ (code.length < 4 ∨ 8 < code.length)) (bad (gs! "not 4-8 characters long")),
   refuse (totp ∧ (code.length : Int) ≠ digits) (bad (gs! "digits length mismatch")),
   refuse (totp ∧ ¬ ∃ alg h, ReqAlg m alg ∧ AlgNamed alg h ∧ ∃ s : Nat,
       (s : Int) ∈ [nd.unix / m.period, nd.unix / m.period - 1, nd.unix / m.period - 2] ∧
       IsOtp h m.secret digits.toNat s code) (bad (gs! "failed"))]

/-- A member of a COSE key that must be the number `n`: missing, another number, or not a number at all. -/
def member (reg : (List (GoString × Json) → Prop) → Prop) (name : GoString) (n : Int) (wrong : GoErr) : List Row :=
  [refuse (reg fun pk => ∃ l, pk.lookup name = some (.num l) ∧ floatIs l n = false) wrong,
   endsIf (reg fun pk => ∃ v, pk.lookup name = some v ∧ ∀ l, v ≠ .num l) .panic]

/-- The COSE key of a registration. -/
def cose (pk : (List (GoString × Json) → Prop) → Prop) (w : GoErr → GoErr) : List Row :=
  [refuse (pk fun pk => pk.lookup (gs! "key_type") = none) (w (.std .webAuthnRegisterPublicKeyTypeNotFound))] ++
  member pk (gs! "key_type") 2 (w (.withV .webAuthnRegisterPublicKeyUnsupported [gs! "number"] [])) ++
  [refuse (pk fun pk => pk.lookup (gs! "algorithm") = none) (w (.std .webAuthnRegisterPublicKeyAlgorithmNotFound))] ++
  member pk (gs! "algorithm") (-7) (w (.withV .webAuthnRegisterPublicKeyAlgorithmUnsupported [gs! "number"] [])) ++
  member pk (gs! "curve_type") 1 (w (.withV .webAuthnRegisterPublicKeyCurveUnsupported [gs! "number"] [])) ++
  [endsIf (pk fun pk => ∃ v, pk.lookup (gs! "curve_x") = some v ∧ ∀ s, v ≠ .str s) .panic,
   endsIf (pk fun pk => ∃ v, pk.lookup (gs! "curve_y") = some v ∧ ∀ s, v ≠ .str s) .panic]

/-- Registering a U2F token. -/
def register (m : ReqMfaToken) (a : ReqWebAuthn) (w : GoErr → GoErr) : List Row :=
  let u2f := m.type = gs! "u2f"
  let known : GoString → Prop := fun tr => tr ∈ [gs! "usb", gs! "nfc", gs! "ble", gs! "internal"]
  let reg := fun P : RegisterRequest → Prop => u2f ∧ ∃ r, IsRegistration a.register r ∧ P r
  let ad := fun P : AuthData → Prop => reg fun r => ∃ ao ad, r.attestationObject = some ao ∧ ao.authData = some ad ∧ P ad
  let pk := fun P : List (GoString × Json) → Prop => ad fun ad => ∃ cd pk, ad.credentialData = some cd ∧
    cd.publicKey = some pk ∧ P pk
  [refuse (u2f ∧ a.register = []) (w (.std .webAuthnRegisterNotFound)),
   refuse (u2f ∧ a.challenge = []) (w (.std .webAuthnChallengeNotFound)),
   refuse (u2f ∧ b64Decode a.register = none) (w (.withE .webAuthnParse [] (.ext (gs! "base64")))),
   (fun o => u2f ∧ ∃ doc e, b64Decode a.register = some doc ∧
     unmarshal registerRequestFields RegisterRequest.zero doc = .err e ∧ o = .fail (w (.withE .webAuthnParse [] e))),
   refuse (reg fun r => r.id = []) (w (.std .webAuthnEmptyRegisterID)),
   refuse (reg fun r => r.type = []) (w (.std .webAuthnEmptyRegisterKeyType)),
   (fun o => reg fun r => r.type ≠ gs! "public-key" ∧ o = .fail (w (.withV .webAuthnInvalidRegisterKeyType [r.type] []))),
   (fun o => reg fun r => ∃ pre tr post, r.transports = pre ++ tr :: post ∧ (∀ t ∈ pre, known t) ∧ ¬ known tr ∧
     o = .fail (w (if tr = [] then .std .webAuthnEmptyRegisterTransport
       else .withV .webAuthnInvalidRegisterTransport [tr] []))),
   refuse (reg fun r => r.attestationObject = none) (w (.std .webAuthnRegisterAttestationObjectNotFound)),
   refuse (reg fun r => ∃ ao, r.attestationObject = some ao ∧ ao.authData = none) (w (.std .webAuthnRegisterAuthDataNotFound)),
   refuse (ad fun ad => ad.relyingPartyID = []) (w (.std .webAuthnRegisterEmptyRelyingPartyID)),
   refuse (ad fun ad => ad.flags = none) (w (.std .webAuthnRegisterEmptyFlags)),
   refuse (ad fun ad => ad.credentialData = none) (w (.std .webAuthnRegisterCredentialDataNotFound)),
   refuse (ad fun ad => ∃ cd, ad.credentialData = some cd ∧ cd.publicKey = none) (w (.std .webAuthnRegisterPublicKeyNotFound))] ++
  cose pk w

/-- `AddMfaToken`: the secret of a U2F token is its challenge. -/
def addMfaToken (nd : Nondet) (db : Database) (fs : FS) (req : Request) : List Row :=
  let w := GoErr.withE .addMfaToken []
  let m := req.mfaToken
  let secret := if m.type = gs! "u2f" then req.webAuthn.challenge else m.secret
  identity db req w ++
  [refuse (m.type = []) (w (.std .mfaTokenTypeEmpty)),
   refuse (m.type ≠ gs! "totp" ∧ m.type ≠ gs! "u2f") (w (.withV .mfaTokenInvalidType [m.type] []))] ++
  enrol nd m w ++ register m req.webAuthn w ++
  [(fun o => ∃ u pre t post, Addressed db req u ∧ u.mfaTokens = pre ++ t :: post ∧
     (∀ x ∈ pre, x.secret ≠ secret ∧ x.comment ≠ m.comment) ∧
     (t.secret = secret ∧ o = .fail (w (.std .duplicateMfaTokenSecret)) ∨
      t.secret ≠ secret ∧ t.comment = m.comment ∧ o = .fail (w (.std .duplicateMfaTokenComment))))] ++
  write nd fs db.path w ++ done

/-- `DeleteMfaToken`. -/
def deleteMfaToken (nd : Nondet) (db : Database) (fs : FS) (req : Request) : List Row :=
  identity db req (.withE .deleteMfaToken [req.mfaToken.id]) ++
  [refuse (¬ ∃ u, Addressed db req u ∧ ∃ k ∈ u.mfaTokens, k.id = req.mfaToken.id)
     (.withV .deleteMfaToken [req.mfaToken.id, gs! "not found"] [])] ++
  write nd fs db.path (.withE .deleteMfaToken [req.mfaToken.id]) ++ done

end Checks

/-- The checks of every call, in order; `s` is the secret drawn by `AddAPIKey`. -/
def Call.checks (c : Call) (nd : Nondet) (db : Database) (fs : FS) (req : Request) (s : GoString) : List Row :=
  match c with
  | .addUser => Checks.addUser nd db fs req
  | .getUsers | .getUser => Checks.identity db req (.withE .getUsers []) ++ Checks.done
  | .deleteUser => Checks.deleteUser db req
  | .authenticateUser => Checks.authenticateUser db req
  | .save => Checks.write nd fs db.path id ++ Checks.done
  | .copy fp => Checks.write nd fs fp id ++ Checks.done
  | .addPublicKey => Checks.addPublicKey nd db fs req
  | .getPublicKeys => Checks.identity db req (.withE .getPublicKeys [req.key.usage]) ++ Checks.done
  | .deletePublicKey => Checks.deletePublicKey nd db fs req
  | .addAPIKey => Checks.addAPIKey nd db fs req s
  | .deleteAPIKey => Checks.deleteAPIKey nd db fs req
  | .getAPIKeys => Checks.identity db req (.withE .getAPIKeys [req.key.usage]) ++ Checks.done
  | .changeUserPassword => Checks.changeUserPassword nd db fs req
  | .identifyUser => Checks.done
  | .lookupAPIKey => Checks.lookupAPIKey db req
  | .addMfaToken => Checks.addMfaToken nd db fs req
  | .getMfaTokens => Checks.identity db req (.withE .getMfaTokens []) ++ Checks.done
  | .deleteMfaToken => Checks.deleteMfaToken nd db fs req

end GoIdentity
