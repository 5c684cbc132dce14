import Verif.Lemmas.WebAuthn
/-!
# Why an assertion is refused

The checks of `WebAuthnRequest` in their order, and the error each of them gives.
-/
namespace GoIdentity
set_option linter.unusedSectionVars false
variable [Ext]

/-- The error of `ErrWebAuthnRequest` with one string. -/
abbrev wa (s : GoString) : GoErr := .withV .webAuthnRequest [s] []

/-- The text is not empty but for space, and is base64 of `b`. -/
def Carries (s b : GoString) : Prop := trimSpace s ≠ [] ∧ b64Decode s = some b

/-- The text is the base64 form of 32 bytes. -/
def Is32 (s : GoString) : Prop := ∃ b, b64Decode s = some b ∧ b.length = 32

/-- Why the registered parameters give no public key. -/
inductive NoKey (params : List (GoString × GoString)) : GoErr → Prop
  | noX : params.lookup (gs! "curve_xcoord") = none → NoKey params (wa (gs! "curve_xcoord not found"))
  | noY {x : GoString} : params.lookup (gs! "curve_xcoord") = some x → params.lookup (gs! "curve_ycoord") = none →
      NoKey params (wa (gs! "curve_ycoord not found"))
  | noAlgo {x y : GoString} : params.lookup (gs! "curve_xcoord") = some x → params.lookup (gs! "curve_ycoord") = some y →
      params.lookup (gs! "key_algo") = none → NoKey params (wa (gs! "key_algo not found"))
  | xText {x y a : GoString} : params.lookup (gs! "curve_xcoord") = some x → params.lookup (gs! "curve_ycoord") = some y →
      params.lookup (gs! "key_algo") = some a → b64Decode x = none →
      NoKey params (.withE .webAuthnRegisterPublicKeyCurveCoord [gs! "x"] (.ext (gs! "base64")))
  | xLength {x y a b : GoString} : params.lookup (gs! "curve_xcoord") = some x → params.lookup (gs! "curve_ycoord") = some y →
      params.lookup (gs! "key_algo") = some a → b64Decode x = some b → b.length ≠ 32 →
      NoKey params (.withV .webAuthnRegisterPublicKeyCurveCoord [gs! "x", gs! "not 32 bytes in length"] [])
  | yText {x y a : GoString} : params.lookup (gs! "curve_xcoord") = some x → params.lookup (gs! "curve_ycoord") = some y →
      params.lookup (gs! "key_algo") = some a → Is32 x → b64Decode y = none →
      NoKey params (.withE .webAuthnRegisterPublicKeyCurveCoord [gs! "y"] (.ext (gs! "base64")))
  | yLength {x y a b : GoString} : params.lookup (gs! "curve_xcoord") = some x → params.lookup (gs! "curve_ycoord") = some y →
      params.lookup (gs! "key_algo") = some a → Is32 x → b64Decode y = some b → b.length ≠ 32 →
      NoKey params (.withV .webAuthnRegisterPublicKeyCurveCoord [gs! "y", gs! "not 32 bytes in length"] [])
  | algo {x y a : GoString} : params.lookup (gs! "curve_xcoord") = some x → params.lookup (gs! "curve_ycoord") = some y →
      params.lookup (gs! "key_algo") = some a → Is32 x → Is32 y → a ≠ gs! "es256" →
      NoKey params (.withV .webAuthnRegisterPublicKeyAlgorithmUnsupported [a] [])

/-- The token can be asked: a U2F token with the credential id `id` and the P-256 key `(x, y)`. -/
def Usable (t : MfaToken) (id : GoString) (x y : Nat) : Prop :=
  t.type = gs! "u2f" ∧ t.parameters.lookup (gs! "u2f_id") = some id ∧
  t.parameters.lookup (gs! "key_type") = some (gs! "ec2") ∧ t.parameters.lookup (gs! "key_algo") = some (gs! "es256") ∧
  ∃ xs ys, t.parameters.lookup (gs! "curve_xcoord") = some xs ∧ IsCoord xs x ∧
    t.parameters.lookup (gs! "curve_ycoord") = some ys ∧ IsCoord ys y

/-- The token can be asked and the payload is a request for it. -/
def Asked (t : MfaToken) (payload : GoString) (x y : Nat) (r : AuthenticateRequest) : Prop :=
  Usable t r.id x y ∧ IsAuthRequest payload r

/-- The client data of the request: its bytes and what they say. -/
def HasClient (r : AuthenticateRequest) (bytes : GoString) (cd : ClientData) : Prop :=
  Carries r.clientDataEncoded bytes ∧ unmarshal clientDataFields ClientData.zero bytes = .ok cd

/-- The three parts of the request can be read. -/
def Parts (r : AuthenticateRequest) (cb : GoString) (cd : ClientData) (sig ab : GoString) : Prop :=
  HasClient r cb cd ∧ Carries r.signatureEncoded sig ∧ Carries r.authDataEncoded ab ∧ 37 ≤ ab.length

/-- The first 32 bytes in hexadecimal are the registered hash of the relying party. -/
def SameParty (t : MfaToken) (ab : GoString) : Prop :=
  (ab.take 32).flatMap (fun b => [hexDigit (b.toNat / 16), hexDigit (b.toNat % 16)]) =
    (t.parameters.lookup (gs! "rp_id_hash")).getD []

/-- Why `WebAuthnRequest` refuses: one case for each check, in the order of mfa_token.go:295-428; every case says that the
checks before it passed. -/
inductive Refused (t : MfaToken) (payload : GoString) : GoErr → Prop
  | tokenType : t.type ≠ gs! "u2f" → Refused t payload (wa (gs! "unsupported token type"))
  | noId : t.type = gs! "u2f" → t.parameters.lookup (gs! "u2f_id") = none → Refused t payload (wa (gs! "u2f_id not found"))
  | noKeyType {id : GoString} : t.type = gs! "u2f" → t.parameters.lookup (gs! "u2f_id") = some id →
      t.parameters.lookup (gs! "key_type") = none → Refused t payload (wa (gs! "key_type not found"))
  | keyType {id kt : GoString} : t.type = gs! "u2f" → t.parameters.lookup (gs! "u2f_id") = some id →
      t.parameters.lookup (gs! "key_type") = some kt → kt ≠ gs! "ec2" →
      Refused t payload (wa (gs! "unsupported key type"))
  | noKey {id : GoString} {e : GoErr} : t.type = gs! "u2f" → t.parameters.lookup (gs! "u2f_id") = some id →
      t.parameters.lookup (gs! "key_type") = some (gs! "ec2") → NoKey t.parameters e → Refused t payload e
  | payloadText {id : GoString} {x y : Nat} : Usable t id x y → b64Decode payload = none →
      Refused t payload (.withE .webAuthnParse [] (.ext (gs! "base64")))
  | payloadJson {id doc : GoString} {x y : Nat} {e : GoErr} : Usable t id x y → b64Decode payload = some doc →
      unmarshal authenticateRequestFields AuthenticateRequest.zero doc = .err e →
      Refused t payload (.withE .webAuthnParse [] e)
  | keyId {id : GoString} {x y : Nat} {r : AuthenticateRequest} : Usable t id x y → IsAuthRequest payload r → id ≠ r.id →
      Refused t payload (wa (gs! "key id mismatch"))
  | clientEmpty {x y : Nat} {r : AuthenticateRequest} : Asked t payload x y r → trimSpace r.clientDataEncoded = [] →
      Refused t payload (wa (gs! "encoded client data is empty"))
  | clientText {x y : Nat} {r : AuthenticateRequest} : Asked t payload x y r → trimSpace r.clientDataEncoded ≠ [] →
      b64Decode r.clientDataEncoded = none → Refused t payload (wa (gs! "failed to decode client data"))
  | clientJson {x y : Nat} {r : AuthenticateRequest} {cb : GoString} {e : GoErr} : Asked t payload x y r →
      Carries r.clientDataEncoded cb → unmarshal clientDataFields ClientData.zero cb = .err e →
      Refused t payload (.withV .webAuthnParse [gs! "failed to unmarshal client data"] [])
  | sigEmpty {x y : Nat} {r : AuthenticateRequest} {cb : GoString} {cd : ClientData} : Asked t payload x y r →
      HasClient r cb cd → trimSpace r.signatureEncoded = [] → Refused t payload (wa (gs! "encoded signature is empty"))
  | sigText {x y : Nat} {r : AuthenticateRequest} {cb : GoString} {cd : ClientData} : Asked t payload x y r →
      HasClient r cb cd → trimSpace r.signatureEncoded ≠ [] → b64Decode r.signatureEncoded = none →
      Refused t payload (wa (gs! "failed to decode signature"))
  | authEmpty {x y : Nat} {r : AuthenticateRequest} {cb sig : GoString} {cd : ClientData} : Asked t payload x y r →
      HasClient r cb cd → Carries r.signatureEncoded sig → trimSpace r.authDataEncoded = [] →
      Refused t payload (wa (gs! "encoded authenticator data is empty"))
  | authText {x y : Nat} {r : AuthenticateRequest} {cb sig : GoString} {cd : ClientData} : Asked t payload x y r →
      HasClient r cb cd → Carries r.signatureEncoded sig → trimSpace r.authDataEncoded ≠ [] →
      b64Decode r.authDataEncoded = none → Refused t payload (wa (gs! "failed to decode auth data"))
  | authShort {x y : Nat} {r : AuthenticateRequest} {cb sig ab : GoString} {cd : ClientData} : Asked t payload x y r →
      HasClient r cb cd → Carries r.signatureEncoded sig → Carries r.authDataEncoded ab → ab.length < 37 →
      Refused t payload (.withE .webAuthnRequest [] (.ext (gs! "auth data is less than 37 bytes long")))
  | clientType {x y : Nat} {r : AuthenticateRequest} {cb sig ab : GoString} {cd : ClientData} : Asked t payload x y r →
      Parts r cb cd sig ab → cd.type ≠ gs! "webauthn.get" →
      Refused t payload (wa (gs! "client data type is not webauthn.get"))
  | crossOrigin {x y : Nat} {r : AuthenticateRequest} {cb sig ab : GoString} {cd : ClientData} : Asked t payload x y r →
      Parts r cb cd sig ab → cd.type = gs! "webauthn.get" → cd.crossOrigin = true →
      Refused t payload (wa (gs! "client data cross origin true is not supported"))
  | party {x y : Nat} {r : AuthenticateRequest} {cb sig ab : GoString} {cd : ClientData} : Asked t payload x y r →
      Parts r cb cd sig ab → cd.type = gs! "webauthn.get" → cd.crossOrigin = false → ¬ SameParty t ab →
      Refused t payload (wa (gs! "rpIdHash mismatch"))
  | present {x y : Nat} {r : AuthenticateRequest} {cb sig ab : GoString} {cd : ClientData} : Asked t payload x y r →
      Parts r cb cd sig ab → cd.type = gs! "webauthn.get" → cd.crossOrigin = false → SameParty t ab →
      (ab.getD 32 0).toNat.testBit 0 = false → Refused t payload (wa (gs! "authData User Present bit is not set"))
  | signature {x y : Nat} {r : AuthenticateRequest} {cb sig ab : GoString} {cd : ClientData} : Asked t payload x y r →
      Parts r cb cd sig ab → cd.type = gs! "webauthn.get" → cd.crossOrigin = false → SameParty t ab →
      (ab.getD 32 0).toNat.testBit 0 = true → ecdsaVerify x y (ab ++ Sha.sha256 cb) sig = false →
      Refused t payload (.withE .webAuthnRequest [] (.ext (gs! "signature")))

/-- The assertion passes every check, and `resp` is the decoded request with the client data and the authenticator data
filled in and the encoded client data and signature emptied. -/
def Returned (t : MfaToken) (payload : GoString) (resp : AuthenticateRequest) : Prop :=
  ∃ x y r cb cd sig ab ad, Asked t payload x y r ∧ Parts r cb cd sig ab ∧ cd.type = gs! "webauthn.get" ∧
    cd.crossOrigin = false ∧ SameParty t ab ∧ (ab.getD 32 0).toNat.testBit 0 = true ∧
    ecdsaVerify x y (ab ++ Sha.sha256 cb) sig = true ∧ unpackAuthData ab = .ok ad ∧
    resp = { r with clientData := some cd, authData := some ad, clientDataEncoded := [], signatureEncoded := [] }

end GoIdentity
