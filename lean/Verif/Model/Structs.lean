import Verif.Model.Codec
import Verif.Model.Float64
import Verif.Model.Small
/-!
# JSON fields of every persisted struct, in declaration order, with the names of the struct tags
-/
namespace GoIdentity

/-- role.go:23-26 -/
def roleFields : List (Field Role) :=
  [ fStr (gs! "name") (·.name) (fun s v => { s with name := v }),
    fStr (gs! "organization") (·.organization) (fun s v => { s with organization := v }) ]

def Role.zero : Role := ⟨[], []⟩

/-- name.go:23-33 -/
def nameFields : List (Field Name) :=
  [ fStr (gs! "first") (·.first) (fun s v => { s with first := v }),
    fStr (gs! "last") (·.last) (fun s v => { s with last := v }),
    fStr (gs! "middle") (·.middle) (fun s v => { s with middle := v }),
    fStr (gs! "preferred") (·.preferred) (fun s v => { s with preferred := v }),
    fBool (gs! "nickname") (·.nickname) (fun s v => { s with nickname := v }),
    fBool (gs! "confirmed") (·.confirmed) (fun s v => { s with confirmed := v }),
    fBool (gs! "primary") (·.primary) (fun s v => { s with primary := v }),
    fBool (gs! "legal") (·.legal) (fun s v => { s with legal := v }),
    fBool (gs! "alias") (·.alias) (fun s v => { s with alias := v }) ]

/-- organization.go:18-22 -/
def organizationFields : List (Field Organization) :=
  [ fUint (2 ^ 64) (gs! "id") (·.id) (fun s v => { s with id := v }),
    fStr (gs! "name") (·.name) (fun s v => { s with name := v }),
    fStrs (gs! "aliases") (·.aliases) (fun s v => { s with aliases := v }) ]

def Organization.zero : Organization := ⟨0, [], []⟩

/-- location.go:18-28 -/
def locationFields : List (Field Location) :=
  [ fStr (gs! "street") (·.street) (fun s v => { s with street := v }),
    fStr (gs! "city") (·.city) (fun s v => { s with city := v }),
    fStr (gs! "state") (·.state) (fun s v => { s with state := v }),
    fStr (gs! "zip_code") (·.zipCode) (fun s v => { s with zipCode := v }),
    fBool (gs! "confirmed") (·.confirmed) (fun s v => { s with confirmed := v }),
    fBool (gs! "current") (·.current) (fun s v => { s with current := v }),
    fBool (gs! "domicile") (·.domicile) (fun s v => { s with domicile := v }),
    fBool (gs! "residential") (·.residential) (fun s v => { s with residential := v }),
    fBool (gs! "commercial") (·.commercial) (fun s v => { s with commercial := v }) ]

def Location.zero : Location := ⟨[], [], [], [], false, false, false, false, false⟩

/-- email.go:34-39; `isPrimary` is unexported and therefore neither written nor read -/
def emailFields : List (Field EmailAddress) :=
  [ fStr (gs! "address") (·.address) (fun s v => { s with address := v }),
    fBool (gs! "confirmed") (·.confirmed) (fun s v => { s with confirmed := v }),
    fStr (gs! "domain") (·.domain) (fun s v => { s with domain := v }) ]

def EmailAddress.zero : EmailAddress := ⟨[], false, [], false⟩

/-- password.go:26-36 -/
def passwordFields : List (Field Password) :=
  [ fStr (gs! "purpose") (·.purpose) (fun s v => { s with purpose := v }),
    fStr (gs! "algorithm") (·.algorithm) (fun s v => { s with algorithm := v }),
    fStr (gs! "hash") (·.hash) (fun s v => { s with hash := v }),
    fInt (gs! "cost") (·.cost) (fun s v => { s with cost := v }),
    fBool (gs! "expired") (·.expired) (fun s v => { s with expired := v }),
    fTime (gs! "expired_at") (·.expiredAt) (fun s v => { s with expiredAt := v }),
    fTime (gs! "created_at") (·.createdAt) (fun s v => { s with createdAt := v }),
    fBool (gs! "disabled") (·.disabled) (fun s v => { s with disabled := v }),
    fTime (gs! "disabled_at") (·.disabledAt) (fun s v => { s with disabledAt := v }) ]

def Password.zero : Password := ⟨[], [], [], 0, false, .zero, .zero, false, .zero⟩

/-- api_key.go:31-42 -/
def apiKeyFields : List (Field APIKey) :=
  [ fStr (gs! "id") (·.id) (fun s v => { s with id := v }),
    fStr (gs! "prefix") (·.pfx) (fun s v => { s with pfx := v }),
    fStr (gs! "usage") (·.usage) (fun s v => { s with usage := v }),
    fStr (gs! "comment") (·.comment) (fun s v => { s with comment := v }),
    fStr (gs! "payload") (·.payload) (fun s v => { s with payload := v }),
    fBool (gs! "expired") (·.expired) (fun s v => { s with expired := v }),
    fTime (gs! "expired_at") (·.expiredAt) (fun s v => { s with expiredAt := v }),
    fTime (gs! "created_at") (·.createdAt) (fun s v => { s with createdAt := v }),
    fBool (gs! "disabled") (·.disabled) (fun s v => { s with disabled := v }),
    fTime (gs! "disabled_at") (·.disabledAt) (fun s v => { s with disabledAt := v }) ]

def APIKey.zero : APIKey := ⟨[], [], [], [], [], false, .zero, .zero, false, .zero⟩

/-- public_key.go:46-61 -/
def publicKeyFields : List (Field PublicKey) :=
  [ fStr (gs! "id") (·.id) (fun s v => { s with id := v }),
    fStr (gs! "usage") (·.usage) (fun s v => { s with usage := v }),
    fStr (gs! "type") (·.type) (fun s v => { s with type := v }),
    fStr (gs! "fingerprint") (·.fingerprint) (fun s v => { s with fingerprint := v }),
    fStr (gs! "fingerprint_md5") (·.fingerprintMD5) (fun s v => { s with fingerprintMD5 := v }),
    fStr (gs! "comment") (·.comment) (fun s v => { s with comment := v }),
    fStr (gs! "payload") (·.payload) (fun s v => { s with payload := v }),
    fStr (gs! "openssh") (·.openSSH) (fun s v => { s with openSSH := v }),
    fBool (gs! "expired") (·.expired) (fun s v => { s with expired := v }),
    fTime (gs! "expired_at") (·.expiredAt) (fun s v => { s with expiredAt := v }),
    fTime (gs! "created_at") (·.createdAt) (fun s v => { s with createdAt := v }),
    fBool (gs! "disabled") (·.disabled) (fun s v => { s with disabled := v }),
    fTime (gs! "disabled_at") (·.disabledAt) (fun s v => { s with disabledAt := v }) ]

def PublicKey.zero : PublicKey :=
  ⟨[], [], [], [], [], [], [], [], false, .zero, .zero, false, .zero⟩

/-- mfa_token.go:68-72 -/
def mfaDeviceFields : List (Field MfaDevice) :=
  [ fStr (gs! "name") (·.name) (fun s v => { s with name := v }),
    fStr (gs! "vendor") (·.vendor) (fun s v => { s with vendor := v }),
    fStr (gs! "type") (·.type) (fun s v => { s with type := v }) ]

def MfaDevice.zero : MfaDevice := ⟨[], [], []⟩

/-- mfa_token.go:47-65 -/
def mfaTokenFields : List (Field MfaToken) :=
  [ fStr (gs! "id") (·.id) (fun s v => { s with id := v }),
    fStr (gs! "type") (·.type) (fun s v => { s with type := v }),
    fStr (gs! "algorithm") (·.algorithm) (fun s v => { s with algorithm := v }),
    fStr (gs! "comment") (·.comment) (fun s v => { s with comment := v }),
    fStr (gs! "secret") (·.secret) (fun s v => { s with secret := v }),
    fInt (gs! "period") (·.period) (fun s v => { s with period := v }),
    fInt (gs! "digits") (·.digits) (fun s v => { s with digits := v }),
    fBool (gs! "expired") (·.expired) (fun s v => { s with expired := v }),
    fTime (gs! "expired_at") (·.expiredAt) (fun s v => { s with expiredAt := v }),
    fTime (gs! "created_at") (·.createdAt) (fun s v => { s with createdAt := v }),
    fBool (gs! "disabled") (·.disabled) (fun s v => { s with disabled := v }),
    fTime (gs! "disabled_at") (·.disabledAt) (fun s v => { s with disabledAt := v }),
    fPtr (gs! "device") mfaDeviceFields MfaDevice.zero (·.device) (fun s v => { s with device := v }),
    fMap (gs! "parameters") Json.str elemStr (·.parameters) (fun s v => { s with parameters := v }),
    fMap (gs! "flags") Json.bool elemBool (·.flags) (fun s v => { s with flags := v }),
    fUint (2 ^ 32) (gs! "signature_counter") (·.signatureCounter) (fun s v => { s with signatureCounter := v }) ]

def MfaToken.zero : MfaToken :=
  ⟨[], [], [], [], [], 0, 0, false, .zero, .zero, false, .zero, none, [], [], 0⟩

/-- lockout.go:24-28 -/
def lockoutFields : List (Field LockoutState) :=
  [ fBool (gs! "enabled") (·.enabled) (fun s v => { s with enabled := v }),
    fTime (gs! "start_time") (·.startTime) (fun s v => { s with startTime := v }),
    fTime (gs! "end_time") (·.endTime) (fun s v => { s with endTime := v }) ]

def LockoutState.zero : LockoutState := ⟨false, .zero, .zero⟩

/-- Go's `image.Config{ColorModel, Width, Height}` without tags: the nil interface is written as null; only null can be
decoded into it. -/
def imageConfigFields : List (Field Image) :=
  [ { name := gs! "ColorModel"
      enc := fun _ => some .null
      dec := fun j s => match j with | .null => .ok s | _ => typeErr },
    fIntAlways (gs! "Width") (·.width) (fun s v => { s with width := v }),
    fIntAlways (gs! "Height") (·.height) (fun s v => { s with height := v }) ]

/-- image.go:22-28 -/
def imageFields : List (Field Image) :=
  [ fStr (gs! "title") (·.title) (fun s v => { s with title := v }),
    fStr (gs! "body") (·.body) (fun s v => { s with body := v }),
    fStruct (gs! "config") imageConfigFields (fun s => s) (fun _ v => v),
    fStr (gs! "path") (·.path) (fun s v => { s with path := v }) ]

def Image.zero : Image := ⟨[], [], 0, 0, []⟩

/-- user.go:45-68 -/
def userFields : List (Field User) :=
  [ fStr (gs! "id") (·.id) (fun s v => { s with id := v }),
    fBool (gs! "enabled") (·.enabled) (fun s v => { s with enabled := v }),
    fBool (gs! "human") (·.human) (fun s v => { s with human := v }),
    fStr (gs! "username") (·.username) (fun s v => { s with username := v }),
    fStr (gs! "title") (·.title) (fun s v => { s with title := v }),
    fPtr (gs! "name") nameFields Name.zero (·.name) (fun s v => { s with name := v }),
    fPtr (gs! "organization") organizationFields Organization.zero (·.organization)
      (fun s v => { s with organization := v }),
    fList (gs! "names") nameFields Name.zero (·.names) (fun s v => { s with names := v }),
    fList (gs! "organizations") organizationFields Organization.zero (·.organizations)
      (fun s v => { s with organizations := v }),
    fList (gs! "street_address") locationFields Location.zero (·.streetAddress)
      (fun s v => { s with streetAddress := v }),
    fPtr (gs! "email_address") emailFields EmailAddress.zero (·.emailAddress)
      (fun s v => { s with emailAddress := v }),
    fList (gs! "email_addresses") emailFields EmailAddress.zero (·.emailAddresses)
      (fun s v => { s with emailAddresses := v }),
    fList (gs! "passwords") passwordFields Password.zero (·.passwords) (fun s v => { s with passwords := v }),
    fList (gs! "public_keys") publicKeyFields PublicKey.zero (·.publicKeys) (fun s v => { s with publicKeys := v }),
    fList (gs! "api_keys") apiKeyFields APIKey.zero (·.apiKeys) (fun s v => { s with apiKeys := v }),
    fList (gs! "mfa_tokens") mfaTokenFields MfaToken.zero (·.mfaTokens) (fun s v => { s with mfaTokens := v }),
    fPtr (gs! "lockout") lockoutFields LockoutState.zero (·.lockout) (fun s v => { s with lockout := v }),
    fPtr (gs! "avatar") imageFields Image.zero (·.avatar) (fun s v => { s with avatar := v }),
    fTime (gs! "created") (·.created) (fun s v => { s with created := v }),
    fTime (gs! "last_modified") (·.lastModified) (fun s v => { s with lastModified := v }),
    fInt (gs! "revision") (·.revision) (fun s v => { s with revision := v }),
    fList (gs! "roles") roleFields Role.zero (·.roles) (fun s v => { s with roles := v }) ]

def User.zero : User :=
  { id := [], enabled := false, human := false, username := [], title := [], name := none, organization := none,
    names := [], organizations := [], streetAddress := [], emailAddress := none, emailAddresses := [],
    passwords := [], publicKeys := [], apiKeys := [], mfaTokens := [], lockout := none, avatar := none,
    created := .zero, lastModified := .zero, revision := 0, roles := [] }

/-- database.go:78-88 -/
def passwordPolicyFields : List (Field PasswordPolicy) :=
  [ fIntAlways (gs! "keep_versions") (·.keepVersions) (fun s v => { s with keepVersions := v }),
    fIntAlways (gs! "min_length") (·.minLength) (fun s v => { s with minLength := v }),
    fIntAlways (gs! "max_length") (·.maxLength) (fun s v => { s with maxLength := v }),
    fBoolAlways (gs! "require_uppercase") (·.requireUppercase) (fun s v => { s with requireUppercase := v }),
    fBoolAlways (gs! "require_lowercase") (·.requireLowercase) (fun s v => { s with requireLowercase := v }),
    fBoolAlways (gs! "require_number") (·.requireNumber) (fun s v => { s with requireNumber := v }),
    fBoolAlways (gs! "require_non_alpha_numeric") (·.requireNonAlphaNumeric)
      (fun s v => { s with requireNonAlphaNumeric := v }),
    fBoolAlways (gs! "block_reuse") (·.blockReuse) (fun s v => { s with blockReuse := v }),
    fBoolAlways (gs! "block_password_change") (·.blockPasswordChange)
      (fun s v => { s with blockPasswordChange := v }) ]

/-- database.go:91-96 -/
def userPolicyFields : List (Field UserPolicy) :=
  [ fIntAlways (gs! "min_length") (·.minLength) (fun s v => { s with minLength := v }),
    fIntAlways (gs! "max_length") (·.maxLength) (fun s v => { s with maxLength := v }),
    fBoolAlways (gs! "allow_non_alpha_numeric") (·.allowNonAlphaNumeric)
      (fun s v => { s with allowNonAlphaNumeric := v }),
    fBoolAlways (gs! "allow_uppercase") (·.allowUppercase) (fun s v => { s with allowUppercase := v }) ]

/-- database.go:72-75 -/
def policyFields : List (Field Policy) :=
  [ fStruct (gs! "password") passwordPolicyFields (·.password) (fun s v => { s with password := v }),
    fStruct (gs! "user") userPolicyFields (·.user) (fun s v => { s with user := v }) ]

def Policy.zero : Policy :=
  ⟨⟨0, 0, 0, false, false, false, false, false, false⟩, ⟨0, 0, false, false⟩⟩

/-- database.go:99-105 -/
def dbFields : List (Field DBData) :=
  [ fStr (gs! "version") (·.version) (fun s v => { s with version := v }),
    fStruct (gs! "policy") policyFields (·.policy) (fun s v => { s with policy := v }),
    fUint (2 ^ 64) (gs! "revision") (·.revision) (fun s v => { s with revision := v }),
    fTime (gs! "last_modified") (·.lastModified) (fun s v => { s with lastModified := v }),
    fList (gs! "users") userFields User.zero (·.users) (fun s v => { s with users := v }) ]

def DBData.zero : DBData := ⟨[], .zero, 0, .zero, []⟩

/-- `json.MarshalIndent(db, "", "  ")` (database.go:458). -/
def marshalDB (d : DBData) : GoString := render 0 (encStruct dbFields d)

/-- `json.Unmarshal(b, db)` into a zero database (database.go:144). -/
def unmarshalDB (b : GoString) : Res DBData :=
  match parseDoc b with
  | none => .err (.ext (gs! "json"))
  | some j => decStruct dbFields j DBData.zero

/-! ## WebAuthn documents (webauthn.go) -/

/-- webauthn.go:92-97 -/
structure ClientData where
  challenge : GoString
  crossOrigin : Bool
  origin : GoString
  type : GoString
  deriving DecidableEq, Repr

def ClientData.zero : ClientData := ⟨[], false, [], []⟩

def clientDataFields : List (Field ClientData) :=
  [ fStr (gs! "challenge") (·.challenge) (fun s v => { s with challenge := v }),
    fBool (gs! "crossOrigin") (·.crossOrigin) (fun s v => { s with crossOrigin := v }),
    fStr (gs! "origin") (·.origin) (fun s v => { s with origin := v }),
    fStr (gs! "type") (·.type) (fun s v => { s with type := v }) ]

/-- Map that distinguishes nil from empty; only decoded in /repo. -/
def fOptMap {σ α : Type} (name : GoString) (encElem : α → Json) (elem : Json → Res α)
    (get : σ → Option (List (GoString × α))) (set : σ → Option (List (GoString × α)) → σ) : Field σ where
  name := name
  enc x := match get x with
    | some (kv :: m) => some (.obj ((kv :: m).map fun kv => (kv.1, encElem kv.2)))
    | _ => none
  dec j s :=
    match j with
    | .null => .ok (set s none)
    | .obj m =>
      (match decMap elem m ((get s).getD []) with
       | .ok v => .ok (set s (some v))
       | .err e => .err e
       | .panic => .panic)
    | _ => typeErr

/-- An `interface{}`: any value whose numbers are in the range of float64. -/
def elemAny (j : Json) : Res Json := if j.floatsOk then .ok j else typeErr

/-- `interface{}`. -/
def fAny {σ : Type} (name : GoString) (get : σ → Json) (set : σ → Json → σ) : Field σ where
  name := name
  enc x := match get x with | .null => none | j => some j
  dec j s := match elemAny j with | .ok j => .ok (set s j) | .err e => .err e | .panic => .panic

/-- webauthn.go:80-87 -/
structure CredentialData where
  aaguid : GoString
  credentialID : GoString
  publicKey : Option (List (GoString × Json))

def CredentialData.zero : CredentialData := ⟨[], [], none⟩

def credentialDataFields : List (Field CredentialData) :=
  [ fStr (gs! "aaguid") (·.aaguid) (fun s v => { s with aaguid := v }),
    fStr (gs! "credentialId") (·.credentialID) (fun s v => { s with credentialID := v }),
    fOptMap (gs! "publicKey") id elemAny (·.publicKey) (fun s v => { s with publicKey := v }) ]

/-- webauthn.go:69-75 -/
structure AuthData where
  relyingPartyID : GoString
  flags : Option (List (GoString × Bool))
  signatureCounter : Nat
  extensions : Json
  credentialData : Option CredentialData

def AuthData.zero : AuthData := ⟨[], none, 0, .null, none⟩

def authDataFields : List (Field AuthData) :=
  [ fStr (gs! "rpIdHash") (·.relyingPartyID) (fun s v => { s with relyingPartyID := v }),
    fOptMap (gs! "flags") Json.bool elemBool (·.flags) (fun s v => { s with flags := v }),
    fUint (2 ^ 32) (gs! "signatureCounter") (·.signatureCounter) (fun s v => { s with signatureCounter := v }),
    fAny (gs! "extensions") (·.extensions) (fun s v => { s with extensions := v }),
    fPtr (gs! "credentialData") credentialDataFields CredentialData.zero (·.credentialData)
      (fun s v => { s with credentialData := v }) ]

/-- webauthn.go:57-66 -/
structure AttestationStatement where
  algorithm : Int
  signature : GoString
  certificates : List GoString

def AttestationStatement.zero : AttestationStatement := ⟨0, [], []⟩

def attestationStatementFields : List (Field AttestationStatement) :=
  [ fInt (gs! "alg") (·.algorithm) (fun s v => { s with algorithm := v }),
    fStr (gs! "sig") (·.signature) (fun s v => { s with signature := v }),
    fStrs (gs! "x5c") (·.certificates) (fun s v => { s with certificates := v }) ]

/-- webauthn.go:50-54 -/
structure AttestationObject where
  attestationStatement : Option AttestationStatement
  authData : Option AuthData
  format : GoString

def AttestationObject.zero : AttestationObject := ⟨none, none, []⟩

def attestationObjectFields : List (Field AttestationObject) :=
  [ fPtr (gs! "attStmt") attestationStatementFields AttestationStatement.zero (·.attestationStatement)
      (fun s v => { s with attestationStatement := v }),
    fPtr (gs! "authData") authDataFields AuthData.zero (·.authData) (fun s v => { s with authData := v }),
    fStr (gs! "fmt") (·.format) (fun s v => { s with format := v }) ]

/-- webauthn.go:101-104 -/
structure Device where
  name : GoString
  type : GoString

def Device.zero : Device := ⟨[], []⟩

def deviceFields : List (Field Device) :=
  [ fStr (gs! "name") (·.name) (fun s v => { s with name := v }),
    fStr (gs! "type") (·.type) (fun s v => { s with type := v }) ]

/-- webauthn.go:39-47 -/
structure RegisterRequest where
  id : GoString
  type : GoString
  transports : List GoString
  success : Bool
  attestationObject : Option AttestationObject
  clientData : Option ClientData
  device : Option Device

def RegisterRequest.zero : RegisterRequest := ⟨[], [], [], false, none, none, none⟩

def registerRequestFields : List (Field RegisterRequest) :=
  [ fStr (gs! "id") (·.id) (fun s v => { s with id := v }),
    fStr (gs! "type") (·.type) (fun s v => { s with type := v }),
    fStrs (gs! "transports") (·.transports) (fun s v => { s with transports := v }),
    fBool (gs! "success") (·.success) (fun s v => { s with success := v }),
    fPtr (gs! "attestationObject") attestationObjectFields AttestationObject.zero (·.attestationObject)
      (fun s v => { s with attestationObject := v }),
    fPtr (gs! "clientData") clientDataFields ClientData.zero (·.clientData) (fun s v => { s with clientData := v }),
    fPtr (gs! "device") deviceFields Device.zero (·.device) (fun s v => { s with device := v }) ]

/-- webauthn.go:24-36; the three raw byte fields are not read anywhere and are left out. -/
structure AuthenticateRequest where
  id : GoString
  type : GoString
  authData : Option AuthData
  authDataEncoded : GoString
  clientData : Option ClientData
  clientDataEncoded : GoString
  signature : GoString
  signatureEncoded : GoString

def AuthenticateRequest.zero : AuthenticateRequest := ⟨[], [], none, [], none, [], [], []⟩

def authenticateRequestFields : List (Field AuthenticateRequest) :=
  [ fStr (gs! "id") (·.id) (fun s v => { s with id := v }),
    fStr (gs! "type") (·.type) (fun s v => { s with type := v }),
    fPtr (gs! "auth_data") authDataFields AuthData.zero (·.authData) (fun s v => { s with authData := v }),
    fStr (gs! "auth_data_encoded") (·.authDataEncoded) (fun s v => { s with authDataEncoded := v }),
    fPtr (gs! "client_data") clientDataFields ClientData.zero (·.clientData) (fun s v => { s with clientData := v }),
    fStr (gs! "client_data_encoded") (·.clientDataEncoded) (fun s v => { s with clientDataEncoded := v }),
    fStr (gs! "signature") (·.signature) (fun s v => { s with signature := v }),
    fStr (gs! "signature_encoded") (·.signatureEncoded) (fun s v => { s with signatureEncoded := v }) ]

/-- `json.Unmarshal(b, v)` into a zero value of a struct. -/
def unmarshal {σ : Type} (fs : List (Field σ)) (zero : σ) (b : GoString) : Res σ :=
  match parseDoc b with
  | none => .err (.ext (gs! "json"))
  | some j => decStruct fs j zero

end GoIdentity
