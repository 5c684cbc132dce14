import Verif.Model.Structs
import Verif.Spec.Base64
import Verif.Spec.WellFormed
import Mathlib.Data.List.Forall2
/-!
# What a JSON document says about a record

A member of an object concerns the field of the record that its name spells.  The members are taken in their order; each of
them leads from one value of the field to the next one.
-/
namespace GoIdentity

/-- Two bytes that differ at most in being the small and the capital form of one of the letters A to Z. -/
def SameLetter (a b : UInt8) : Prop :=
  a = b ∨ (65 ≤ a.toNat ∧ a.toNat ≤ 90 ∧ b.toNat = a.toNat + 32) ∨ (65 ≤ b.toNat ∧ b.toNat ≤ 90 ∧ a.toNat = b.toNat + 32)

/-- A text is a spelling of a name: the letters may be small or capital, the long s may stand for an s and the Kelvin sign
for a k. -/
inductive Spelled : GoString → GoString → Prop
  | nil : Spelled [] []
  | letter {a b : UInt8} {k n : GoString} : SameLetter a b → Spelled k n → Spelled (a :: k) (b :: n)
  | longS {b : UInt8} {k n : GoString} : SameLetter b 115 → Spelled k n → Spelled (0xC5 :: 0xBF :: k) (b :: n)
  | kelvin {b : UInt8} {k n : GoString} : SameLetter b 107 → Spelled k n → Spelled (0xE2 :: 0x84 :: 0xAA :: k) (b :: n)

abbrev Members := List (GoString × Json)

/-- The members of the object that spell `name` lead the field's value, one after the other, from `v` to `w`. -/
inductive Into {α : Type} (name : GoString) (step : Json → α → α → Prop) : List (GoString × Json) → α → α → Prop
  | nil (v : α) : Into name step [] v v
  | other {k : GoString} {j : Json} {m : List (GoString × Json)} {v w : α} :
      ¬ Spelled k name → Into name step m v w → Into name step ((k, j) :: m) v w
  | take {k : GoString} {j : Json} {m : List (GoString × Json)} {v u w : α} :
      Spelled k name → step j v u → Into name step m u w → Into name step ((k, j) :: m) v w

/-! ## Values -/

/-- A text of decimal digits, at least one, and the number it stands for. -/
def Digits (s : GoString) (n : Nat) : Prop :=
  s ≠ [] ∧ (∀ b ∈ s, 48 ≤ b.toNat ∧ b.toNat ≤ 57) ∧ n = number 10 (s.map fun b => b.toNat - 48)

/-- A text for a 64-bit integer. -/
def IntText (l : GoString) (v : Int) : Prop :=
  (∃ n, Digits l n ∧ n < 2 ^ 63 ∧ v = n) ∨ (∃ t n, l = 45 :: t ∧ Digits t n ∧ n ≤ 2 ^ 63 ∧ v = -(n : Int))

/-- A point and at least one digit: a part of a second, cut at nanoseconds.  Nothing at all stands for zero. -/
def FractionText (s : GoString) (nano : Nat) : Prop :=
  (s = [] ∧ nano = 0) ∨ ∃ ds n, s = 46 :: ds ∧ Digits ds n ∧ nano = n * 10 ^ 9 / 10 ^ ds.length

/-- Two digits that stand for `n`. -/
def Two (s : GoString) (n : Nat) : Prop := s.length = 2 ∧ Digits s n

/-- `Z`, or the offset from universal time in hours and minutes. -/
def ZoneText (s : GoString) (off : Int) : Prop :=
  (s = [90] ∧ off = 0) ∨
  ∃ sign hs ms h m, s = sign :: (hs ++ 58 :: ms) ∧ Two hs h ∧ Two ms m ∧ h < 24 ∧ m < 60 ∧
    ((sign = 43 ∧ off = (h * 60 + m : Nat)) ∨ (sign = 45 ∧ off = -((h * 60 + m : Nat) : Int)))

/-- A point in time as in RFC 3339. -/
def TimeText (s : GoString) (t : GoTime) : Prop :=
  ∃ ys mos ds hs mis ses fr zone,
    s = ys ++ 45 :: (mos ++ 45 :: (ds ++ 84 :: (hs ++ 58 :: (mis ++ 58 :: (ses ++ (fr ++ zone)))))) ∧
    ys.length = 4 ∧ Digits ys t.year ∧ Two mos t.month ∧ Two ds t.day ∧ Two hs t.hour ∧ Two mis t.min ∧ Two ses t.sec ∧
    FractionText fr t.nano ∧ ZoneText zone t.off ∧ t.Ok

/-! ## What one value does to a field -/

def TextStep (j : Json) (v w : GoString) : Prop := (j = .null ∧ w = v) ∨ j = .str w

def BoolStep (j : Json) (v w : Bool) : Prop := (j = .null ∧ w = v) ∨ j = .bool w

def IntStep (j : Json) (v w : Int) : Prop := (j = .null ∧ w = v) ∨ ∃ l, j = .num l ∧ IntText l w

def NatStep (bound : Nat) (j : Json) (v w : Nat) : Prop := (j = .null ∧ w = v) ∨ ∃ l, j = .num l ∧ Digits l w ∧ w < bound

def TimeStep (j : Json) (v w : GoTime) : Prop := (j = .null ∧ w = v) ∨ ∃ s, j = .str s ∧ TimeText s w

/-- A record inside a record: the members of the object change it. -/
def PartStep {τ : Type} (R : List (GoString × Json) → τ → τ → Prop) (j : Json) (v w : τ) : Prop :=
  (j = .null ∧ w = v) ∨ ∃ m, j = .obj m ∧ R m v w

/-- An optional record: `null` takes it away, an object changes it or makes one from scratch. -/
def OptStep {τ : Type} (R : List (GoString × Json) → τ → τ → Prop) (zero : τ) (j : Json) (v w : Option τ) : Prop :=
  (j = .null ∧ w = none) ∨ ∃ m u, j = .obj m ∧ R m (v.getD zero) u ∧ w = some u

/-- A list of records: each object of the array makes one from scratch. -/
def ListStep {τ : Type} (R : List (GoString × Json) → τ → τ → Prop) (zero : τ) (j : Json) (_ w : List τ) : Prop :=
  (j = .null ∧ w = []) ∨ ∃ js, j = .arr js ∧ List.Forall₂ (fun e x => ∃ m, e = .obj m ∧ R m zero x) js w

def TextsStep (j : Json) (_ w : List GoString) : Prop :=
  (j = .null ∧ w = []) ∨ ∃ js, j = .arr js ∧ List.Forall₂ (fun e x => e = .str x ∨ (e = .null ∧ x = [])) js w

/-- The members of an object are put into a map one after the other. -/
inductive Puts {α : Type} (E : Json → α → Prop) : List (GoString × Json) → List (GoString × α) → List (GoString × α) → Prop
  | nil (v : List (GoString × α)) : Puts E [] v v
  | cons {k : GoString} {j : Json} {m : List (GoString × Json)} {a : α} {v w : List (GoString × α)} :
      E j a → Puts E m (mapInsert k a v) w → Puts E ((k, j) :: m) v w

def MapStep {α : Type} (E : Json → α → Prop) (j : Json) (v w : List (GoString × α)) : Prop :=
  (j = .null ∧ w = []) ∨ ∃ m, j = .obj m ∧ Puts E m v w

def OptMapStep {α : Type} (E : Json → α → Prop) (j : Json) (v w : Option (List (GoString × α))) : Prop :=
  (j = .null ∧ w = none) ∨ ∃ m u, j = .obj m ∧ Puts E m (v.getD []) u ∧ w = some u

def TextElem (j : Json) (a : GoString) : Prop := TextStep j [] a

def BoolElem (j : Json) (a : Bool) : Prop := BoolStep j false a

/-- A member about this field that is not null. -/
def Concerns (name : GoString) (kj : GoString × Json) : Prop := Spelled kj.1 name ∧ kj.2 ≠ .null

/-- A step under which `null` changes nothing and a value forgets what was before. -/
def Overwrites {α : Type} (step : Json → α → α → Prop) : Prop :=
  (∀ v w, step .null v w ↔ w = v) ∧ ∀ j v v' w, j ≠ .null → step j v w → step j v' w

/-! ## The records of the database -/

def Role.Says (m : Members) (s r : Role) : Prop :=
  Into (gs! "name") TextStep m s.name r.name ∧
  Into (gs! "organization") TextStep m s.organization r.organization

def Name.Says (m : Members) (s r : Name) : Prop :=
  Into (gs! "first") TextStep m s.first r.first ∧
  Into (gs! "last") TextStep m s.last r.last ∧
  Into (gs! "middle") TextStep m s.middle r.middle ∧
  Into (gs! "preferred") TextStep m s.preferred r.preferred ∧
  Into (gs! "nickname") BoolStep m s.nickname r.nickname ∧
  Into (gs! "confirmed") BoolStep m s.confirmed r.confirmed ∧
  Into (gs! "primary") BoolStep m s.primary r.primary ∧
  Into (gs! "legal") BoolStep m s.legal r.legal ∧
  Into (gs! "alias") BoolStep m s.alias r.alias

def Organization.Says (m : Members) (s r : Organization) : Prop :=
  Into (gs! "id") (NatStep (2 ^ 64)) m s.id r.id ∧
  Into (gs! "name") TextStep m s.name r.name ∧
  Into (gs! "aliases") TextsStep m s.aliases r.aliases

def Location.Says (m : Members) (s r : Location) : Prop :=
  Into (gs! "street") TextStep m s.street r.street ∧
  Into (gs! "city") TextStep m s.city r.city ∧
  Into (gs! "state") TextStep m s.state r.state ∧
  Into (gs! "zip_code") TextStep m s.zipCode r.zipCode ∧
  Into (gs! "confirmed") BoolStep m s.confirmed r.confirmed ∧
  Into (gs! "current") BoolStep m s.current r.current ∧
  Into (gs! "domicile") BoolStep m s.domicile r.domicile ∧
  Into (gs! "residential") BoolStep m s.residential r.residential ∧
  Into (gs! "commercial") BoolStep m s.commercial r.commercial

/-- No member sets the mark of the primary address. -/
def EmailAddress.Says (m : Members) (s r : EmailAddress) : Prop :=
  Into (gs! "address") TextStep m s.address r.address ∧
  Into (gs! "confirmed") BoolStep m s.confirmed r.confirmed ∧
  Into (gs! "domain") TextStep m s.domain r.domain ∧
  r.isPrimary = s.isPrimary

def Password.Says (m : Members) (s r : Password) : Prop :=
  Into (gs! "purpose") TextStep m s.purpose r.purpose ∧
  Into (gs! "algorithm") TextStep m s.algorithm r.algorithm ∧
  Into (gs! "hash") TextStep m s.hash r.hash ∧
  Into (gs! "cost") IntStep m s.cost r.cost ∧
  Into (gs! "expired") BoolStep m s.expired r.expired ∧
  Into (gs! "expired_at") TimeStep m s.expiredAt r.expiredAt ∧
  Into (gs! "created_at") TimeStep m s.createdAt r.createdAt ∧
  Into (gs! "disabled") BoolStep m s.disabled r.disabled ∧
  Into (gs! "disabled_at") TimeStep m s.disabledAt r.disabledAt

def APIKey.Says (m : Members) (s r : APIKey) : Prop :=
  Into (gs! "id") TextStep m s.id r.id ∧
  Into (gs! "prefix") TextStep m s.pfx r.pfx ∧
  Into (gs! "usage") TextStep m s.usage r.usage ∧
  Into (gs! "comment") TextStep m s.comment r.comment ∧
  Into (gs! "payload") TextStep m s.payload r.payload ∧
  Into (gs! "expired") BoolStep m s.expired r.expired ∧
  Into (gs! "expired_at") TimeStep m s.expiredAt r.expiredAt ∧
  Into (gs! "created_at") TimeStep m s.createdAt r.createdAt ∧
  Into (gs! "disabled") BoolStep m s.disabled r.disabled ∧
  Into (gs! "disabled_at") TimeStep m s.disabledAt r.disabledAt

def PublicKey.Says (m : Members) (s r : PublicKey) : Prop :=
  Into (gs! "id") TextStep m s.id r.id ∧
  Into (gs! "usage") TextStep m s.usage r.usage ∧
  Into (gs! "type") TextStep m s.type r.type ∧
  Into (gs! "fingerprint") TextStep m s.fingerprint r.fingerprint ∧
  Into (gs! "fingerprint_md5") TextStep m s.fingerprintMD5 r.fingerprintMD5 ∧
  Into (gs! "comment") TextStep m s.comment r.comment ∧
  Into (gs! "payload") TextStep m s.payload r.payload ∧
  Into (gs! "openssh") TextStep m s.openSSH r.openSSH ∧
  Into (gs! "expired") BoolStep m s.expired r.expired ∧
  Into (gs! "expired_at") TimeStep m s.expiredAt r.expiredAt ∧
  Into (gs! "created_at") TimeStep m s.createdAt r.createdAt ∧
  Into (gs! "disabled") BoolStep m s.disabled r.disabled ∧
  Into (gs! "disabled_at") TimeStep m s.disabledAt r.disabledAt

def MfaDevice.Says (m : Members) (s r : MfaDevice) : Prop :=
  Into (gs! "name") TextStep m s.name r.name ∧
  Into (gs! "vendor") TextStep m s.vendor r.vendor ∧
  Into (gs! "type") TextStep m s.type r.type

def MfaToken.Says (m : Members) (s r : MfaToken) : Prop :=
  Into (gs! "id") TextStep m s.id r.id ∧
  Into (gs! "type") TextStep m s.type r.type ∧
  Into (gs! "algorithm") TextStep m s.algorithm r.algorithm ∧
  Into (gs! "comment") TextStep m s.comment r.comment ∧
  Into (gs! "secret") TextStep m s.secret r.secret ∧
  Into (gs! "period") IntStep m s.period r.period ∧
  Into (gs! "digits") IntStep m s.digits r.digits ∧
  Into (gs! "expired") BoolStep m s.expired r.expired ∧
  Into (gs! "expired_at") TimeStep m s.expiredAt r.expiredAt ∧
  Into (gs! "created_at") TimeStep m s.createdAt r.createdAt ∧
  Into (gs! "disabled") BoolStep m s.disabled r.disabled ∧
  Into (gs! "disabled_at") TimeStep m s.disabledAt r.disabledAt ∧
  Into (gs! "device") (OptStep MfaDevice.Says MfaDevice.zero) m s.device r.device ∧
  Into (gs! "parameters") (MapStep TextElem) m s.parameters r.parameters ∧
  Into (gs! "flags") (MapStep BoolElem) m s.flags r.flags ∧
  Into (gs! "signature_counter") (NatStep (2 ^ 32)) m s.signatureCounter r.signatureCounter

def LockoutState.Says (m : Members) (s r : LockoutState) : Prop :=
  Into (gs! "enabled") BoolStep m s.enabled r.enabled ∧
  Into (gs! "start_time") TimeStep m s.startTime r.startTime ∧
  Into (gs! "end_time") TimeStep m s.endTime r.endTime

/-- The size of a picture; its color model can only be null. -/
def SizeSays (m : Members) (s r : Int × Int) : Prop :=
  Into (gs! "ColorModel") (fun j _ _ => j = .null) m () () ∧
  Into (gs! "Width") IntStep m s.1 r.1 ∧
  Into (gs! "Height") IntStep m s.2 r.2

def Image.Says (m : Members) (s r : Image) : Prop :=
  Into (gs! "title") TextStep m s.title r.title ∧
  Into (gs! "body") TextStep m s.body r.body ∧
  Into (gs! "config") (PartStep SizeSays) m (s.width, s.height) (r.width, r.height) ∧
  Into (gs! "path") TextStep m s.path r.path

def User.Says (m : Members) (s r : User) : Prop :=
  Into (gs! "id") TextStep m s.id r.id ∧
  Into (gs! "enabled") BoolStep m s.enabled r.enabled ∧
  Into (gs! "human") BoolStep m s.human r.human ∧
  Into (gs! "username") TextStep m s.username r.username ∧
  Into (gs! "title") TextStep m s.title r.title ∧
  Into (gs! "name") (OptStep Name.Says Name.zero) m s.name r.name ∧
  Into (gs! "organization") (OptStep Organization.Says Organization.zero) m s.organization r.organization ∧
  Into (gs! "names") (ListStep Name.Says Name.zero) m s.names r.names ∧
  Into (gs! "organizations") (ListStep Organization.Says Organization.zero) m s.organizations r.organizations ∧
  Into (gs! "street_address") (ListStep Location.Says Location.zero) m s.streetAddress r.streetAddress ∧
  Into (gs! "email_address") (OptStep EmailAddress.Says EmailAddress.zero) m s.emailAddress r.emailAddress ∧
  Into (gs! "email_addresses") (ListStep EmailAddress.Says EmailAddress.zero) m s.emailAddresses r.emailAddresses ∧
  Into (gs! "passwords") (ListStep Password.Says Password.zero) m s.passwords r.passwords ∧
  Into (gs! "public_keys") (ListStep PublicKey.Says PublicKey.zero) m s.publicKeys r.publicKeys ∧
  Into (gs! "api_keys") (ListStep APIKey.Says APIKey.zero) m s.apiKeys r.apiKeys ∧
  Into (gs! "mfa_tokens") (ListStep MfaToken.Says MfaToken.zero) m s.mfaTokens r.mfaTokens ∧
  Into (gs! "lockout") (OptStep LockoutState.Says LockoutState.zero) m s.lockout r.lockout ∧
  Into (gs! "avatar") (OptStep Image.Says Image.zero) m s.avatar r.avatar ∧
  Into (gs! "created") TimeStep m s.created r.created ∧
  Into (gs! "last_modified") TimeStep m s.lastModified r.lastModified ∧
  Into (gs! "revision") IntStep m s.revision r.revision ∧
  Into (gs! "roles") (ListStep Role.Says Role.zero) m s.roles r.roles

def PasswordPolicy.Says (m : Members) (s r : PasswordPolicy) : Prop :=
  Into (gs! "keep_versions") IntStep m s.keepVersions r.keepVersions ∧
  Into (gs! "min_length") IntStep m s.minLength r.minLength ∧
  Into (gs! "max_length") IntStep m s.maxLength r.maxLength ∧
  Into (gs! "require_uppercase") BoolStep m s.requireUppercase r.requireUppercase ∧
  Into (gs! "require_lowercase") BoolStep m s.requireLowercase r.requireLowercase ∧
  Into (gs! "require_number") BoolStep m s.requireNumber r.requireNumber ∧
  Into (gs! "require_non_alpha_numeric") BoolStep m s.requireNonAlphaNumeric r.requireNonAlphaNumeric ∧
  Into (gs! "block_reuse") BoolStep m s.blockReuse r.blockReuse ∧
  Into (gs! "block_password_change") BoolStep m s.blockPasswordChange r.blockPasswordChange

def UserPolicy.Says (m : Members) (s r : UserPolicy) : Prop :=
  Into (gs! "min_length") IntStep m s.minLength r.minLength ∧
  Into (gs! "max_length") IntStep m s.maxLength r.maxLength ∧
  Into (gs! "allow_non_alpha_numeric") BoolStep m s.allowNonAlphaNumeric r.allowNonAlphaNumeric ∧
  Into (gs! "allow_uppercase") BoolStep m s.allowUppercase r.allowUppercase

def Policy.Says (m : Members) (s r : Policy) : Prop :=
  Into (gs! "password") (PartStep PasswordPolicy.Says) m s.password r.password ∧
  Into (gs! "user") (PartStep UserPolicy.Says) m s.user r.user

def DBData.Says (m : Members) (s r : DBData) : Prop :=
  Into (gs! "version") TextStep m s.version r.version ∧
  Into (gs! "policy") (PartStep Policy.Says) m s.policy r.policy ∧
  Into (gs! "revision") (NatStep (2 ^ 64)) m s.revision r.revision ∧
  Into (gs! "last_modified") TimeStep m s.lastModified r.lastModified ∧
  Into (gs! "users") (ListStep User.Says User.zero) m s.users r.users

/-! ## The WebAuthn documents -/

/-- Any value whose numbers are in the range of a float64. -/
def AnyElem (j : Json) (a : Json) : Prop := a = j ∧ j.floatsOk = true

def ClientData.Says (m : Members) (s r : ClientData) : Prop :=
  Into (gs! "challenge") TextStep m s.challenge r.challenge ∧
  Into (gs! "crossOrigin") BoolStep m s.crossOrigin r.crossOrigin ∧
  Into (gs! "origin") TextStep m s.origin r.origin ∧
  Into (gs! "type") TextStep m s.type r.type

def CredentialData.Says (m : Members) (s r : CredentialData) : Prop :=
  Into (gs! "aaguid") TextStep m s.aaguid r.aaguid ∧
  Into (gs! "credentialId") TextStep m s.credentialID r.credentialID ∧
  Into (gs! "publicKey") (OptMapStep AnyElem) m s.publicKey r.publicKey

def AuthData.Says (m : Members) (s r : AuthData) : Prop :=
  Into (gs! "rpIdHash") TextStep m s.relyingPartyID r.relyingPartyID ∧
  Into (gs! "flags") (OptMapStep BoolElem) m s.flags r.flags ∧
  Into (gs! "signatureCounter") (NatStep (2 ^ 32)) m s.signatureCounter r.signatureCounter ∧
  Into (gs! "extensions") (fun j _ w => AnyElem j w) m s.extensions r.extensions ∧
  Into (gs! "credentialData") (OptStep CredentialData.Says CredentialData.zero) m s.credentialData r.credentialData

def AttestationStatement.Says (m : Members) (s r : AttestationStatement) : Prop :=
  Into (gs! "alg") IntStep m s.algorithm r.algorithm ∧
  Into (gs! "sig") TextStep m s.signature r.signature ∧
  Into (gs! "x5c") TextsStep m s.certificates r.certificates

def AttestationObject.Says (m : Members) (s r : AttestationObject) : Prop :=
  Into (gs! "attStmt") (OptStep AttestationStatement.Says AttestationStatement.zero) m
    s.attestationStatement r.attestationStatement ∧
  Into (gs! "authData") (OptStep AuthData.Says AuthData.zero) m s.authData r.authData ∧
  Into (gs! "fmt") TextStep m s.format r.format

def Device.Says (m : Members) (s r : Device) : Prop :=
  Into (gs! "name") TextStep m s.name r.name ∧
  Into (gs! "type") TextStep m s.type r.type

def RegisterRequest.Says (m : Members) (s r : RegisterRequest) : Prop :=
  Into (gs! "id") TextStep m s.id r.id ∧
  Into (gs! "type") TextStep m s.type r.type ∧
  Into (gs! "transports") TextsStep m s.transports r.transports ∧
  Into (gs! "success") BoolStep m s.success r.success ∧
  Into (gs! "attestationObject") (OptStep AttestationObject.Says AttestationObject.zero) m
    s.attestationObject r.attestationObject ∧
  Into (gs! "clientData") (OptStep ClientData.Says ClientData.zero) m s.clientData r.clientData ∧
  Into (gs! "device") (OptStep Device.Says Device.zero) m s.device r.device

def AuthenticateRequest.Says (m : Members) (s r : AuthenticateRequest) : Prop :=
  Into (gs! "id") TextStep m s.id r.id ∧
  Into (gs! "type") TextStep m s.type r.type ∧
  Into (gs! "auth_data") (OptStep AuthData.Says AuthData.zero) m s.authData r.authData ∧
  Into (gs! "auth_data_encoded") TextStep m s.authDataEncoded r.authDataEncoded ∧
  Into (gs! "client_data") (OptStep ClientData.Says ClientData.zero) m s.clientData r.clientData ∧
  Into (gs! "client_data_encoded") TextStep m s.clientDataEncoded r.clientDataEncoded ∧
  Into (gs! "signature") TextStep m s.signature r.signature ∧
  Into (gs! "signature_encoded") TextStep m s.signatureEncoded r.signatureEncoded

end GoIdentity
