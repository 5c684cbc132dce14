import Verif.Model.Ext
/-!
# Data types of the repository
-/
namespace GoIdentity

/-- email.go:34-39 -/
structure EmailAddress where
  address : GoString
  confirmed : Bool
  domain : GoString
  isPrimary : Bool
  deriving DecidableEq, Repr

/-- password.go:26-36 -/
structure Password where
  purpose : GoString
  algorithm : GoString
  hash : GoString
  cost : Int
  expired : Bool
  expiredAt : GoTime
  createdAt : GoTime
  disabled : Bool
  disabledAt : GoTime
  deriving DecidableEq, Repr

/-- api_key.go:31-42 -/
structure APIKey where
  id : GoString
  pfx : GoString
  usage : GoString
  comment : GoString
  payload : GoString
  expired : Bool
  expiredAt : GoTime
  createdAt : GoTime
  disabled : Bool
  disabledAt : GoTime
  deriving DecidableEq, Repr

/-- public_key.go:46-61 -/
structure PublicKey where
  id : GoString
  usage : GoString
  type : GoString
  fingerprint : GoString
  fingerprintMD5 : GoString
  comment : GoString
  payload : GoString
  openSSH : GoString
  expired : Bool
  expiredAt : GoTime
  createdAt : GoTime
  disabled : Bool
  disabledAt : GoTime
  deriving DecidableEq, Repr

/-- mfa_token.go:68-72 -/
structure MfaDevice where
  name : GoString
  vendor : GoString
  type : GoString
  deriving DecidableEq, Repr

/-- mfa_token.go:47-65.  The maps `Parameters` and `Flags` are association lists ordered by key with distinct keys (the
canonical form in which JSON writes them).  The cache field `pubkey` is a function of `Parameters` and is not stored:
see `derivePublicKey`. -/
structure MfaToken where
  id : GoString
  type : GoString
  algorithm : GoString
  comment : GoString
  secret : GoString
  period : Int
  digits : Int
  expired : Bool
  expiredAt : GoTime
  createdAt : GoTime
  disabled : Bool
  disabledAt : GoTime
  device : Option MfaDevice
  parameters : List (GoString × GoString)
  flags : List (GoString × Bool)
  signatureCounter : Nat
  deriving DecidableEq, Repr

/-- role.go:23-26 -/
structure Role where
  name : GoString
  organization : GoString
  deriving DecidableEq, Repr

/-- name.go:23-33 -/
structure Name where
  first : GoString
  last : GoString
  middle : GoString
  preferred : GoString
  nickname : Bool
  confirmed : Bool
  primary : Bool
  legal : Bool
  alias : Bool
  deriving DecidableEq, Repr

/-- organization.go:18-22 -/
structure Organization where
  id : Nat
  name : GoString
  aliases : List GoString
  deriving DecidableEq, Repr

/-- location.go:18-28 -/
structure Location where
  street : GoString
  city : GoString
  state : GoString
  zipCode : GoString
  confirmed : Bool
  current : Bool
  domicile : Bool
  residential : Bool
  commercial : Bool
  deriving DecidableEq, Repr

/-- lockout.go:24-28 -/
structure LockoutState where
  enabled : Bool
  startTime : GoTime
  endTime : GoTime
  deriving DecidableEq, Repr

/-- image.go:22-28.  `Config` is Go's `image.Config`; its `ColorModel` interface is always nil here (nothing sets it and
JSON can only decode null into it), so only width and height are kept. -/
structure Image where
  title : GoString
  body : GoString
  width : Int
  height : Int
  path : GoString
  deriving DecidableEq, Repr

/-- user.go:45-68 -/
structure User where
  id : GoString
  enabled : Bool
  human : Bool
  username : GoString
  title : GoString
  name : Option Name
  organization : Option Organization
  names : List Name
  organizations : List Organization
  streetAddress : List Location
  emailAddress : Option EmailAddress
  emailAddresses : List EmailAddress
  passwords : List Password
  publicKeys : List PublicKey
  apiKeys : List APIKey
  mfaTokens : List MfaToken
  lockout : Option LockoutState
  avatar : Option Image
  created : GoTime
  lastModified : GoTime
  revision : Int
  roles : List Role
  deriving DecidableEq, Repr

/-- user.go:25-36 -/
structure UserMetadata where
  id : GoString
  enabled : Bool
  username : GoString
  title : GoString
  name : GoString
  email : GoString
  created : GoTime
  lastModified : GoTime
  revision : Int
  avatar : GoString
  deriving DecidableEq, Repr

/-- A bundle (user.go:39-42, api_key.go:25-28, public_key.go:40-43, mfa_token.go:41-44): a slice and its size counter. -/
structure Bundle (α : Type) where
  items : List α
  size : Nat
  deriving DecidableEq, Repr

/-- `NewXBundle` (user.go:71-75, api_key.go:45-49, public_key.go:64-68, mfa_token.go:75-79). -/
def Bundle.new {α : Type} : Bundle α := ⟨[], 0⟩

/-- `Add` (user.go:78-81, api_key.go:52-55, public_key.go:71-74, mfa_token.go:82-85). -/
def Bundle.add {α : Type} (b : Bundle α) (k : α) : Bundle α := ⟨b.items ++ [k], b.size + 1⟩

/-- database.go:78-88 -/
structure PasswordPolicy where
  keepVersions : Int
  minLength : Int
  maxLength : Int
  requireUppercase : Bool
  requireLowercase : Bool
  requireNumber : Bool
  requireNonAlphaNumeric : Bool
  blockReuse : Bool
  blockPasswordChange : Bool
  deriving DecidableEq, Repr

/-- database.go:91-96 -/
structure UserPolicy where
  minLength : Int
  maxLength : Int
  allowNonAlphaNumeric : Bool
  allowUppercase : Bool
  deriving DecidableEq, Repr

/-- database.go:72-75 -/
structure Policy where
  password : PasswordPolicy
  user : UserPolicy
  deriving DecidableEq, Repr

/-- The exported (persisted) fields of `Database` (database.go:99-105). -/
structure DBData where
  version : GoString
  policy : Policy
  revision : Nat
  lastModified : GoTime
  users : List User
  deriving DecidableEq, Repr

/-- database.go:99-111.  A `*User` in a map is the index of the user in `users`; the maps are only accessed by key.  The
mutex is modelled separately (`Verif.Model.Concurrency`). -/
structure Database extends DBData where
  refEmailAddress : GoString → Option Nat
  refUsername : GoString → Option Nat
  refID : GoString → Option Nat
  refAPIKey : GoString → Option Nat
  path : GoString

/-! ## Requests (pkg/requests/requests.go) -/

/-- pkg/requests/requests.go:78-87 -/
structure ReqUser where
  username : GoString := []
  email : GoString := []
  password : GoString := []
  oldPassword : GoString := []
  fullName : GoString := []
  roles : List GoString := []
  disabled : Bool := false
  challenges : List GoString := []
  deriving DecidableEq, Repr

/-- pkg/requests/requests.go:72-75 -/
structure ReqQuery where
  id : GoString := []
  name : GoString := []
  deriving DecidableEq, Repr

/-- pkg/requests/requests.go:90-97 -/
structure ReqKey where
  id : GoString := []
  pfx : GoString := []
  comment : GoString := []
  usage : GoString := []
  payload : GoString := []
  disabled : Bool := false
  deriving DecidableEq, Repr

/-- pkg/requests/requests.go:100-110 -/
structure ReqMfaToken where
  id : GoString := []
  comment : GoString := []
  type : GoString := []
  secret : GoString := []
  algorithm : GoString := []
  period : Int := 0
  digits : Int := 0
  passcode : GoString := []
  disabled : Bool := false
  deriving DecidableEq, Repr

/-- pkg/requests/requests.go:113-117 -/
structure ReqWebAuthn where
  register : GoString := []
  challenge : GoString := []
  request : GoString := []
  deriving DecidableEq, Repr

/-- pkg/requests/requests.go:120-126 -/
structure ReqFlags where
  enabled : Bool := false
  mfaRequired : Bool := false
  mfaConfigured : Bool := false
  mfaApp : Bool := false
  mfaUniversal : Bool := false
  deriving DecidableEq, Repr

/-- `Response.Payload`, an `interface{}`.  `GetUser` stores a pointer to the live user: its index. -/
inductive Payload
  | none
  | secret (s : GoString)
  | userPtr (i : Nat)
  | metadata (b : Bundle UserMetadata)
  | publicKeys (b : Bundle PublicKey)
  | apiKeys (b : Bundle APIKey)
  | mfaTokens (b : Bundle MfaToken)
  deriving DecidableEq, Repr

/-- pkg/requests/requests.go:38-49, the two fields this library writes. -/
structure ReqResponse where
  code : Int := 0
  payload : Payload := .none
  deriving DecidableEq, Repr

/-- pkg/requests/requests.go:23-35.  `ID`, `Upstream`, `Sandbox` and `Logger` are never read or written by this library and
are left out. -/
structure Request where
  user : ReqUser := {}
  query : ReqQuery := {}
  key : ReqKey := {}
  mfaToken : ReqMfaToken := {}
  webAuthn : ReqWebAuthn := {}
  flags : ReqFlags := {}
  response : ReqResponse := {}
  deriving DecidableEq, Repr

end GoIdentity
