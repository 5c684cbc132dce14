import Verif.Model.Codec
/-!
# Values that JSON can represent

Strings are valid UTF-8, integers fit their Go types, times have a four-digit year, maps are in canonical order.  Everything
is said field by field, without reference to the encoder.
-/
namespace GoIdentity

/-- `utf8.ValidString` -/
abbrev Utf8 (s : GoString) : Prop := validUTF8 s = true

/-- A value of Go's `int` on a 64-bit machine. -/
def Int64 (n : Int) : Prop := -2 ^ 63 ≤ n ∧ n < 2 ^ 63

/-- Length of a month in the Gregorian calendar. -/
def monthLength (year : Nat) : Nat → Nat
  | 2 => if 400 ∣ year ∨ (4 ∣ year ∧ ¬ 100 ∣ year) then 29 else 28
  | 4 | 6 | 9 | 11 => 30
  | _ => 31

/-- A calendar date and time of day with a zone offset of less than a day. -/
structure GoTime.Ok (t : GoTime) : Prop where
  year : t.year ≤ 9999
  month : 1 ≤ t.month ∧ t.month ≤ 12
  day : 1 ≤ t.day ∧ t.day ≤ monthLength t.year t.month
  hour : t.hour < 24
  min : t.min < 60
  sec : t.sec < 60
  nano : t.nano < 10 ^ 9
  off : t.off.natAbs < 24 * 60

/-- All readings of the clock are calendar dates. -/
def Clock.Ok (c : Clock) : Prop := ∀ i, (c i).Ok

structure Role.Ok (x : Role) : Prop where
  name : Utf8 x.name
  organization : Utf8 x.organization

structure Name.Ok (x : Name) : Prop where
  first : Utf8 x.first
  last : Utf8 x.last
  middle : Utf8 x.middle
  preferred : Utf8 x.preferred

structure Organization.Ok (x : Organization) : Prop where
  id : x.id < 2 ^ 64
  name : Utf8 x.name
  aliases : ∀ s ∈ x.aliases, Utf8 s

structure Location.Ok (x : Location) : Prop where
  street : Utf8 x.street
  city : Utf8 x.city
  state : Utf8 x.state
  zipCode : Utf8 x.zipCode

/-- The unexported field `isPrimary` is not stored, so only its zero value survives. -/
structure EmailAddress.Ok (x : EmailAddress) : Prop where
  address : Utf8 x.address
  domain : Utf8 x.domain
  isPrimary : x.isPrimary = false

structure Password.Ok (x : Password) : Prop where
  purpose : Utf8 x.purpose
  algorithm : Utf8 x.algorithm
  hash : Utf8 x.hash
  cost : Int64 x.cost
  expiredAt : x.expiredAt.Ok
  createdAt : x.createdAt.Ok
  disabledAt : x.disabledAt.Ok

structure APIKey.Ok (x : APIKey) : Prop where
  id : Utf8 x.id
  pfx : Utf8 x.pfx
  usage : Utf8 x.usage
  comment : Utf8 x.comment
  payload : Utf8 x.payload
  expiredAt : x.expiredAt.Ok
  createdAt : x.createdAt.Ok
  disabledAt : x.disabledAt.Ok

structure PublicKey.Ok (x : PublicKey) : Prop where
  id : Utf8 x.id
  usage : Utf8 x.usage
  type : Utf8 x.type
  fingerprint : Utf8 x.fingerprint
  fingerprintMD5 : Utf8 x.fingerprintMD5
  comment : Utf8 x.comment
  payload : Utf8 x.payload
  openSSH : Utf8 x.openSSH
  expiredAt : x.expiredAt.Ok
  createdAt : x.createdAt.Ok
  disabledAt : x.disabledAt.Ok

structure MfaDevice.Ok (x : MfaDevice) : Prop where
  name : Utf8 x.name
  vendor : Utf8 x.vendor
  type : Utf8 x.type

structure MfaToken.Ok (x : MfaToken) : Prop where
  id : Utf8 x.id
  type : Utf8 x.type
  algorithm : Utf8 x.algorithm
  comment : Utf8 x.comment
  secret : Utf8 x.secret
  period : Int64 x.period
  digits : Int64 x.digits
  expiredAt : x.expiredAt.Ok
  createdAt : x.createdAt.Ok
  disabledAt : x.disabledAt.Ok
  device : ∀ d, x.device = some d → d.Ok
  parameters : ∀ p ∈ x.parameters, Utf8 p.1 ∧ Utf8 p.2
  parametersOrder : x.parameters.Pairwise fun a b => bytesLt a.1 b.1 = true
  flags : ∀ p ∈ x.flags, Utf8 p.1
  flagsOrder : x.flags.Pairwise fun a b => bytesLt a.1 b.1 = true
  signatureCounter : x.signatureCounter < 2 ^ 32

structure LockoutState.Ok (x : LockoutState) : Prop where
  startTime : x.startTime.Ok
  endTime : x.endTime.Ok

structure Image.Ok (x : Image) : Prop where
  title : Utf8 x.title
  body : Utf8 x.body
  width : Int64 x.width
  height : Int64 x.height
  path : Utf8 x.path

structure User.Ok (x : User) : Prop where
  id : Utf8 x.id
  username : Utf8 x.username
  title : Utf8 x.title
  name : ∀ a, x.name = some a → a.Ok
  organization : ∀ a, x.organization = some a → a.Ok
  names : ∀ a ∈ x.names, a.Ok
  organizations : ∀ a ∈ x.organizations, a.Ok
  streetAddress : ∀ a ∈ x.streetAddress, a.Ok
  emailAddress : ∀ a, x.emailAddress = some a → a.Ok
  emailAddresses : ∀ a ∈ x.emailAddresses, a.Ok
  passwords : ∀ a ∈ x.passwords, a.Ok
  publicKeys : ∀ a ∈ x.publicKeys, a.Ok
  apiKeys : ∀ a ∈ x.apiKeys, a.Ok
  mfaTokens : ∀ a ∈ x.mfaTokens, a.Ok
  lockout : ∀ a, x.lockout = some a → a.Ok
  avatar : ∀ a, x.avatar = some a → a.Ok
  created : x.created.Ok
  lastModified : x.lastModified.Ok
  revision : Int64 x.revision
  roles : ∀ a ∈ x.roles, a.Ok

structure PasswordPolicy.Ok (x : PasswordPolicy) : Prop where
  keepVersions : Int64 x.keepVersions
  minLength : Int64 x.minLength
  maxLength : Int64 x.maxLength

structure UserPolicy.Ok (x : UserPolicy) : Prop where
  minLength : Int64 x.minLength
  maxLength : Int64 x.maxLength

structure Policy.Ok (x : Policy) : Prop where
  password : x.password.Ok
  user : x.user.Ok

structure DBData.Ok (x : DBData) : Prop where
  version : Utf8 x.version
  policy : x.policy.Ok
  revision : x.revision < 2 ^ 64
  lastModified : x.lastModified.Ok
  users : ∀ u ∈ x.users, u.Ok

end GoIdentity
