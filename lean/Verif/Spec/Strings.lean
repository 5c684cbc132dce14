import Verif.Spec.WellFormed
/-!
# All stored strings are valid UTF-8

One condition per struct, field by field, on nothing but its strings.
-/
namespace GoIdentity

structure Password.Strings (x : Password) : Prop where
  purpose : Utf8 x.purpose
  algorithm : Utf8 x.algorithm
  hash : Utf8 x.hash

structure APIKey.Strings (x : APIKey) : Prop where
  id : Utf8 x.id
  pfx : Utf8 x.pfx
  usage : Utf8 x.usage
  comment : Utf8 x.comment
  payload : Utf8 x.payload

structure PublicKey.Strings (x : PublicKey) : Prop where
  id : Utf8 x.id
  usage : Utf8 x.usage
  type : Utf8 x.type
  fingerprint : Utf8 x.fingerprint
  fingerprintMD5 : Utf8 x.fingerprintMD5
  comment : Utf8 x.comment
  payload : Utf8 x.payload
  openSSH : Utf8 x.openSSH

structure MfaToken.Strings (x : MfaToken) : Prop where
  id : Utf8 x.id
  type : Utf8 x.type
  algorithm : Utf8 x.algorithm
  comment : Utf8 x.comment
  secret : Utf8 x.secret
  device : ∀ d, x.device = some d → Utf8 d.name ∧ Utf8 d.vendor ∧ Utf8 d.type
  parameters : ∀ p ∈ x.parameters, Utf8 p.1 ∧ Utf8 p.2
  flags : ∀ p ∈ x.flags, Utf8 p.1

structure EmailAddress.Strings (x : EmailAddress) : Prop where
  address : Utf8 x.address
  domain : Utf8 x.domain

structure Organization.Strings (x : Organization) : Prop where
  name : Utf8 x.name
  aliases : ∀ s ∈ x.aliases, Utf8 s

structure Image.Strings (x : Image) : Prop where
  title : Utf8 x.title
  body : Utf8 x.body
  path : Utf8 x.path

structure User.Strings (x : User) : Prop where
  id : Utf8 x.id
  username : Utf8 x.username
  title : Utf8 x.title
  name : ∀ a, x.name = some a → a.Ok
  organization : ∀ a, x.organization = some a → a.Strings
  names : ∀ a ∈ x.names, a.Ok
  organizations : ∀ a ∈ x.organizations, a.Strings
  streetAddress : ∀ a ∈ x.streetAddress, a.Ok
  emailAddress : ∀ a, x.emailAddress = some a → a.Strings
  emailAddresses : ∀ a ∈ x.emailAddresses, a.Strings
  passwords : ∀ a ∈ x.passwords, a.Strings
  publicKeys : ∀ a ∈ x.publicKeys, a.Strings
  apiKeys : ∀ a ∈ x.apiKeys, a.Strings
  mfaTokens : ∀ a ∈ x.mfaTokens, a.Strings
  avatar : ∀ a, x.avatar = some a → a.Strings
  roles : ∀ a ∈ x.roles, a.Ok

/-- Every string a database would store is valid UTF-8. -/
structure DBData.Strings (x : DBData) : Prop where
  version : Utf8 x.version
  users : ∀ u ∈ x.users, u.Strings

end GoIdentity
