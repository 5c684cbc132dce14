import Verif.Model.Nulls
import Verif.Spec.Loading
import Verif.Spec.WellFormed
/-!
# Where a document has a null
-/
namespace GoIdentity
variable [Ext]

/-- A user without a null among email addresses, passwords and API keys, as a plain record: the other fields may be anything. -/
structure Whole (u : NullUser) (p : User) : Prop where
  id : u.rest.id = p.id
  username : u.rest.username = p.username
  emails : u.emailAddresses = p.emailAddresses.map some
  passwords : u.passwords = p.passwords.map some
  keys : u.apiKeys = p.apiKeys.map some

/-- A user with a null among email addresses, passwords or API keys, and the record of what comes before the null. -/
def BrokenOff (u : NullUser) (p : User) : Prop :=
  u.rest.id = p.id ∧ u.rest.username = p.username ∧ u.passwords.length = p.passwords.length ∧
  ((∃ es, u.emailAddresses = p.emailAddresses.map some ++ none :: es) ∧ p.apiKeys = [] ∨
   u.emailAddresses = p.emailAddresses.map some ∧ none ∈ u.passwords ∧ p.apiKeys = [] ∨
   u.emailAddresses = p.emailAddresses.map some ∧ none ∉ u.passwords ∧ ∃ ks, u.apiKeys = p.apiKeys.map some ++ none :: ks)

/-- The users before the first null of the document that is looked at, and what comes before it of the user that has it. -/
inductive UpTo : List (Option NullUser) → List User → Prop
  | user (us : List (Option NullUser)) : UpTo (none :: us) []
  | inside {u : NullUser} {p : User} (us : List (Option NullUser)) : BrokenOff u p → UpTo (some u :: us) [p]
  | next {u : NullUser} {p : User} {us : List (Option NullUser)} {ps : List User} :
      Whole u p → UpTo us ps → UpTo (some u :: us) (p :: ps)

/-- A plain user as one without nulls. -/
def NullUser.of (u : User) : NullUser :=
  { rest := { u with names := [], organizations := [], streetAddress := [], emailAddresses := [], passwords := [], publicKeys := [],
                     apiKeys := [], mfaTokens := [], roles := [] }
    names := u.names.map some, organizations := u.organizations.map some, streetAddress := u.streetAddress.map some
    emailAddresses := u.emailAddresses.map some, passwords := u.passwords.map some, publicKeys := u.publicKeys.map some
    apiKeys := u.apiKeys.map some, mfaTokens := u.mfaTokens.map some, roles := u.roles.map some }

/-- A plain document as one without nulls. -/
def NullData.of (d : DBData) : NullData :=
  ⟨d.version, d.policy, d.revision, d.lastModified, d.users.map fun u => some (NullUser.of u)⟩

/-- Texts in UTF-8, calendar dates and numbers in their range; the lists are where they belong. -/
structure NullUser.Ok (x : NullUser) : Prop where
  rest : x.rest.Ok
  lists : x.rest = { x.rest with names := [], organizations := [], streetAddress := [], emailAddresses := [], passwords := [],
                                 publicKeys := [], apiKeys := [], mfaTokens := [], roles := [] }
  names : ∀ a, some a ∈ x.names → a.Ok
  organizations : ∀ a, some a ∈ x.organizations → a.Ok
  streetAddress : ∀ a, some a ∈ x.streetAddress → a.Ok
  emailAddresses : ∀ a, some a ∈ x.emailAddresses → a.Ok
  passwords : ∀ a, some a ∈ x.passwords → a.Ok
  publicKeys : ∀ a, some a ∈ x.publicKeys → a.Ok
  apiKeys : ∀ a, some a ∈ x.apiKeys → a.Ok
  mfaTokens : ∀ a, some a ∈ x.mfaTokens → a.Ok
  roles : ∀ a, some a ∈ x.roles → a.Ok

structure NullData.Ok (x : NullData) : Prop where
  version : Utf8 x.version
  policy : x.policy.Ok
  revision : x.revision < 2 ^ 64
  lastModified : x.lastModified.Ok
  users : ∀ u, some u ∈ x.users → u.Ok

end GoIdentity
