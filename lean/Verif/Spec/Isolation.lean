import Verif.Spec.Reach
/-!
# Vocabulary for what one user's calls depend on
-/
namespace GoIdentity
variable [Ext]

/-- The calls whose answer concerns one user only: the account calls but `GetUser` (which hands out a pointer) and
`GetUsers` (which lists everybody). -/
def ownCalls : List Call :=
  [.addPublicKey, .getPublicKeys, .deletePublicKey, .addAPIKey, .getAPIKeys, .deleteAPIKey, .changeUserPassword,
   .addMfaToken, .getMfaTokens, .deleteMfaToken, .deleteUser]

/-- Both databases hold the same users among those that `un` names and those that `em` is an address of. -/
def AgreeOn (un em : GoString) (db db' : Database) : Prop :=
  ∀ u : User, NamesUser un u ∨ MailsUser em u → (u ∈ db.users ↔ u ∈ db'.users)

/-- The path names a directory among the one files exactly if it does among the other. -/
def SameDir (fs fs' : FS) (p : GoString) : Prop := fs p = some .dir ↔ fs' p = some .dir

/-- The first 24 characters of the API key the runtime's draws give (database.go:545-552), if the draws give a key. -/
def drawnPrefix (nd : Nondet) : Option GoString :=
  match getRandomStringFromRange nd.globalRand nd.seedRand 72 96 with
  | .ok s => some (s.take 24)
  | _ => none

/-- No user has an API key with the prefix. -/
def PrefixFree (db : Database) (p : GoString) : Prop := ∀ u ∈ db.users, ∀ k ∈ u.apiKeys, k.pfx ≠ p

end GoIdentity
