import Verif.Model.Database
/-!
# Histories

Small vocabulary used in the statements of properties.  Nothing here depends on how the model represents lookups.
-/
namespace GoIdentity
variable [Ext]

/-- A database as `NewDatabase` returns it, for any files and any runtime choices. -/
def Opened (db : Database) : Prop := ∃ nd fs fp fs', newDatabase nd fs fp = (.ok db, fs')

/-- A database `NewDatabase` has just created, because no file was at the path. -/
def Created (db : Database) : Prop := ∃ nd fs fp fs', fs fp = none ∧ newDatabase nd fs fp = (.ok db, fs')

/-- The databases that arise from a `start` by any sequence of calls with any requests and any runtime choices.  The files
seen by each call are arbitrary, so other programs may change them between calls. -/
inductive Reach (start : Database → Prop) : Database → Prop
  | init {db : Database} (h : start db) : Reach start db
  | step {db : Database} (h : Reach start db) (c : Call) (nd : Nondet) (fs : FS) (req : Request) :
      Reach start (exec c nd db fs req).db

/-- The error is `k` or wraps an error that is (what `errors.Is` would find along the chain of wrapped errors). -/
def GoErr.wraps (k : StdErr) : GoErr → Prop
  | .std e => e = k
  | .ext _ => False
  | .withV e _ _ => e = k
  | .withE e _ inner => e = k ∨ inner.wraps k

/-- A call returned an error. -/
def Result.Failed (r : Result) : Prop := ∃ e, r.out = .fail e

/-- A call returned nil. -/
def Result.Succeeded (r : Result) : Prop := r.out = .success

/-- A call left the database and the files as they were. -/
def Result.Unchanged (r : Result) (db : Database) (fs : FS) : Prop := r.db = db ∧ r.fs = fs

/-- The user a login name denotes, said without lookup tables: a name with `@` is an email address. -/
def Denotes (s : GoString) (u : User) : Prop :=
  if (64 : UInt8) ∈ s then 6 ≤ s.length ∧ ∃ e ∈ u.emailAddresses, toLower e.address = toLower s
  else 2 ≤ s.length ∧ toLower u.username = toLower s

/-- `s` is user `u`'s username, ignoring case, and long enough to be looked up. -/
def NamesUser (s : GoString) (u : User) : Prop := 2 ≤ s.length ∧ toLower u.username = toLower s

/-- `s` is one of user `u`'s email addresses, ignoring case, and long enough to be looked up. -/
def MailsUser (s : GoString) (u : User) : Prop :=
  6 ≤ s.length ∧ ∃ e ∈ u.emailAddresses, toLower e.address = toLower s

/-- The calls that are meant to change the database. -/
def Call.mutates : Call → Bool
  | .addUser | .save | .copy _ | .addPublicKey | .deletePublicKey | .addAPIKey | .deleteAPIKey
  | .changeUserPassword | .addMfaToken | .deleteMfaToken => true
  | _ => false

/-- The calls that take a username and an email address and act for that user. -/
def accountCalls : List Call :=
  [.addPublicKey, .getPublicKeys, .deletePublicKey, .addAPIKey, .getAPIKeys, .deleteAPIKey, .changeUserPassword,
   .addMfaToken, .getMfaTokens, .deleteMfaToken, .getUser, .getUsers, .deleteUser]

/-- The account calls that modify the addressed user. -/
def modifyingCalls : List Call :=
  [.addPublicKey, .deletePublicKey, .addAPIKey, .deleteAPIKey, .changeUserPassword, .addMfaToken, .deleteMfaToken]

/-- The path a call writes to. -/
def Call.target (c : Call) (db : Database) : GoString :=
  match c with
  | .copy fp => fp
  | _ => db.path

/-- Nothing that identifies the user has changed; only passwords, keys, tokens, revision and modification time may
differ. -/
structure SameIdentity (u u' : User) : Prop where
  id : u'.id = u.id
  username : u'.username = u.username
  emailAddress : u'.emailAddress = u.emailAddress
  emailAddresses : u'.emailAddresses = u.emailAddresses
  name : u'.name = u.name
  names : u'.names = u.names
  title : u'.title = u.title
  roles : u'.roles = u.roles
  created : u'.created = u.created
  enabled : u'.enabled = u.enabled
  human : u'.human = u.human
  organization : u'.organization = u.organization
  organizations : u'.organizations = u.organizations
  streetAddress : u'.streetAddress = u.streetAddress
  lockout : u'.lockout = u.lockout
  avatar : u'.avatar = u.avatar

/-- `Reach Opened`, restricted to histories in which every `AddUser` draws an unused UUID among its ten attempts. -/
inductive ReachFresh : Database → Prop
  | init {db : Database} (h : Opened db) : ReachFresh db
  | step {db : Database} (h : ReachFresh db) (c : Call) (nd : Nondet) (fs : FS) (req : Request)
      (hfresh : c = .addUser → ∃ id ∈ nd.ids.take 10, ∀ u ∈ db.users, u.id ≠ id) :
      ReachFresh (exec c nd db fs req).db

/-- The histories of `run` reach only `Reach`able databases. -/
theorem reach_run {start : Database → Prop} {db : Database} (h : Reach start db) (fs : FS) (ops : List Op) :
    Reach start (run db fs ops).1 := by
  induction ops generalizing db fs with
  | nil => exact h
  | cons o ops ih =>
    unfold run
    dsimp only
    split
    · exact .step h ..
    · exact ih (.step h ..) _

end GoIdentity
