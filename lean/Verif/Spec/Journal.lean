import Verif.Spec.Reach
import Verif.Spec.Laws
/-!
# The journal of a history

What a program that uses the database could write down itself: which call it made with which request, and what came back.
The random values drawn by a call are noted as well; the contents of the database are not.
-/
namespace GoIdentity
variable [Ext]

/-- The call returned nil or an error that says that the file could not be written. -/
def Result.Kept (r : Result) : Prop := r.out = .success ∨ ∃ e, r.out = .fail e ∧ e.wraps .databaseCommit

/-- A line of the journal: a call, how it ended, and the request as the call left it. -/
structure Line where
  op : Op
  out : Outcome
  reply : Request

/-- The journal of a history; nothing follows a call that never returns. -/
def journal (db : Database) (fs : FS) : List Op → List Line
  | [] => []
  | o :: os =>
    let r := exec o.call o.nd db fs o.req
    ⟨o, r.out, r.req⟩ :: (match r.out with | .hang => [] | _ => journal r.db r.fs os)

namespace Line

/-- The call was accepted: it returned nil, or an error that says that the file could not be written. -/
def Kept (x : Line) : Prop := x.out = .success ∨ ∃ e, x.out = .fail e ∧ e.wraps .databaseCommit

/-- The name of the account that the request gives. -/
def name (x : Line) : GoString := x.op.req.user.username

/-- An accepted registration. -/
def Registers (x : Line) : Prop := x.Kept ∧ x.op.call = .addUser

/-- The registered account is meant by this login name: an email address if it contains `@`. -/
def Means (x : Line) (s : GoString) : Prop :=
  if (64 : UInt8) ∈ s then 6 ≤ s.length ∧ toLower x.op.req.user.email = toLower s
  else 2 ≤ s.length ∧ toLower x.name = toLower s

/-- An accepted registration or change of password of the account with this name. -/
def SetsPassword (n : GoString) (x : Line) : Prop :=
  x.Kept ∧ (x.op.call = .addUser ∨ x.op.call = .changeUserPassword) ∧ toLower x.name = toLower n

/-- An accepted request for an API key, answered with this secret. -/
def Issues (x : Line) (s : GoString) : Prop :=
  x.Kept ∧ x.op.call = .addAPIKey ∧ x.reply.response.payload = .secret s

/-- The identifier drawn for the API key with this secret: the next 40 characters. -/
def keyID (x : Line) (s : GoString) : GoString := getRandomString x.op.nd.seedRand s.length 40

/-- An accepted deletion of an API key. -/
def Withdraws (n id : GoString) (x : Line) : Prop :=
  x.Kept ∧ x.op.call = .deleteAPIKey ∧ toLower x.name = toLower n ∧ x.op.req.key.id = id

end Line

/-- `e` is the last line with this property. -/
def LastOf (P : Line → Prop) (j : List Line) (e : Line) : Prop :=
  ∃ before after, j = before ++ e :: after ∧ P e ∧ ∀ x ∈ after, ¬ P x

/-- `e` issued an API key, and no later line withdraws it. -/
def LiveKey (j : List Line) (e : Line) (s : GoString) : Prop :=
  ∃ before after, j = before ++ e :: after ∧ e.Issues s ∧ ∀ x ∈ after, ¬ x.Withdraws e.name (e.keyID s)

/-- The first salt that the system's source of randomness gave. -/
def FirstSalt (nd : Nondet) (salt : GoString) : Prop := ∃ n, nd.salts n = some salt ∧ ∀ m < n, nd.salts m = none

end GoIdentity
