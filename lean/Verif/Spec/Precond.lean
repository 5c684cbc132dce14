import Verif.Spec.Reach
/-!
# What a call needs in order to succeed, in plain terms
-/
namespace GoIdentity
variable [Ext]

/-- The database file can be written: the path is not empty, is no directory, and the operating system reports no error. -/
def CanWrite (nd : Nondet) (fs : FS) (path : GoString) : Prop := path ≠ [] ∧ fs path ≠ some .dir ∧ nd.io = .ok

/-- The request names user `u` by username, and gives an email address of a user with the same identifier. -/
def Addressed (db : Database) (req : Request) (u : User) : Prop :=
  u ∈ db.users ∧ NamesUser req.user.username u ∧ ∃ v ∈ db.users, MailsUser req.user.email v ∧ v.id = u.id

/-- The length of a username is within the bounds of the policy. -/
def UsernameAllowed (p : Policy) (s : GoString) : Prop := p.user.minLength ≤ s.length ∧ (s.length : Int) ≤ p.user.maxLength

/-- The length of a password is within the bounds of the policy. -/
def PasswordAllowed (p : Policy) (s : GoString) : Prop :=
  p.password.minLength ≤ s.length ∧ (s.length : Int) ≤ p.password.maxLength

end GoIdentity
