import Verif.Spec.Reach
/-!
# Times in order: vocabulary for C73
-/
namespace GoIdentity

/-- An order of instants. -/
structure TimeOrder (le : GoTime → GoTime → Prop) : Prop where
  refl : ∀ t, le t t
  trans : ∀ {a b c}, le a b → le b c → le a c

/-- The order of times in UTC: first the year, then the month, and so on. -/
def GoTime.le (a b : GoTime) : Prop :=
  [a.year, a.month, a.day, a.hour, a.min, a.sec, a.nano] ≤ [b.year, b.month, b.day, b.hour, b.min, b.sec, b.nano]

theorem GoTime.le_order : TimeOrder GoTime.le where
  refl _ := List.le_refl _
  trans h h' := List.le_trans h h'

/-- The readings of the clock during a call never go back. -/
structure Forward (le : GoTime → GoTime → Prop) (nd : Nondet) : Prop where
  now : ∀ {i j}, i ≤ j → le (nd.now i) (nd.now j)
  commit : ∀ i, le (nd.now i) nd.commitTime

/-- A database created at some time, after calls with later and later readings of the clock, the last one `t`. -/
inductive ReachClock [Ext] (le : GoTime → GoTime → Prop) : GoTime → Database → Prop
  | init {nd : Nondet} {fs : FS} {fp : GoString} {db : Database} {fs' : FS} (hnone : fs fp = none)
      (hf : Forward le nd)
      (h : newDatabase nd fs fp = (.ok db, fs')) : ReachClock le nd.commitTime db
  | step {t : GoTime} {db : Database} (h : ReachClock le t db) (c : Call) (nd : Nondet) (fs : FS) (req : Request)
      (hf : Forward le nd) (ht : le t (nd.now 0)) : ReachClock le nd.commitTime (exec c nd db fs req).db

/-- Something made at `made` and possibly disabled at `off`, belonging to user `u`. -/
def InLife (le : GoTime → GoTime → Prop) (u : User) (made : GoTime) (disabled : Bool) (off : GoTime) : Prop :=
  le u.created made ∧ le made u.lastModified ∧ (disabled = true → le made off ∧ le off u.lastModified)

/-- The times of a user are in order: passwords newest first, keys and tokens oldest first, all within the user's
life; passwords taken out of use expire before they are disabled. -/
structure UserTimes (le : GoTime → GoTime → Prop) (u : User) : Prop where
  modified : le u.created u.lastModified
  passwords : ∀ p ∈ u.passwords, InLife le u p.createdAt p.disabled p.disabledAt
  publicKeys : ∀ k ∈ u.publicKeys, InLife le u k.createdAt k.disabled k.disabledAt
  apiKeys : ∀ k ∈ u.apiKeys, InLife le u k.createdAt k.disabled k.disabledAt
  mfaTokens : ∀ k ∈ u.mfaTokens, InLife le u k.createdAt k.disabled k.disabledAt
  expiry : ∀ p ∈ u.passwords, p.disabled = true → le p.createdAt p.expiredAt ∧ le p.expiredAt p.disabledAt
  newestFirst : u.passwords.Pairwise fun p q => le q.createdAt p.createdAt
  publicKeysInOrder : u.publicKeys.Pairwise fun p q => le p.createdAt q.createdAt
  apiKeysInOrder : u.apiKeys.Pairwise fun p q => le p.createdAt q.createdAt
  mfaTokensInOrder : u.mfaTokens.Pairwise fun p q => le p.createdAt q.createdAt

end GoIdentity
