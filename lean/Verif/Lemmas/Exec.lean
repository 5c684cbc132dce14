import Verif.Spec.Reach
/-!
# Every call is either without effect or one mutation followed by a commit
-/
set_option linter.unusedSectionVars false
namespace GoIdentity
variable [Ext]

/-- The in-memory part of a commit. -/
def Database.touch (db : Database) (now : GoTime) : Database :=
  { db with revision := (db.revision + 1) % 2 ^ 64, lastModified := now }

/-- The database after `AddUser` stored `user`, before the commit. -/
def Database.withUser (db : Database) (user : User) (emails : List GoString) : Database :=
  { db with
    refUsername := upd db.refUsername (toLower user.username) (some db.users.length)
    refID := upd db.refID user.id (some db.users.length)
    refEmailAddress := emails.foldl (fun m a => upd m a (some db.users.length)) db.refEmailAddress
    users := db.users ++ [user] }

/-- The in-memory effect of a call, before its commit. -/
inductive Mutation (nd : Nondet) (req : Request) (db : Database) : Call → Database → Prop
  | addUser (user : User) (emails : List GoString)
      (hpol : checkPolicy db.policy req.user.username req.user.password = none)
      (hnew : User.newWithRoles nd req.user.username req.user.password req.user.email req.user.fullName
        req.user.roles = .ok user)
      (hname : db.refUsername (toLower user.username) = none)
      (hemails : db.checkEmails user.emailAddresses = .ok emails) :
      Mutation nd req db .addUser (db.withUser { user with id := db.pickID nd.ids user.id } emails)
  | save : Mutation nd req db .save db
  | copy (fp : GoString) : Mutation nd req db (.copy fp) db
  | addPublicKey (i : Nat) (u u' : User)
      (hv : db.validateUserIdentity req.user.username req.user.email = .ok (i, u))
      (h : u.addPublicKey nd req.key = .ok u') : Mutation nd req db .addPublicKey (db.setUser i u')
  | deletePublicKey (i : Nat) (u u' : User)
      (hv : db.validateUserIdentity req.user.username req.user.email = .ok (i, u))
      (h : u.deletePublicKey nd.now req.key = .ok u') : Mutation nd req db .deletePublicKey (db.setUser i u')
  | addAPIKey (i : Nat) (u u' : User) (s hash : GoString)
      (hv : db.validateUserIdentity req.user.username req.user.email = .ok (i, u))
      (hs : getRandomStringFromRange nd.globalRand nd.seedRand 72 96 = .ok s)
      (hl : db.keyLoop nd s nd.fuel 0 0 = .found hash)
      (h : u.addAPIKey nd.now (getRandomString nd.seedRand s.length 40)
        { req.key with payload := hash, pfx := s.take 24 } = .ok u') :
      Mutation nd req db .addAPIKey
        { db.setUser i u' with refAPIKey := upd db.refAPIKey (s.take 24) (some i) }
  | deleteAPIKey (i : Nat) (u u' : User) (key : ReqKey)
      (hv : db.validateUserIdentity req.user.username req.user.email = .ok (i, u))
      (h : u.deleteAPIKey nd.now req.key = .ok (u', key)) :
      Mutation nd req db .deleteAPIKey { db.setUser i u' with refAPIKey := upd db.refAPIKey key.pfx none }
  | changeUserPassword (i : Nat) (u u' : User)
      (hv : db.validateUserIdentity req.user.username req.user.email = .ok (i, u))
      (hpol : checkPasswordPolicy db.policy req.user.password = none)
      (h : u.changePassword nd req.user.oldPassword req.user.password db.policy.password.keepVersions = .ok u') :
      Mutation nd req db .changeUserPassword (db.setUser i u')
  | addMfaToken (i : Nat) (u u' : User) (req' : Request)
      (hv : db.validateUserIdentity req.user.username req.user.email = .ok (i, u))
      (h : u.addMfaToken nd req = (.ok u', req')) : Mutation nd req db .addMfaToken (db.setUser i u')
  | deleteMfaToken (i : Nat) (u u' : User)
      (hv : db.validateUserIdentity req.user.username req.user.email = .ok (i, u))
      (h : u.deleteMfaToken nd.now req.mfaToken.id = .ok u') :
      Mutation nd req db .deleteMfaToken (db.setUser i u')

/-- `r` is the result of committing `db'` to `path`. -/
structure Committed (nd : Nondet) (fs : FS) (path : GoString) (db' : Database) (r : Result) : Prop where
  db_eq : r.db = db'.touch nd.commitTime
  fs_eq : r.fs = (writeFile fs path (marshalDB (db'.touch nd.commitTime).toDBData) nd.io).1
  out_ok : (writeFile fs path (marshalDB (db'.touch nd.commitTime).toDBData) nd.io).2 = none → r.out = .success
  out_err : ∀ e, (writeFile fs path (marshalDB (db'.touch nd.commitTime).toDBData) nd.io).2 = some e →
    ∃ e', r.out = .fail e' ∧ e'.wraps .databaseCommit

theorem finish_committed (nd : Nondet) (db : Database) (fs : FS) (req : Request) (wrap : GoErr → GoErr)
    (hwrap : ∀ e, GoErr.wraps .databaseCommit e → GoErr.wraps .databaseCommit (wrap e)) :
    Committed nd fs db.path db (db.finish nd fs req wrap) := by
  have h : db.commit nd fs =
      match writeFile fs db.path (marshalDB (db.touch nd.commitTime).toDBData) nd.io with
      | (fs, none) => (db.touch nd.commitTime, fs, none)
      | (fs, some e) => (db.touch nd.commitTime, fs, some (.withE .databaseCommit [db.path] e)) := rfl
  unfold Database.finish
  rw [h]
  rcases hw : writeFile fs db.path (marshalDB (db.touch nd.commitTime).toDBData) nd.io with ⟨fs', _ | e⟩
  · exact ⟨rfl, by simp [hw], fun _ => rfl, fun e he => by simp [hw] at he⟩
  · exact ⟨rfl, by simp [hw], fun he => by simp [hw] at he, fun e _ => ⟨_, rfl, hwrap _ (.inl rfl)⟩⟩

theorem copy_committed (nd : Nondet) (fp : GoString) (db : Database) (fs : FS) (req : Request) :
    Committed nd fs fp db (db.copy nd fp fs req) := by
  have h : ({ db with path := fp } : Database).commit nd fs =
      match writeFile fs fp (marshalDB (db.touch nd.commitTime).toDBData) nd.io with
      | (fs, none) => ({ db.touch nd.commitTime with path := fp }, fs, none)
      | (fs, some e) => ({ db.touch nd.commitTime with path := fp }, fs, some (.withE .databaseCommit [fp] e)) := rfl
  unfold Database.copy
  simp only [h]
  rcases hw : writeFile fs fp (marshalDB (db.touch nd.commitTime).toDBData) nd.io with ⟨fs', _ | e⟩
  · exact ⟨rfl, by simp [hw], fun _ => rfl, fun e he => by simp [hw] at he⟩
  · exact ⟨rfl, by simp [hw], fun he => by simp [hw] at he, fun e _ => ⟨_, rfl, .inl rfl⟩⟩

/-- The call had no effect on the database and the files, and if it is a mutating call it did not succeed. -/
structure NoEffect (c : Call) (db : Database) (fs : FS) (r : Result) : Prop where
  db_eq : r.db = db
  fs_eq : r.fs = fs
  out : c.mutates = true → r.out ≠ .success

/-- Every call either has no effect or is a mutation followed by a commit. -/
theorem exec_spec (c : Call) (nd : Nondet) (db : Database) (fs : FS) (req : Request) :
    NoEffect c db fs (exec c nd db fs req) ∨
      ∃ db', Mutation nd req db c db' ∧ Committed nd fs (c.target db) db' (exec c nd db fs req) := by
  cases c
  case addUser =>
    simp only [exec, Database.addUser]
    split
    · exact .inl ⟨rfl, rfl, fun _ => by simp [Database.failWith]⟩
    · rename_i hpol
      split
      · exact .inl ⟨rfl, rfl, fun _ => by simp [Database.failWith]⟩
      · exact .inl ⟨rfl, rfl, fun _ => by simp⟩
      · rename_i user hnew
        split
        · exact .inl ⟨rfl, rfl, fun _ => by simp [Database.failWith]⟩
        · rename_i hname
          split
          · exact .inl ⟨rfl, rfl, fun _ => by simp [Database.failWith]⟩
          · rename_i emails hem
            exact .inr ⟨_, .addUser user emails hpol hnew hname hem,
              finish_committed nd (db.withUser { user with id := db.pickID nd.ids user.id } emails) fs req _ (fun _ h => .inr h)⟩
  case save => exact .inr ⟨db, .save, finish_committed nd db fs req id (fun _ h => h)⟩
  case copy fp => exact .inr ⟨db, .copy fp, copy_committed nd fp db fs req⟩
  case getUsers =>
    refine .inl ⟨?_, ?_, by simp [Call.mutates]⟩ <;> simp only [exec, Database.getUsers] <;> split <;> rfl
  case getUser =>
    refine .inl ⟨?_, ?_, by simp [Call.mutates]⟩ <;> simp only [exec, Database.getUserCall] <;> split <;> rfl
  case deleteUser =>
    refine .inl ⟨?_, ?_, by simp [Call.mutates]⟩ <;> simp only [exec, Database.deleteUser] <;> split <;> rfl
  case authenticateUser =>
    refine .inl ⟨?_, ?_, by simp [Call.mutates]⟩ <;> simp only [exec, Database.authenticateUser] <;>
      (repeat' split) <;> rfl
  case getPublicKeys =>
    refine .inl ⟨?_, ?_, by simp [Call.mutates]⟩ <;> simp only [exec, Database.getPublicKeys] <;> split <;> rfl
  case getAPIKeys =>
    refine .inl ⟨?_, ?_, by simp [Call.mutates]⟩ <;> simp only [exec, Database.getAPIKeys] <;> split <;> rfl
  case getMfaTokens =>
    refine .inl ⟨?_, ?_, by simp [Call.mutates]⟩ <;> simp only [exec, Database.getMfaTokens] <;> split <;> rfl
  case identifyUser =>
    refine .inl ⟨?_, ?_, by simp [Call.mutates]⟩ <;> simp only [exec, Database.identifyUser] <;> split <;> rfl
  case lookupAPIKey =>
    refine .inl ⟨?_, ?_, by simp [Call.mutates]⟩ <;> simp only [exec, Database.lookupAPIKey] <;>
      (repeat' split) <;> rfl
  case addPublicKey =>
    simp only [exec, Database.addPublicKey]
    split
    · exact .inl ⟨rfl, rfl, fun _ => by simp [Database.failWith]⟩
    · rename_i i u hv
      split
      · exact .inl ⟨rfl, rfl, fun _ => by simp [Database.failWith]⟩
      · exact .inl ⟨rfl, rfl, fun _ => by simp⟩
      · rename_i u' h
        exact .inr ⟨_, .addPublicKey i u u' hv h, finish_committed nd (db.setUser i u') fs req _ (fun _ h => .inr h)⟩
  case deletePublicKey =>
    simp only [exec, Database.deletePublicKey]
    split
    · exact .inl ⟨rfl, rfl, fun _ => by simp [Database.failWith]⟩
    · rename_i i u hv
      split
      · exact .inl ⟨rfl, rfl, fun _ => by simp [Database.failWith]⟩
      · exact .inl ⟨rfl, rfl, fun _ => by simp⟩
      · rename_i u' h
        exact .inr ⟨_, .deletePublicKey i u u' hv h, finish_committed nd (db.setUser i u') fs req _ (fun _ h => .inr h)⟩
  case addAPIKey =>
    simp only [exec, Database.addAPIKey]
    split
    · exact .inl ⟨rfl, rfl, fun _ => by simp [Database.failWith]⟩
    · rename_i i u hv
      split
      · exact .inl ⟨rfl, rfl, fun _ => by simp [Database.failWith]⟩
      · exact .inl ⟨rfl, rfl, fun _ => by simp⟩
      · rename_i s hs
        split
        · exact .inl ⟨rfl, rfl, fun _ => by simp⟩
        · exact .inl ⟨rfl, rfl, fun _ => by simp [Database.failWith]⟩
        · rename_i hash hl
          split
          · exact .inl ⟨rfl, rfl, fun _ => by simp [Database.failWith]⟩
          · exact .inl ⟨rfl, rfl, fun _ => by simp⟩
          · rename_i u' h
            exact .inr ⟨_, .addAPIKey i u u' s hash hv hs hl h,
              finish_committed nd { db.setUser i u' with refAPIKey := upd db.refAPIKey (s.take 24) (some i) } fs _ _ (fun _ h => .inr h)⟩
  case deleteAPIKey =>
    simp only [exec, Database.deleteAPIKey]
    split
    · exact .inl ⟨rfl, rfl, fun _ => by simp [Database.failWith]⟩
    · rename_i i u hv
      split
      · exact .inl ⟨rfl, rfl, fun _ => by simp [Database.failWith]⟩
      · exact .inl ⟨rfl, rfl, fun _ => by simp⟩
      · rename_i u' key h
        exact .inr ⟨_, .deleteAPIKey i u u' key hv h,
          finish_committed nd { db.setUser i u' with refAPIKey := upd db.refAPIKey key.pfx none } fs _ _ (fun _ h => .inr h)⟩
  case changeUserPassword =>
    simp only [exec, Database.changeUserPassword]
    split
    · exact .inl ⟨rfl, rfl, fun _ => by simp [Database.failWith]⟩
    · rename_i i u hv
      split
      · exact .inl ⟨rfl, rfl, fun _ => by simp [Database.failWith]⟩
      · rename_i hpol
        split
        · exact .inl ⟨rfl, rfl, fun _ => by simp [Database.failWith]⟩
        · exact .inl ⟨rfl, rfl, fun _ => by simp⟩
        · rename_i u' h
          exact .inr ⟨_, .changeUserPassword i u u' hv hpol h, finish_committed nd (db.setUser i u') fs req _ (fun _ h => .inr h)⟩
  case addMfaToken =>
    simp only [exec, Database.addMfaToken]
    split
    · exact .inl ⟨rfl, rfl, fun _ => by simp [Database.failWith]⟩
    · rename_i i u hv
      split
      · exact .inl ⟨rfl, rfl, fun _ => by simp [Database.failWith]⟩
      · exact .inl ⟨rfl, rfl, fun _ => by simp⟩
      · rename_i u' req' h
        exact .inr ⟨_, .addMfaToken i u u' req' hv h, finish_committed nd (db.setUser i u') fs req' _ (fun _ h => .inr h)⟩
  case deleteMfaToken =>
    simp only [exec, Database.deleteMfaToken]
    split
    · exact .inl ⟨rfl, rfl, fun _ => by simp [Database.failWith]⟩
    · rename_i i u hv
      split
      · exact .inl ⟨rfl, rfl, fun _ => by simp [Database.failWith]⟩
      · exact .inl ⟨rfl, rfl, fun _ => by simp⟩
      · rename_i u' h
        exact .inr ⟨_, .deleteMfaToken i u u' hv h, finish_committed nd (db.setUser i u') fs req _ (fun _ h => .inr h)⟩

end GoIdentity
