import Verif.Model.Path
import Verif.Model.Policy
import Verif.Model.Users
/-!
# database.go, internal/utils/file.go
-/
namespace GoIdentity
variable [Ext]

/-! ## Files -/

/-- What a path names. -/
inductive Node
  | file (b : GoString)
  | dir
  deriving DecidableEq, Repr

/-- The file system, as far as the library observes it: the literal path string decides.  (Two spellings of one file are two
paths here; parent directories made by `os.MkdirAll` are not recorded.) -/
abbrev FS := GoString → Option Node

/-- Update a function at one point; used for Go map assignment and deletion. -/
def upd {α β : Type} [DecidableEq α] (f : α → β) (k : α) (v : β) : α → β := fun x => if x = k then v else f x

/-- `ioutil.WriteFile` (called at database.go:462): open with truncation, then write.  An empty path or a directory cannot be
opened. -/
def writeFile (fs : FS) (path data : GoString) (io : WriteOutcome) : FS × Option GoErr :=
  if path = [] ∨ fs path = some .dir then
    (fs, some (.ext (gs! "open " ++ path ++ if path = [] then gs! ": no such file or directory" else gs! ": is a directory")))
  else
    match io with
    | .ok => (upd fs path (some (.file data)), none)
    | .openErr => (fs, some (.ext (gs! "open")))
    | .writeErr n => (upd fs path (some (.file (data.take n))), some (.ext (gs! "write")))

/-- `expandHomePath` (internal/utils/file.go:23-33); `fp[0]` panics on an empty path. -/
def expandHomePath (fp : GoString) : Res GoString :=
  match fp with
  | [] => .panic
  | c :: rest =>
    if c ≠ 126 then .ok fp
    else
      match Ext.homeDir with
      | none => .err (.ext (gs! "$HOME is not defined"))
      | some hd => .ok (joinPath hd rest)

/-- `ReadFileBytes` (internal/utils/file.go:36-43). -/
def readFileBytes (nd : Nondet) (fs : FS) (fp : GoString) : Res GoString :=
  match expandHomePath fp with
  | .err e => .err e
  | .panic => .panic
  | .ok p =>
    if nd.readErr then .err (.ext (gs! "read"))
    else
      match fs p with
      | some (.file b) => .ok b
      | n => .err (.ext (if n = none then gs! "open " ++ p ++ gs! ": no such file or directory"
          else gs! "read " ++ p ++ gs! ": is a directory"))

/-! ## Database internals -/

namespace Database

/-- `commit` (database.go:455-466).  `MarshalIndent` fails only for times after the year 9999, which a clock does not give. -/
def commit (nd : Nondet) (db : Database) (fs : FS) : Database × FS × Option GoErr :=
  let db := { db with revision := (db.revision + 1) % 2 ^ 64, lastModified := nd.commitTime }
  match writeFile fs db.path (marshalDB db.toDBData) nd.io with
  | (fs, none) => (db, fs, none)
  | (fs, some e) => (db, fs, some (.withE .databaseCommit [db.path] e))

/-- The user a map entry points to. -/
def deref (db : Database) (r : Option Nat) : Option (Nat × User) :=
  match r with
  | none => none
  | some i => (db.users[i]?).map fun u => (i, u)

/-- `getUserByUsername` (database.go:403-413). -/
def getUserByUsername (db : Database) (s : GoString) : Option (Nat × User) :=
  if s.length < 2 then none else db.deref (db.refUsername (toLower s))

/-- `getUserByEmailAddress` (database.go:417-427). -/
def getUserByEmailAddress (db : Database) (s : GoString) : Option (Nat × User) :=
  if s.length < 6 then none else db.deref (db.refEmailAddress (toLower s))

/-- `getUserByID` (database.go:393-400); it has no caller outside tests. -/
def getUserByID (db : Database) (s : GoString) : Option (Nat × User) := db.deref (db.refID (toLower s))

/-- `getUser` (database.go:385-390). -/
def getUser (db : Database) (s : GoString) : Option (Nat × User) :=
  if containsByte 64 s then db.getUserByEmailAddress s else db.getUserByUsername s

/-- `validateUserIdentity` (database.go:468-481). -/
def validateUserIdentity (db : Database) (username email : GoString) : Except GoErr (Nat × User) :=
  match db.getUserByUsername username with
  | none => .error (.std .databaseUserNotFound)
  | some (i, u1) =>
    match db.getUserByEmailAddress email with
    | none => .error (.std .databaseUserNotFound)
    | some (_, u2) => if u1.id ≠ u2.id then .error (.std .databaseInvalidUser) else .ok (i, u1)

/-- Write a mutated user back; in Go the mutation goes through the pointer. -/
def setUser (db : Database) (i : Nat) (u : User) : Database := { db with users := db.users.set i u }

/-! ## Opening -/

/-- The email loop of `NewDatabase` (database.go:171-177). -/
def loadEmails (i : Nat) : List EmailAddress → (GoString → Option Nat) → Res (GoString → Option Nat)
  | [], m => .ok m
  | e :: es, m =>
    let a := toLower e.address
    match m a with
    | some _ => .err (.withV .newDatabaseDuplicateEmail [a, gs! "user"] [])
    | none => loadEmails i es (upd m a (some i))

/-- The password loop of `NewDatabase` (database.go:178-182). -/
def fixAlgorithm (p : Password) : Password := if p.algorithm = [] then { p with algorithm := gs! "bcrypt" } else p

/-- The API-key loop of `NewDatabase` (database.go:183-188). -/
def loadAPIKeys (i : Nat) : List APIKey → (GoString → Option Nat) → Res (GoString → Option Nat)
  | [], m => .ok m
  | k :: ks, m =>
    match m k.pfx with
    | some _ => .err (.withV .newDatabaseDuplicateAPIKey [k.pfx, gs! "user"] [])
    | none => loadAPIKeys i ks (upd m k.pfx (some i))

/-- The body of the user loop of `NewDatabase` (database.go:158-189) for the user at index `i`. -/
def loadUser (i : Nat) (user : User) (db : Database) : Res Database :=
  match user.valid with
  | .err e => .err (.withE .newDatabaseInvalidUser [gs! "user"] e)
  | .panic => .panic
  | .ok _ =>
    let username := toLower user.username
    match db.refUsername username, db.refID user.id with
    | some _, _ => .err (.withV .newDatabaseDuplicateUser [user.username, gs! "user"] [])
    | none, some _ => .err (.withV .newDatabaseDuplicateUserID [user.id, gs! "user"] [])
    | none, none =>
      match loadEmails i user.emailAddresses db.refEmailAddress with
      | .err e => .err e
      | .panic => .panic
      | .ok emails =>
        match loadAPIKeys i user.apiKeys db.refAPIKey with
        | .err e => .err e
        | .panic => .panic
        | .ok keys =>
          .ok { db with
            refUsername := upd db.refUsername username (some i)
            refID := upd db.refID user.id (some i)
            refEmailAddress := emails
            refAPIKey := keys
            users := db.users.set i { user with passwords := user.passwords.map fixAlgorithm } }

/-- The user loop of `NewDatabase` (database.go:158-189), from index `i` on. -/
def loadUsers (i : Nat) : List User → Database → Res Database
  | [], db => .ok db
  | u :: us, db =>
    match loadUser i u db with
    | .err e => .err e
    | .panic => .panic
    | .ok db => loadUsers (i + 1) us db

/-- The empty database of `NewDatabase` (database.go:115-122). -/
def empty (fp : GoString) : Database :=
  { DBData.zero with
    refEmailAddress := fun _ => none, refUsername := fun _ => none, refID := fun _ => none,
    refAPIKey := fun _ => none, path := fp }

/-- The part of `NewDatabase` before the user loop (database.go:123-152): the database as created or read, and the files. -/
def openFile (nd : Nondet) (fs : FS) (fp : GoString) : Res Database × FS :=
  if nd.statErr then (.err (.withE .newDatabase [fp] (.ext (gs! "stat"))), fs)
  else
    match fs fp with
    | none =>
      if nd.mkdirErr then (.err (.withE .newDatabase [fp] (.ext (gs! "mkdir"))), fs)
      else
        let db := { empty fp with version := Ext.appVersion }
        let db := { db with policy := (enforceDefaultPolicy db.policy).1 }
        match db.commit nd fs with
        | (_, fs, some e) => (.err (.withE .newDatabase [fp] e), fs)
        | (db, fs, none) => (.ok db, fs)
    | some .dir => (.err (.withV .newDatabase [fp, gs! "path points to a directory"] []), fs)
    | some (.file _) =>
      match readFileBytes nd fs fp with
      | .err e => (.err (.withE .newDatabase [fp] e), fs)
      | .panic => (.panic, fs)
      | .ok b =>
        match unmarshalDB b with
        | .err e => (.err (.withE .newDatabase [fp] e), fs)
        | .panic => (.panic, fs)
        | .ok d =>
          let (policy, changed) := enforceDefaultPolicy d.policy
          let db : Database := { empty fp with toDBData := { d with policy := policy } }
          if changed then
            match db.commit nd fs with
            | (_, fs, some e) => (.err (.withE .newDatabase [fp] e), fs)
            | (db, fs, none) => (.ok db, fs)
          else (.ok db, fs)

end Database

/-- `NewDatabase` (database.go:114-191). -/
def newDatabase (nd : Nondet) (fs : FS) (fp : GoString) : Res Database × FS :=
  match Database.openFile nd fs fp with
  | (.err e, fs) => (.err e, fs)
  | (.panic, fs) => (.panic, fs)
  | (.ok db, fs) =>
    let db := { db with version := Ext.appVersion }
    (Database.loadUsers 0 db.users db, fs)

/-! ## Calls -/

/-- What a call leaves behind: the database, the files, the request it was given, and how it ended. -/
structure Result where
  db : Database
  fs : FS
  req : Request
  out : Outcome

namespace Database

/-- End a call with an error, changing nothing but the request. -/
def failWith (db : Database) (fs : FS) (req : Request) (e : GoErr) : Result := ⟨db, fs, req, .fail e⟩

/-- The common ending: `if err := db.commit(); err != nil { return wrap(err) }; return nil`. -/
def finish (nd : Nondet) (db : Database) (fs : FS) (req : Request) (wrap : GoErr → GoErr) : Result :=
  match db.commit nd fs with
  | (db, fs, none) => ⟨db, fs, req, .success⟩
  | (db, fs, some e) => ⟨db, fs, req, .fail (wrap e)⟩

/-- The first unused identifier among the first ten drawn (database.go:267-273). -/
def pickID (db : Database) (ids : List GoString) (old : GoString) : GoString :=
  match (ids.take 10).find? (fun id => (db.refID id).isNone) with
  | some id => id
  | none => old

/-- The email loop of `AddUser` (database.go:279-286): the lower-cased addresses, or the error. -/
def checkEmails (db : Database) : List EmailAddress → Except GoErr (List GoString)
  | [] => .ok []
  | e :: es =>
    let a := toLower e.address
    match db.refEmailAddress a with
    | some _ => .error (.withV .addUser [a, gs! "email address already in use"] [])
    | none =>
      match checkEmails db es with
      | .error e => .error e
      | .ok as => .ok (a :: as)

/-- `AddUser` (database.go:251-299). -/
def addUser (nd : Nondet) (db : Database) (fs : FS) (req : Request) : Result :=
  match checkPolicy db.policy req.user.username req.user.password with
  | some e => db.failWith fs req (.withE .addUser [req.user.username] e)
  | none =>
    match User.newWithRoles nd req.user.username req.user.password req.user.email req.user.fullName req.user.roles with
    | .err e => db.failWith fs req (.withE .addUser [req.user.username] e)
    | .panic => ⟨db, fs, req, .panic⟩
    | .ok user =>
      let user := { user with id := db.pickID nd.ids user.id }
      let username := toLower user.username
      match db.refUsername username with
      | some _ => db.failWith fs req (.withV .addUser [username, gs! "username already in use"] [])
      | none =>
        match db.checkEmails user.emailAddresses with
        | .error e => db.failWith fs req e
        | .ok emails =>
          let i := db.users.length
          let db := { db with
            refUsername := upd db.refUsername username (some i)
            refID := upd db.refID user.id (some i)
            refEmailAddress := emails.foldl (fun m a => upd m a (some i)) db.refEmailAddress
            users := db.users ++ [user] }
          db.finish nd fs req (.withE .addUser [username])

/-- `GetUsers` (database.go:302-315). -/
def getUsers (db : Database) (fs : FS) (req : Request) : Result :=
  match db.validateUserIdentity req.user.username req.user.email with
  | .error e => db.failWith fs req (.withE .getUsers [] e)
  | .ok _ =>
    let bundle := db.users.foldl (fun b u => b.add u.metadata) Bundle.new
    ⟨db, fs, { req with response := { req.response with payload := .metadata bundle } }, .success⟩

/-- `GetUser` (database.go:318-327). -/
def getUserCall (db : Database) (fs : FS) (req : Request) : Result :=
  match db.validateUserIdentity req.user.username req.user.email with
  | .error e => db.failWith fs req (.withE .getUsers [] e)
  | .ok (i, _) => ⟨db, fs, { req with response := { req.response with payload := .userPtr i } }, .success⟩

/-- `DeleteUser` (database.go:330-350). -/
def deleteUser (db : Database) (fs : FS) (req : Request) : Result :=
  match db.validateUserIdentity req.user.username req.user.email with
  | .error e => db.failWith fs req (.withE .deleteUser [req.query.id] e)
  | .ok _ => db.failWith fs req (.withV .deleteUser [req.query.id, gs! "user delete operation is not supported"] [])

/-- `r.Response.Code = c`. -/
def setCode (req : Request) (c : Int) : Request := { req with response := { req.response with code := c } }

/-- `AuthenticateUser` (database.go:353-382).  The password hash computed for an unknown user is discarded. -/
def authenticateUser (db : Database) (fs : FS) (req : Request) : Result :=
  match db.getUser req.user.username with
  | none => db.failWith fs (setCode req 400) (.withE .authFailed [] (.std .databaseUserNotFound))
  | some (_, user) =>
    if req.user.password ≠ [] then
      match user.verifyPassword req.user.password with
      | some e => db.failWith fs (setCode req 400) (.withE .authFailed [] e)
      | none => ⟨db, fs, setCode req 200, .success⟩
    else if req.webAuthn.request ≠ [] then
      match user.verifyWebAuthnRequest req.webAuthn with
      | .err e => db.failWith fs (setCode req 400) (.withE .authFailed [] e)
      | .panic => ⟨db, fs, req, .panic⟩
      | .ok _ => ⟨db, fs, setCode req 200, .success⟩
    else db.failWith fs (setCode req 400) (.withV .authFailed [gs! "malformed auth request"] [])

/-- `GetUserCount` (database.go:430-434). -/
def getUserCount (db : Database) : Nat := db.users.length

/-- `GetPath` (database.go:246-248). -/
def getPath (db : Database) : GoString := db.path

/-- `Save` (database.go:437-441). -/
def save (nd : Nondet) (db : Database) (fs : FS) (req : Request) : Result := db.finish nd fs req id

/-- `Copy` (database.go:444-452). -/
def copy (nd : Nondet) (fp : GoString) (db : Database) (fs : FS) (req : Request) : Result :=
  let path := db.path
  match ({ db with path := fp } : Database).commit nd fs with
  | (db, fs, none) => ⟨{ db with path := path }, fs, req, .success⟩
  | (db, fs, some e) => ⟨{ db with path := path }, fs, req, .fail e⟩

/-- `AddPublicKey` (database.go:484-498). -/
def addPublicKey (nd : Nondet) (db : Database) (fs : FS) (req : Request) : Result :=
  match db.validateUserIdentity req.user.username req.user.email with
  | .error e => db.failWith fs req (.withE .addPublicKey [req.key.usage] e)
  | .ok (i, user) =>
    match user.addPublicKey nd req.key with
    | .err e => db.failWith fs req e
    | .panic => ⟨db, fs, req, .panic⟩
    | .ok user => (db.setUser i user).finish nd fs req (.withE .addPublicKey [req.key.usage])

/-- `GetPublicKeys` (database.go:501-520). -/
def getPublicKeys (db : Database) (fs : FS) (req : Request) : Result :=
  match db.validateUserIdentity req.user.username req.user.email with
  | .error e => db.failWith fs req (.withE .getPublicKeys [req.key.usage] e)
  | .ok (_, user) =>
    let bundle := user.publicKeys.foldl
      (fun b k => if k.usage ≠ req.key.usage then b else if k.disabled then b else b.add k) Bundle.new
    ⟨db, fs, { req with response := { req.response with payload := .publicKeys bundle } }, .success⟩

/-- `DeletePublicKey` (database.go:523-537). -/
def deletePublicKey (nd : Nondet) (db : Database) (fs : FS) (req : Request) : Result :=
  match db.validateUserIdentity req.user.username req.user.email with
  | .error e => db.failWith fs req (.withE .deletePublicKey [req.key.id] e)
  | .ok (i, user) =>
    match user.deletePublicKey nd.now req.key with
    | .err e => db.failWith fs req e
    | .panic => ⟨db, fs, req, .panic⟩
    | .ok user => (db.setUser i user).finish nd fs req (.withE .deletePublicKey [req.key.usage])

/-- How the loop of `AddAPIKey` ends. -/
inductive KeyLoop
  | fail (e : GoErr)
  | found (hash : GoString)
  | hang
  deriving DecidableEq

/-- The loop of `AddAPIKey` (database.go:549-570) up to the point where a key is accepted.  The secret `s` is drawn once,
before the loop.  `fuel` counts observed iterations; `attempt` numbers the bcrypt salts.  The
clock readings of the loop are discarded with the temporary passwords; later readings are numbered as if there were none. -/
def keyLoop (nd : Nondet) (db : Database) (s : GoString) : (fuel attempt failCount : Nat) → KeyLoop
  | 0, _, _ => .hang
  | fuel + 1, attempt, failCount =>
    match newPassword nd.now (nd.salts attempt) s with
    | .err e => if failCount > 10 then .fail e else keyLoop nd db s fuel (attempt + 1) (failCount + 1)
    | .panic => .hang -- unreachable: `newPassword` does not panic
    | .ok hk =>
      match db.refAPIKey (s.take 24) with
      | some _ => keyLoop nd db s fuel (attempt + 1) failCount
      | none => .found hk.hash

/-- `AddAPIKey` (database.go:540-576). -/
def addAPIKey (nd : Nondet) (db : Database) (fs : FS) (req : Request) : Result :=
  match db.validateUserIdentity req.user.username req.user.email with
  | .error e => db.failWith fs req (.withE .addAPIKey [req.key.usage] e)
  | .ok (i, user) =>
    match getRandomStringFromRange nd.globalRand nd.seedRand 72 96 with
    | .err e => db.failWith fs req e
    | .panic => ⟨db, fs, req, .panic⟩
    | .ok s =>
      match keyLoop nd db s nd.fuel 0 0 with
      | .hang => ⟨db, fs, req, .hang⟩
      | .fail e => db.failWith fs req e
      | .found hash =>
        let pfx := s.take 24
        let req := { req with
          response := { req.response with payload := .secret s }
          key := { req.key with payload := hash, pfx := pfx } }
        match user.addAPIKey nd.now (getRandomString nd.seedRand s.length 40) req.key with
        | .err e => db.failWith fs req e
        | .panic => ⟨db, fs, req, .panic⟩
        | .ok user =>
          let db := { db.setUser i user with refAPIKey := upd db.refAPIKey pfx (some i) }
          db.finish nd fs req (.withE .addAPIKey [req.key.usage])

/-- `DeleteAPIKey` (database.go:579-594). -/
def deleteAPIKey (nd : Nondet) (db : Database) (fs : FS) (req : Request) : Result :=
  match db.validateUserIdentity req.user.username req.user.email with
  | .error e => db.failWith fs req (.withE .deleteAPIKey [req.key.id] e)
  | .ok (i, user) =>
    match user.deleteAPIKey nd.now req.key with
    | .err e => db.failWith fs req e
    | .panic => ⟨db, fs, req, .panic⟩
    | .ok (user, key) =>
      let req := { req with key := key }
      let db := { db.setUser i user with refAPIKey := upd db.refAPIKey key.pfx none }
      db.finish nd fs req (.withE .deleteAPIKey [req.key.usage])

/-- `GetAPIKeys` (database.go:597-616). -/
def getAPIKeys (db : Database) (fs : FS) (req : Request) : Result :=
  match db.validateUserIdentity req.user.username req.user.email with
  | .error e => db.failWith fs req (.withE .getAPIKeys [req.key.usage] e)
  | .ok (_, user) =>
    let bundle := user.apiKeys.foldl
      (fun b k => if k.usage ≠ req.key.usage then b else if k.disabled then b else b.add k) Bundle.new
    ⟨db, fs, { req with response := { req.response with payload := .apiKeys bundle } }, .success⟩

/-- `ChangeUserPassword` (database.go:619-637). -/
def changeUserPassword (nd : Nondet) (db : Database) (fs : FS) (req : Request) : Result :=
  match db.validateUserIdentity req.user.username req.user.email with
  | .error e => db.failWith fs req (.withE .changeUserPassword [] e)
  | .ok (i, user) =>
    match checkPasswordPolicy db.policy req.user.password with
    | some e => db.failWith fs req (.withE .changeUserPassword [] e)
    | none =>
      match user.changePassword nd req.user.oldPassword req.user.password db.policy.password.keepVersions with
      | .err e => db.failWith fs req e
      | .panic => ⟨db, fs, req, .panic⟩
      | .ok user => (db.setUser i user).finish nd fs req (.withE .changeUserPassword [])

/-- `IdentifyUser` (database.go:641-661). -/
def identifyUser (db : Database) (fs : FS) (req : Request) : Result :=
  match db.getUser req.user.username with
  | none =>
    ⟨db, fs,
      { req with user := { req.user with
          username := gs! "nobody", email := gs! "nobody@localhost", challenges := [gs! "password"] } },
      .success⟩
  | some (_, user) =>
    let req := if req.flags.enabled then { req with flags := User.flagsLoop user.mfaTokens req.flags } else req
    ⟨db, fs,
      setCode { req with user := { req.user with
          username := user.username, email := user.mailClaim, fullName := user.nameClaim,
          roles := user.rolesClaim, challenges := user.challenges } } 200,
      .success⟩

/-- `LookupAPIKey` (database.go:665-686). -/
def lookupAPIKey (db : Database) (fs : FS) (req : Request) : Result :=
  if req.key.payload = [] then db.failWith fs req (.std .lookupAPIKeyPayloadEmpty)
  else if req.key.payload.length < 72 then db.failWith fs req (.std .lookupAPIKeyMalformedPayload)
  else
    let req := { req with key := { req.key with pfx := req.key.payload.take 24 } }
    match db.deref (db.refAPIKey req.key.pfx) with
    | none => db.failWith fs req (.std .lookupAPIKeyFailed)
    | some (_, user) =>
      match User.lookupAPIKey req.key.pfx req.key.payload user.apiKeys with
      | some e => db.failWith fs req e
      | none =>
        ⟨db, fs,
          setCode { req with user := { req.user with username := user.username, email := user.mailClaim } } 200,
          .success⟩

/-- `AddMfaToken` (database.go:689-703). -/
def addMfaToken (nd : Nondet) (db : Database) (fs : FS) (req : Request) : Result :=
  match db.validateUserIdentity req.user.username req.user.email with
  | .error e => db.failWith fs req (.withE .addMfaToken [] e)
  | .ok (i, user) =>
    match user.addMfaToken nd req with
    | (.err e, req) => db.failWith fs req e
    | (.panic, req) => ⟨db, fs, req, .panic⟩
    | (.ok user, req) => (db.setUser i user).finish nd fs req (.withE .addMfaToken [])

/-- `GetMfaTokens` (database.go:706-722). -/
def getMfaTokens (db : Database) (fs : FS) (req : Request) : Result :=
  match db.validateUserIdentity req.user.username req.user.email with
  | .error e => db.failWith fs req (.withE .getMfaTokens [] e)
  | .ok (_, user) =>
    let bundle := user.mfaTokens.foldl (fun b k => if k.disabled then b else b.add k) Bundle.new
    ⟨db, fs, { req with response := { req.response with payload := .mfaTokens bundle } }, .success⟩

/-- `DeleteMfaToken` (database.go:725-739). -/
def deleteMfaToken (nd : Nondet) (db : Database) (fs : FS) (req : Request) : Result :=
  match db.validateUserIdentity req.user.username req.user.email with
  | .error e => db.failWith fs req (.withE .deleteMfaToken [req.mfaToken.id] e)
  | .ok (i, user) =>
    match user.deleteMfaToken nd.now req.mfaToken.id with
    | .err e => db.failWith fs req e
    | .panic => ⟨db, fs, req, .panic⟩
    | .ok user => (db.setUser i user).finish nd fs req (.withE .deleteMfaToken [req.mfaToken.id])

end Database

/-! ## Histories -/

/-- The calls that take a request (database.go), plus `Save` and `Copy`. -/
inductive Call
  | addUser | getUsers | getUser | deleteUser | authenticateUser
  | save | copy (fp : GoString)
  | addPublicKey | getPublicKeys | deletePublicKey
  | addAPIKey | deleteAPIKey | getAPIKeys
  | changeUserPassword | identifyUser | lookupAPIKey
  | addMfaToken | getMfaTokens | deleteMfaToken
  deriving DecidableEq

/-- Perform one call (dispatch only; each case cites its own lines). -/
def exec (c : Call) (nd : Nondet) (db : Database) (fs : FS) (req : Request) : Result :=
  match c with
  | .addUser => db.addUser nd fs req
  | .getUsers => db.getUsers fs req
  | .getUser => db.getUserCall fs req
  | .deleteUser => db.deleteUser fs req
  | .authenticateUser => db.authenticateUser fs req
  | .save => db.save nd fs req
  | .copy fp => db.copy nd fp fs req
  | .addPublicKey => db.addPublicKey nd fs req
  | .getPublicKeys => db.getPublicKeys fs req
  | .deletePublicKey => db.deletePublicKey nd fs req
  | .addAPIKey => db.addAPIKey nd fs req
  | .deleteAPIKey => db.deleteAPIKey nd fs req
  | .getAPIKeys => db.getAPIKeys fs req
  | .changeUserPassword => db.changeUserPassword nd fs req
  | .identifyUser => db.identifyUser fs req
  | .lookupAPIKey => db.lookupAPIKey fs req
  | .addMfaToken => db.addMfaToken nd fs req
  | .getMfaTokens => db.getMfaTokens fs req
  | .deleteMfaToken => db.deleteMfaToken nd fs req

/-- One step of a history: a call, its request and what the runtime chose. -/
structure Op where
  call : Call
  req : Request
  nd : Nondet

/-- A history.  After a panic the deferred unlock has run and the program may go on; a call that never returns keeps the
lock, so nothing happens after it. -/
def run (db : Database) (fs : FS) : List Op → Database × FS
  | [] => (db, fs)
  | o :: os =>
    let r := exec o.call o.nd db fs o.req
    match r.out with
    | .hang => (r.db, r.fs)
    | _ => run r.db r.fs os

end GoIdentity
