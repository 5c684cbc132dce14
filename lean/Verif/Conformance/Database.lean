import Verif.Conformance.MfaToken
import Verif.Conformance.PublicKey
import Verif.Model.Policy
/-!
# The repository's own tests: database_test.go

See Conformance/Small.lean.  The tests draw passwords and RSA keys; here they are fixed.
-/
namespace GoIdentity.Conformance
open Toy

def testUser1 : GoString := gs! "jsmith"
def testEmail1 : GoString := gs! "jsmith@gmail.com"
def testPwd1 : GoString := gs! "Q0wgpWwJ5sXf"
def testFullName1 : GoString := gs! "Smith, John"
def testRoles1 : List GoString := [gs! "viewer", gs! "editor", gs! "admin"]
def testUser2 : GoString := gs! "bjones"
def testEmail2 : GoString := gs! "bjones@gmail.com"
def testPwd2 : GoString := gs! "yz8Tk3JbcVnq2LrD"
def testRoles2 : List GoString := [gs! "viewer"]

def tmpDir : GoString := gs! "/tmp/testdata/go-identity/Test/1"
def dbFile : GoString := gs! "/tmp/testdata/go-identity/Test/1/user_db.json"
def backupFile : GoString := gs! "/tmp/testdata/go-identity/Test/1/user_db_backup.json"

/-- A temporary directory and nothing else. -/
def fsTmp : FS := upd (fun _ => none) tmpDir (some .dir)

/-- Runtime choices at the fixed time, with the i-th UUID. -/
def ndI (i : UInt8) : Nondet := { ndTest with ids := [List.replicate 35 48 ++ [48 + i]], seedRand := fun n => n * 7 + i.toNat }

/-- A database and the files. -/
structure World where
  db : Database
  fs : FS

def reqUser (username password email fullName : GoString) (roles : List GoString) : Request :=
  { user := { username := username, password := password, email := email, fullName := fullName, roles := roles } }

/-- The text of the error a call returned. -/
def outText (r : Result) : Option GoString :=
  match r.out with
  | .done (some e) => textOf e
  | _ => none

/-- The call returned without an error. -/
def passed (r : Result) : Bool :=
  match r.out with
  | .done none => true
  | _ => false

def call (c : Call) (i : UInt8) (w : World) (req : Request) : Result := exec c (ndI i) w.db w.fs req
def worldOf (r : Result) : World := ⟨r.db, r.fs⟩

/-- `&PublicKey{}` -/
def emptyKey : PublicKey := ⟨[], [], [], [], [], [], [], [], false, .zero, .zero, false, .zero⟩

/-- Append an empty public key to the user called `name`, as the test does through its pointer. -/
def withEmptyKey (name : GoString) (w : World) : World :=
  match w.db.getUser name with
  | some (i, u) => { w with db := w.db.setUser i { u with publicKeys := u.publicKeys ++ [emptyKey] } }
  | none => w

/-- The empty database of `createTestDatabase` (database_test.go:70). -/
def world0 : World :=
  match newDatabase (ndI 0) fsTmp dbFile with
  | (.ok d, fs) => ⟨d, fs⟩
  | (_, fs) => ⟨Database.empty [], fs⟩

def add1 : Result := call .addUser 1 world0 (reqUser testUser1 testPwd1 testEmail1 testFullName1 testRoles1)
def world1 : World := withEmptyKey testUser1 (worldOf add1)
def add2 : Result := call .addUser 2 world1 (reqUser testUser2 testPwd2 testEmail2 [] testRoles2)

/-- `createTestDatabase` (database_test.go:45-86). -/
def world2 : World := withEmptyKey testUser2 (worldOf add2)

example : (newDatabase (ndI 0) fsTmp dbFile).1.isOk = true ∧ passed add1 = true ∧ passed add2 = true := by decide +kernel

/-! ## TestNewDatabase (database_test.go:88-175) -/

example : (world0.db.getPath, world0.db.getUserCount) = (dbFile, 0) := by decide +kernel
example : passed (call .save 3 (worldOf add1) {}) = true ∧
    passed (call (.copy backupFile) 4 (worldOf (call .save 3 (worldOf add1) {})) {}) = true := by decide +kernel
example : errText (newDatabase (ndI 5) fsTmp tmpDir).1 =
    textOf (.withV .newDatabase [tmpDir, gs! "path points to a directory"] []) ∧
    textOf (.withV .newDatabase [tmpDir, gs! "path points to a directory"] []) ≠ none := by decide +kernel
example : (value (newDatabase (ndI 5) (call (.copy backupFile) 4 (worldOf (call .save 3 (worldOf add1) {})) {}).fs dbFile).1).map
      (fun d => (d.getPath, d.getUserCount)) = some (dbFile, 1) := by decide +kernel

/-! ## TestDatabaseAuthentication (database_test.go:177-367) -/

structure AuthView where
  code : Int
  email : GoString
  name : GoString
  roles : List GoString
  sub : GoString
  challenges : List GoString
  deriving DecidableEq

/-- Identify, look at the request, authenticate, and look the user up by name and by ID. -/
def authenticate (w : World) (username password : GoString) : Except (Option GoString) AuthView :=
  let r1 := call .identifyUser 6 w { user := { username := username, password := password } }
  let u := r1.req.user
  let r2 := call .authenticateUser 7 (worldOf r1) r1.req
  if passed r2 then
    match r2.db.getUser r2.req.user.username with
    | some (i, x) =>
      if (r2.db.getUserByID x.id).map (·.1) = some i ∧ (r2.db.getUserByID (gs! "foobar")).isNone then
        .ok ⟨r2.req.response.code, u.email, u.fullName, u.roles, u.username, u.challenges⟩
      else .error none
    | none => .error none
  else .error (outText r2)

def authView (username password : GoString) : Option AuthView :=
  match authenticate world2 username password with
  | .ok v => some v
  | _ => none
def authError (username password : GoString) : Option GoString :=
  match authenticate world2 username password with
  | .error e => e
  | _ => none

example : authView testUser1 testPwd1 =
    some ⟨200, testEmail1, testFullName1, testRoles1, testUser1, [gs! "password"]⟩ := by decide +kernel
example : authView testUser2 testPwd2 = some ⟨200, testEmail2, [], testRoles2, testUser2, [gs! "password"]⟩ := by decide +kernel
example : authView testEmail1 testPwd1 =
    some ⟨200, testEmail1, testFullName1, testRoles1, testUser1, [gs! "password"]⟩ := by decide +kernel
example : authView testEmail2 testPwd2 = some ⟨200, testEmail2, [], testRoles2, testUser2, [gs! "password"]⟩ := by decide +kernel
example : authError testUser1 testPwd2 = textOf (.withE .authFailed [] (.std .userPasswordInvalid)) ∧
    authError testEmail1 testPwd2 = textOf (.withE .authFailed [] (.std .userPasswordInvalid)) ∧
    textOf (.withE .authFailed [] (.std .userPasswordInvalid)) ≠ none := by decide +kernel
example : authError (gs! "foobar") (gs! "barfoo") = textOf (.withE .authFailed [] (.std .databaseUserNotFound)) ∧
    textOf (.withE .authFailed [] (.std .databaseUserNotFound)) ≠ none := by decide +kernel

/-! ## TestDatabaseAddUser (database_test.go:369-462) -/

/-- The error texts of a commit to a directory. -/
def dirError : GoErr := .withV .databaseCommit [tmpDir, gs! "open " ++ tmpDir ++ gs! ": is a directory"] []

/-- The database with `path` overwritten by the directory. -/
def badPath (w : World) : World := { w with db := { w.db with path := tmpDir } }
/-- The database with its own path. -/
def goodPath (w : World) : World := { w with db := { w.db with path := dbFile } }

example : outText (call .addUser 3 world2 (reqUser testUser1 testPwd1 testEmail1 testFullName1 testRoles1)) =
    textOf (.withV .addUser [testUser1, gs! "username already in use"] []) ∧
    textOf (.withV .addUser [testUser1, gs! "username already in use"] []) ≠ none := by decide +kernel
example : outText (call .addUser 3 world2 { user := { email := gs! "foobar@barfoo" } }) =
    textOf (.withE .addUser [[]] (.std .userPolicyCompliance)) ∧
    textOf (.withE .addUser [[]] (.std .userPolicyCompliance)) ≠ none := by decide +kernel
example : outText (call .addUser 3 world2 (reqUser (gs! "foobar") testPwd1 testEmail1 testFullName1 testRoles1)) =
    textOf (.withV .addUser [testEmail1, gs! "email address already in use"] []) ∧
    textOf (.withV .addUser [testEmail1, gs! "email address already in use"] []) ≠ none := by decide +kernel
example : outText (call .addUser 3 (badPath world2)
      { user := { username := gs! "foobar", password := gs! "0123456789abcdef", email := gs! "foobar@barfoo" } }) =
    textOf (.withE .addUser [gs! "foobar"] dirError) ∧ textOf (.withE .addUser [gs! "foobar"] dirError) ≠ none := by
  decide +kernel

/-! ## TestDatabaseChangeUserPassword (database_test.go:464-571) -/

def reqChange (username email old new : GoString) : Request :=
  { user := { username := username, email := email, oldPassword := old, password := new } }
def newPwd : GoString := gs! "0123456789abcdef"

example : outText (call .changeUserPassword 3 world2 (reqChange testUser1 testEmail1 (gs! "foobar") newPwd)) =
    textOf (.withE .changeUserPassword [] (.std .userPasswordInvalid)) ∧
    textOf (.withE .changeUserPassword [] (.std .userPasswordInvalid)) ≠ none := by decide +kernel

def changed : Result := call .changeUserPassword 3 world2 (reqChange testUser1 testEmail1 testPwd1 newPwd)

example : passed changed = true ∧
    passed (call .authenticateUser 4 (worldOf changed) { user := { username := testUser1, password := newPwd } }) = true ∧
    (changed.db.getUser testUser1).map (fun x => x.2.passwords.length) = some 2 := by decide +kernel
example : outText (call .changeUserPassword 4 (worldOf changed)
      (reqChange (gs! "foobar") (gs! "foobar@barfoo") (gs! "foobar") newPwd)) =
    textOf (.withE .changeUserPassword [] (.std .databaseUserNotFound)) ∧
    textOf (.withE .changeUserPassword [] (.std .databaseUserNotFound)) ≠ none := by decide +kernel
example : outText (call .changeUserPassword 4 (badPath (worldOf changed)) (reqChange testUser2 testEmail2 testPwd2 newPwd)) =
    textOf (.withE .changeUserPassword [] dirError) ∧ textOf (.withE .changeUserPassword [] dirError) ≠ none := by decide +kernel

end GoIdentity.Conformance
