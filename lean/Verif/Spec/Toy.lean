import Verif.Spec.Reach
/-!
# A small concrete world

An instance of the external algorithms, requests and a database used to show that the hypotheses of the theorems can be
met.  Nothing else depends on this file.
-/
namespace GoIdentity.Toy
open GoIdentity

/-- A toy world: bcrypt computes a remainder, signatures are checksums. -/
scoped instance toyExt : Ext where
  lowerRune r := r
  bcryptRaw _ salt key := Sha.natBE 23 (Sha.beNat (salt ++ key) % (2 ^ 184 - 33))
  ecdsaOdd _ _ _ _ := false
  pgpRead _ := none
  oddStep _ _ := 0
  homeDir := some (gs! "/home/me")
  appVersion := gs! "1.1.6"

/-- Runtime choices without failures. -/
def nd : Nondet where
  now _ := ⟨2026, 1, 2, 3, 4, 5, 0, 0⟩
  commitTime := ⟨2026, 1, 2, 3, 4, 5, 0, 0⟩
  unix := 1000000000
  userID := List.replicate 36 97
  ids := [List.replicate 36 98]
  salts _ := some [1]
  globalRand _ := 0
  seedRand i := i
  io := .ok
  statErr := false
  mkdirErr := false
  readErr := false
  fuel := 20

/-- Another UUID. -/
def nd2 : Nondet := { nd with ids := [List.replicate 36 99] }

def path : GoString := gs! "/tmp/db.json"
def fs0 : FS := fun _ => none
/-- The database created at `path`. -/
def db0 : Database :=
  match newDatabase nd fs0 path with
  | (.ok d, _) => d
  | _ => Database.empty []
def fs1 : FS := (newDatabase nd fs0 path).2

/-- Register a user. -/
def reqJoe : Request :=
  { user := { username := gs! "Joe", email := gs! "Joe@example.com", password := gs! "password1",
              fullName := gs! "Smith, Joe", roles := [gs! "org/admin", gs! "viewer", gs! "viewer"] } }
def reqAnn : Request :=
  { user := { username := gs! "ann", email := gs! "ann@example.com", password := gs! "password2" } }

/-- With one user. -/
def db1 : Database := (exec .addUser nd db0 fs1 reqJoe).db
def fs2 : FS := (exec .addUser nd db0 fs1 reqJoe).fs
/-- With two users. -/
def db2 : Database := (exec .addUser nd2 db1 fs2 reqAnn).db
def fs3 : FS := (exec .addUser nd2 db1 fs2 reqAnn).fs

theorem db0_created : Created db0 := ⟨nd, fs0, path, fs1, rfl, rfl⟩
theorem db0_opened : Opened db0 := ⟨nd, fs0, path, fs1, rfl⟩
theorem db1_reach : Reach Created db1 := .step (.init db0_created) ..
theorem db2_reach : Reach Created db2 := .step db1_reach ..
theorem db1_reachO : Reach Opened db1 := .step (.init db0_opened) ..
theorem db2_reachO : Reach Opened db2 := .step db1_reachO ..

example : (exec .addUser nd db0 fs1 reqJoe).out = .success := by decide +kernel
example : (exec .addUser nd2 db1 fs2 reqAnn).out = .success := by decide +kernel
example : db2.users.length = 2 := by decide +kernel
end GoIdentity.Toy
