import Verif.Model.Database
/-!
# The operating system's files: directories, path lookup, permissions

`Model/Database.lean` sees files through literal path strings. Here is the tree of a Unix file system without links, with the
system calls that database.go:123,128,462 and internal/utils/file.go:42 make, and `NewDatabase` and the calls on top of them.
-/
namespace GoIdentity
variable [Ext]

/-- What is found at a place of the tree, with its permission bits. -/
inductive Entry
  | file (mode : Nat) (b : GoString)
  | dir (mode : Nat)
  deriving DecidableEq, Repr

/-- Why a system call fails. -/
inductive Errno | noent | notdir | isdir | exist
  deriving DecidableEq, Repr

/-- The names from the root to a place. -/
abbrev Place := List GoString

/-- The tree, the working directory of the process and its umask. -/
structure Machine where
  tree : Place → Option Entry
  cwd : Place
  umask : Nat

/-- The permissions of something made with `perm`. -/
def Machine.perm (m : Machine) (perm : Nat) : Nat := perm &&& (0o777 ^^^ m.umask % 0o1000)

/-- The kernel's path walk through directories. -/
def walk (t : Place → Option Entry) : Place → List GoString → Except Errno Place
  | cur, [] => .ok cur
  | cur, c :: cs =>
    if c = [] ∨ c = gs! "." then walk t cur cs
    else if c = gs! ".." then walk t cur.dropLast cs
    else
      match t (cur ++ [c]) with
      | some (.dir _) => walk t (cur ++ [c]) cs
      | some (.file ..) => .error .notdir
      | none => .error .noent

/-- One more name, which need not exist. -/
def enter (cur : Place) (c : GoString) : Place :=
  if c = [] ∨ c = gs! "." then cur else if c = gs! ".." then cur.dropLast else cur ++ [c]

namespace Machine

/-- The place a path means: all names but the last one must be directories. -/
def place (m : Machine) (p : GoString) : Except Errno Place :=
  if p = [] then .error .noent
  else
    match walk m.tree (if p.head? = some 47 then [] else m.cwd) (splitByte 47 p).dropLast with
    | .error e => .error e
    | .ok cur => .ok (enter cur ((splitByte 47 p).getLastD []))

/-- `os.Stat`. -/
def stat (m : Machine) (p : GoString) : Except Errno Entry :=
  match m.place p with
  | .error e => .error e
  | .ok k =>
    match m.tree k with
    | none => .error .noent
    | some e => .ok e

/-- `os.Mkdir`, for a path without a slash at its end. -/
def mkdir (m : Machine) (p : GoString) (perm : Nat) : Machine × Option Errno :=
  match m.place p with
  | .error e => (m, some e)
  | .ok k =>
    match m.tree k with
    | some _ => (m, some .exist)
    | none => ({ m with tree := upd m.tree k (some (.dir (m.perm perm))) }, none)

/-- `path[:j]` in `os.MkdirAll`: without slashes at the end and without the last element. -/
def upTo (p : GoString) : GoString := ((p.reverse.dropWhile (· == 47)).dropWhile (· != 47)).reverse

/-- `os.MkdirAll`; `fuel` bounds the recursion, which shortens the path. -/
def mkdirAll (perm : Nat) : Nat → Machine → GoString → Machine × Option Errno
  | 0, m, _ => (m, some .noent)
  | fuel + 1, m, p =>
    match m.stat p with
    | .ok (.dir _) => (m, none)
    | .ok (.file ..) => (m, some .notdir)
    | .error _ =>
      match (if 1 < (upTo p).length then mkdirAll perm fuel m (upTo p).dropLast else (m, none)) with
      | (m, some e) => (m, some e)
      | (m, none) =>
        match m.mkdir p perm with
        | (m, none) => (m, none)
        | (m, some e) =>
          match m.stat p with
          | .ok (.dir _) => (m, none)
          | _ => (m, some e)

/-- A file's contents are replaced; a new file gets the mode 0600 less the umask, an existing one keeps its mode. -/
def setFile (m : Machine) (k : Place) (b : GoString) : Machine :=
  { m with tree := upd m.tree k (some (match m.tree k with
      | some (.file mode _) => .file mode b
      | _ => .file (m.perm 0o600) b)) }

/-- `ioutil.WriteFile(p, data, 0600)` (database.go:462). -/
def writeFile (m : Machine) (p data : GoString) (io : WriteOutcome) : Machine × Option GoErr :=
  match m.place p with
  | .error _ => (m, some (.ext (if p = [] then gs! "open : no such file or directory" else gs! "open")))
  | .ok k =>
    match m.tree k with
    | some (.dir _) => (m, some (.ext (gs! "open " ++ p ++ gs! ": is a directory")))
    | _ =>
      match io with
      | .ok => (m.setFile k data, none)
      | .openErr => (m, some (.ext (gs! "open")))
      | .writeErr n => (m.setFile k (data.take n), some (.ext (gs! "write")))

/-- The files by literal path, as `Model/Database.lean` sees them. -/
def view (m : Machine) : FS := fun p =>
  match m.stat p with
  | .ok (.file _ b) => some (.file b)
  | .ok (.dir _) => some .dir
  | .error _ => none

end Machine

/-- A path up to its last slash. -/
def dirPart (p : GoString) : GoString := (p.reverse.dropWhile (· != 47)).reverse

/-- `filepath.Dir` on Unix. -/
def pathDir (p : GoString) : GoString := pathClean (dirPart p)

/-- `commit` (database.go:455-466). -/
def Database.commitOn (nd : Nondet) (db : Database) (m : Machine) : Database × Machine × Option GoErr :=
  let db := { db with revision := (db.revision + 1) % 2 ^ 64, lastModified := nd.commitTime }
  match m.writeFile db.path (marshalDB db.toDBData) nd.io with
  | (m, none) => (db, m, none)
  | (m, some e) => (db, m, some (.withE .databaseCommit [db.path] e))

/-- The part of `NewDatabase` before the user loop (database.go:123-152). `nd` may let each system call fail that would succeed on
the tree. -/
def Database.openFileOn (nd : Nondet) (m : Machine) (fp : GoString) : Res Database × Machine :=
  if nd.statErr then (.err (.withE .newDatabase [fp] (.ext (gs! "stat"))), m)
  else
    match m.stat fp with
    | .error .noent =>
      if nd.mkdirErr then (.err (.withE .newDatabase [fp] (.ext (gs! "mkdir"))), m)
      else
        match m.mkdirAll 0o700 (pathDir fp).length (pathDir fp) with
        | (m, some _) => (.err (.withE .newDatabase [fp] (.ext (gs! "mkdir"))), m)
        | (m, none) =>
          let db := { empty fp with version := Ext.appVersion }
          let db := { db with policy := (enforceDefaultPolicy db.policy).1 }
          match db.commitOn nd m with
          | (_, m, some e) => (.err (.withE .newDatabase [fp] e), m)
          | (db, m, none) => (.ok db, m)
    | .error _ => (.err (.withE .newDatabase [fp] (.ext (gs! "stat"))), m)
    | .ok (.dir _) => (.err (.withV .newDatabase [fp, gs! "path points to a directory"] []), m)
    | .ok (.file ..) =>
      match readFileBytes nd m.view fp with
      | .err e => (.err (.withE .newDatabase [fp] e), m)
      | .panic => (.panic, m)
      | .ok b =>
        match unmarshalDB b with
        | .err e => (.err (.withE .newDatabase [fp] e), m)
        | .panic => (.panic, m)
        | .ok d =>
          let (policy, changed) := enforceDefaultPolicy d.policy
          let db : Database := { empty fp with toDBData := { d with policy := policy } }
          if changed then
            match db.commitOn nd m with
            | (_, m, some e) => (.err (.withE .newDatabase [fp] e), m)
            | (db, m, none) => (.ok db, m)
          else (.ok db, m)

/-- `NewDatabase` (database.go:114-191). -/
def newDatabaseOn (nd : Nondet) (m : Machine) (fp : GoString) : Res Database × Machine :=
  match Database.openFileOn nd m fp with
  | (.err e, m) => (.err e, m)
  | (.panic, m) => (.panic, m)
  | (.ok db, m) => (Database.loadUsers 0 db.users { db with version := Ext.appVersion }, m)

/-- The file a call commits to: `Copy` sets the path for its own commit (database.go:444-452). -/
def Call.file (c : Call) (db : Database) : GoString := match c with | .copy fp => fp | _ => db.path

/-- A call on a machine.  Calls touch files only where they commit, so the answer is that of `exec` on the files as seen through
paths, with a write that cannot even be opened if the path leads nowhere, and the file at the path becomes what `exec` says. -/
def execOn (c : Call) (nd : Nondet) (db : Database) (m : Machine) (req : Request) : Result × Machine :=
  match m.place (c.file db) with
  | .error _ => (exec c { nd with io := .openErr } db m.view req, m)
  | .ok k =>
    let r := exec c nd db m.view req
    (r, match r.fs (c.file db) with
      | some (.file b) => m.setFile k b
      | _ => m)

end GoIdentity
