import Verif.Model.Tree
import Verif.Lemmas.Path
/-!
# Words for files, directories and permissions (C92)
-/
namespace GoIdentity

/-- There is a directory at this place. -/
def IsDir (t : Place → Option Entry) (k : Place) : Prop := ∃ mode, t k = some (.dir mode)

/-- The tree hangs together: everything is in a directory, and so is the process. -/
structure Machine.Ok (m : Machine) : Prop where
  root : IsDir m.tree []
  up : ∀ k c e, m.tree (k ++ [c]) = some e → IsDir m.tree k
  cwd : IsDir m.tree m.cwd

/-- The path made of names, absolute or relative. -/
def pathOf (abs : Bool) (names : List GoString) : GoString := (if abs then [47] else []) ++ joinWith [47] names

/-- Where a path of names starts. -/
def Machine.start (m : Machine) (abs : Bool) : Place := if abs then [] else m.cwd

/-- The tree with the missing directories along a list of names. -/
def Machine.withDirs (m : Machine) (perm : Nat) (base ds : Place) : Machine :=
  { m with tree := fun k => if base <+: k ∧ k <+: base ++ ds ∧ m.tree k = none then some (.dir (m.perm perm)) else m.tree k }

/-- The permission bits. -/
def Entry.mode : Entry → Nat
  | .file mode _ => mode
  | .dir mode => mode

def Entry.isDir : Entry → Bool
  | .file .. => false
  | .dir _ => true

/-- What a program can do to a machine with this package: open databases, and call any database it has in memory, in any order and
with any failures. -/
inductive Ran [Ext] (m : Machine) : Machine → Prop
  | refl : Ran m m
  | opened {m' : Machine} (h : Ran m m') (nd : Nondet) (fp : GoString) : Ran m (newDatabaseOn nd m' fp).2
  | called {m' : Machine} (h : Ran m m') (c : Call) (nd : Nondet) (db : Database) (req : Request) : Ran m (execOn c nd db m' req).2

end GoIdentity
