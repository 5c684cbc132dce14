import Verif.Spec.Proper
import Verif.Spec.Strings
/-!
# Sessions

A database and its file, used by one program: calls see the files as the calls before left them.
-/
namespace GoIdentity
variable [Ext]

/-- `Session fp cs db fs`: a database was opened from `fp`, the calls `cs` (latest first) were made, none of the writes to `fp`
failed, and now the database is `db` and the files are `fs`.  (Calls may have been rejected; writes of copies may have
failed.) -/
inductive Session (fp : GoString) : List Call → Database → FS → Prop
  | start {db : Database} (nd : Nondet) (fs fs' : FS) (hnd : nd.Proper) (h : newDatabase nd fs fp = (.ok db, fs')) :
      Session fp [] db fs'
  | call {cs : List Call} {db : Database} {fs : FS} (h : Session fp cs db fs) (c : Call) (nd : Nondet) (req : Request)
      (hnd : nd.Proper) (hfresh : c = .addUser → ∃ id ∈ nd.ids.take 10, ∀ u ∈ db.users, u.id ≠ id)
      (hio : c.target db = fp → nd.io = .ok) :
      Session fp (c :: cs) (exec c nd db fs req).db (exec c nd db fs req).fs

theorem Session.proper {fp : GoString} {cs : List Call} {db : Database} {fs : FS} (h : Session fp cs db fs) : ReachProper db := by
  induction h with
  | start nd fs fs' hnd h => exact .init nd fs fp fs' hnd h
  | call h c nd req hnd hfresh hio ih => exact .step ih c nd _ req hnd hfresh

/-- `Lifetime fp cs db fs db' fs'`: from `db` and `fs`, by the calls `cs` and by any number of restarts (the program ends, the
file is opened again), came `db'` and `fs'`.  Whenever the program ended, the stored strings were valid UTF-8. -/
inductive Lifetime (fp : GoString) (db₀ : Database) (fs₀ : FS) : List Call → Database → FS → Prop
  | refl : Lifetime fp db₀ fs₀ [] db₀ fs₀
  | call {cs : List Call} {db : Database} {fs : FS} (h : Lifetime fp db₀ fs₀ cs db fs) (c : Call) (nd : Nondet) (req : Request)
      (hnd : nd.Proper) (hfresh : c = .addUser → ∃ id ∈ nd.ids.take 10, ∀ u ∈ db.users, u.id ≠ id)
      (hio : c.target db = fp → nd.io = .ok) :
      Lifetime fp db₀ fs₀ (c :: cs) (exec c nd db fs req).db (exec c nd db fs req).fs
  | restart {cs : List Call} {db db' : Database} {fs fs' : FS} (h : Lifetime fp db₀ fs₀ cs db fs) (nd : Nondet) (hnd : nd.Proper)
      (hstr : db.toDBData.Strings)
      (hopen : newDatabase nd fs fp = (.ok db', fs')) : Lifetime fp db₀ fs₀ cs db' fs'

end GoIdentity
