import Verif.Spec.Reach
import Verif.Spec.WellFormed
/-!
# Histories on a well-behaved runtime

Go's clock, `uuid.NewV4().String()` and bcrypt never return what the model's runtime choices would allow in general: an
impossible date, an identifier that does not have 36 bytes.  These histories exclude that, and the case that ten random
UUIDs are all in use.
-/
namespace GoIdentity
variable [Ext]

/-- The clock shows a date up to the year 9999, and the UUIDs have their usual length (database.go:268). -/
structure Nondet.Proper (nd : Nondet) : Prop where
  now : nd.now.Ok
  commitTime : nd.commitTime.Ok
  ids : ∀ id ∈ nd.ids, id.length = 36

/-- Databases opened and used on a well-behaved runtime, each `AddUser` finding an unused UUID among its ten attempts. -/
inductive ReachProper : Database → Prop
  | init {db : Database} (nd : Nondet) (fs : FS) (fp : GoString) (fs' : FS) (hnd : nd.Proper)
      (h : newDatabase nd fs fp = (.ok db, fs')) : ReachProper db
  | step {db : Database} (h : ReachProper db) (c : Call) (nd : Nondet) (fs : FS) (req : Request) (hnd : nd.Proper)
      (hfresh : c = .addUser → ∃ id ∈ nd.ids.take 10, ∀ u ∈ db.users, u.id ≠ id) :
      ReachProper (exec c nd db fs req).db

theorem ReachProper.fresh {db : Database} (h : ReachProper db) : ReachFresh db := by
  induction h with
  | init nd fs fp fs' hnd h => exact .init ⟨nd, fs, fp, fs', h⟩
  | step h c nd fs req hnd hfresh ih => exact .step ih c nd fs req hfresh

end GoIdentity
