import Verif.Lemmas.Complete
import Verif.Props.Storage
import Verif.Props.Identity
import Verif.Spec.Toy
/-!
# Two `Database` values opened on one file

Nothing in the code ties an open `Database` to the file it was read from: each call works on memory and writes the whole
document.  So two open databases on one path never see each other and the last successful write wins.
-/
set_option linter.unusedSectionVars false
namespace GoIdentity
open Toy

/-- Which of the two open databases a call is made on. -/
inductive Handle
  | a
  | b
  deriving DecidableEq

/-- A call made on one of two databases. -/
structure HOp where
  on : Handle
  call : Call
  nd : Nondet
  req : Request

/-- Two databases and the file system they share. -/
structure Pair where
  a : Database
  b : Database
  fs : FS

/-- The database behind a handle. -/
def Pair.get (s : Pair) : Handle → Database
  | .a => s.a
  | .b => s.b

/-- A call on one of the two: it sees that database and the shared file system. -/
def Pair.step [Ext] (s : Pair) (o : HOp) : Pair :=
  match o.on with
  | .a => ⟨(exec o.call o.nd s.a s.fs o.req).db, s.b, (exec o.call o.nd s.a s.fs o.req).fs⟩
  | .b => ⟨s.a, (exec o.call o.nd s.b s.fs o.req).db, (exec o.call o.nd s.b s.fs o.req).fs⟩

/-- The calls that return, in the order in which they take effect. -/
def Pair.run [Ext] (s : Pair) (ops : List HOp) : Pair := ops.foldl Pair.step s

/-- A call made on one of the two succeeds. -/
def Pair.Succeeds [Ext] (s : Pair) (o : HOp) : Prop := (exec o.call o.nd (s.get o.on) s.fs o.req).Succeeded

/-- What a call does to memory does not depend on the files. -/
theorem exec_db_fs [Ext] (c : Call) (nd : Nondet) (db : Database) (fs fs' : FS) (req : Request) :
    (exec c nd db fs req).db = (exec c nd db fs' req).db := by
  rcases exec_spec c nd db fs req with h | ⟨d, m, h⟩
  · rcases exec_spec c nd db fs' req with h' | ⟨d, m, h'⟩
    · rw [h.db_eq, h'.db_eq]
    · rw [h'.db_eq, (m.exec (fs := fs)).db_eq]
  · rw [h.db_eq, (m.exec (fs := fs')).db_eq]

/-- What the calls made on one handle alone make of its database. -/
def alone [Ext] (h : Handle) (fs : FS) (db : Database) (ops : List HOp) : Database :=
  (ops.filter (fun o => o.on = h)).foldl (fun db o => (exec o.call o.nd db fs o.req).db) db

/-- C72: neither database sees the other: after any interleaving, each is what its own calls alone make of it, on whatever
files. -/
theorem C72_memories_separate [Ext] (s : Pair) (ops : List HOp) (h : Handle) (fs : FS) :
    (s.run ops).get h = alone h fs (s.get h) ops := by
  unfold alone
  induction ops generalizing s with
  | nil => rfl
  | cons o ops ih =>
    show ((s.step o).run ops).get h = _
    rw [ih]
    cases ho : o.on <;> cases h <;> simp only [List.filter, ho, decide_true, decide_false, Pair.step, Pair.get, List.foldl_cons,
      reduceCtorEq]
    · rw [exec_db_fs _ _ _ s.fs fs]
    · rw [exec_db_fs _ _ _ s.fs fs]

theorem Pair.run_append [Ext] (s : Pair) (ops : List HOp) (o : HOp) : s.run (ops ++ [o]) = (s.run ops).step o := by
  unfold Pair.run; rw [List.foldl_append]; rfl

theorem Pair.step_get [Ext] (s : Pair) (o : HOp) : (s.step o).get o.on = (exec o.call o.nd (s.get o.on) s.fs o.req).db := by
  unfold Pair.step Pair.get; cases o.on <;> rfl

theorem Pair.step_fs [Ext] (s : Pair) (o : HOp) : (s.step o).fs = (exec o.call o.nd (s.get o.on) s.fs o.req).fs := by
  unfold Pair.step Pair.get; cases o.on <;> rfl

/-- C72: the last successful write wins, completely: after it the file holds what the calls made on that handle alone would
have stored; nothing of what the other handle wrote is left, although its calls had returned nil. -/
theorem C72_last_writer_wins [Ext] (s : Pair) (ops : List HOp) (o : HOp) (hm : o.call.mutates = true)
    (hs : (s.run ops).Succeeds o) (fs : FS) :
    (s.run (ops ++ [o])).fs (o.call.target ((s.run ops).get o.on)) =
      some (.file (marshalDB (alone o.on fs (s.get o.on) (ops ++ [o])).toDBData)) := by
  rw [← C72_memories_separate, Pair.run_append, Pair.step_get, Pair.step_fs]
  exact (C44_commit_reaches_disk hm hs).2.2.1

/-- C72: opening the file after that gives the data of that handle: a user it does not have is unknown, whoever added it
through the other handle. -/
theorem C72_update_lost [Ext] (s : Pair) (ops : List HOp) (o : HOp) (hr : ReachProper ((s.run ops).get o.on)) (hnd : o.nd.Proper)
    (hfresh : o.call = .addUser → ∃ id ∈ o.nd.ids.take 10, ∀ u ∈ ((s.run ops).get o.on).users, u.id ≠ id)
    (hm : o.call.mutates = true) (hs : (s.run ops).Succeeds o)
    (hp : (o.call.target ((s.run ops).get o.on)).head? ≠ some 126)
    (hstr : ((s.run (ops ++ [o])).get o.on).toDBData.Strings)
    {nd' : Nondet} (hst : nd'.statErr = false) (hrd : nd'.readErr = false) :
    ∃ db', newDatabase nd' (s.run (ops ++ [o])).fs (o.call.target ((s.run ops).get o.on)) = (.ok db', (s.run (ops ++ [o])).fs) ∧
      db'.users = ((s.run (ops ++ [o])).get o.on).users ∧
      ∀ (nd'' : Nondet) (fs'' : FS) (req : Request),
        (∀ u ∈ ((s.run (ops ++ [o])).get o.on).users, ¬ Denotes req.user.username u) →
          ¬ (exec .authenticateUser nd'' db' fs'' req).Succeeded := by
  rw [Pair.run_append, Pair.step_get] at hstr
  rw [Pair.run_append, Pair.step_get, Pair.step_fs]
  obtain ⟨db', h1, h2, h3, h4⟩ := C45_reopen hr hnd hfresh hm hs hp hstr hst hrd
  have hu : db'.users = (exec o.call o.nd ((s.run ops).get o.on) (s.run ops).fs o.req).db.users := congrArg DBData.users h2
  refine ⟨db', h1, hu, fun nd'' fs'' req hn => ?_⟩
  rw [← hu] at hn
  have hg : db'.getUser req.user.username = none := (getUser_none_iff (newDatabase_inv h1)).2 hn
  unfold Result.Succeeded
  simp only [exec, Database.authenticateUser, hg, Database.failWith]
  simp

/-- Joe's database, open twice. -/
def openTwice : Pair := ⟨db1, db1, fs2⟩

/-- Ann is added through one handle. -/
def addAnn : HOp := ⟨.a, .addUser, nd2, reqAnn⟩

/-- The other handle saves. -/
def saveOther : HOp := ⟨.b, .save, nd, {}⟩

/-- Ann logs in. -/
def reqAnnLogin : Request := { user := { username := gs! "ann", password := reqAnn.user.password } }

/-- C72, concretely: `AddUser` returns nil and Ann can log in; then the other handle saves, and in the file as opened again
there is no Ann. -/
theorem C72_ann_is_gone :
    openTwice.Succeeds addAnn ∧
    (exec .authenticateUser nd (openTwice.run [addAnn]).a (openTwice.run [addAnn]).fs reqAnnLogin).Succeeded ∧
    (openTwice.run [addAnn]).Succeeds saveOther ∧
    ∃ db', newDatabase nd (openTwice.run [addAnn, saveOther]).fs path = (.ok db', (openTwice.run [addAnn, saveOther]).fs) ∧
      db'.users = db1.users ∧ ¬ (exec .authenticateUser nd db' (openTwice.run [addAnn, saveOther]).fs reqAnnLogin).Succeeded := by
  refine ⟨by unfold Pair.Succeeds Result.Succeeded; decide +kernel, by unfold Result.Succeeded; decide +kernel,
    by unfold Pair.Succeeds Result.Succeeded; decide +kernel, ?_⟩
  have hb : (openTwice.run [addAnn]).get .b = db1 := rfl
  obtain ⟨db', h1, h2, h3⟩ := C72_update_lost openTwice [addAnn] saveOther (by rw [show saveOther.on = .b from rfl, hb]; exact db1_proper)
    nd_proper (fun h => nomatch h) rfl
    (by unfold Pair.Succeeds Result.Succeeded; decide +kernel) (by decide +kernel)
    (unmarshal_ok (b := marshalDB ((openTwice.run [addAnn, saveOther]).get .b).toDBData) (by decide +kernel)).strings
    (nd' := nd) rfl rfl
  refine ⟨db', h1, h2, h3 _ _ _ fun u hu hd => ?_⟩
  have hu' : u ∈ db1.users := hu
  have key : ∀ u ∈ db1.users, toLower u.username ≠ toLower (gs! "ann") := by decide +kernel
  exact key u hu' hd.2

end GoIdentity
