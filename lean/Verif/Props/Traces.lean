import Verif.Props.Identity
import Verif.Props.Total
import Verif.Props.Passwords
import Verif.Spec.Toy
/-!
# What leaves traces: C87, and the rest of C06
-/
namespace GoIdentity
open Toy

/-- C06: everything of a new user that the request does not give is empty: in particular the account is neither enabled nor
locked out, and the user has no title, organization, address or picture. -/
theorem C06_rest_is_empty [Ext] {nd : Nondet} {db : Database} {fs : FS} {req : Request}
    (hs : (exec .addUser nd db fs req).Succeeded) :
    ∃ u, (exec .addUser nd db fs req).db.users = db.users ++ [u] ∧ (∃ k, u.lastModified = nd.now k) ∧
      u.enabled = false ∧ u.human = false ∧ u.title = [] ∧ u.organization = none ∧ u.organizations = [] ∧
      u.streetAddress = [] ∧ u.lockout = none ∧ u.avatar = none := by
  obtain ⟨db', m, hc⟩ := exec_success rfl hs
  rw [hc.db_eq]
  cases m with
  | addUser user emails hpol hnew hname hemails =>
    obtain ⟨p, e, roles, name, hp, he, hr, hn, _, _, rfl⟩ := User.newWithRoles_ok hnew
    exact ⟨_, rfl, ⟨_, rfl⟩, rfl, rfl, rfl, rfl, rfl, rfl, rfl, rfl⟩

/-- The calls of a history that change data and return nil. -/
def effective [Ext] (db : Database) (fs : FS) : List Op → List Op
  | [] => []
  | o :: os =>
    let r := exec o.call o.nd db fs o.req
    if r.out = .hang then []
    else if o.call.mutates = true ∧ r.out = .success then o :: effective r.db r.fs os
    else effective r.db r.fs os

/-- C87: only mutating calls that return nil leave traces: without all the others the database and the files would be the same.
(Writes are assumed to work.) -/
theorem C87_only_successes_matter [Ext] {db : Database} {fs : FS} {ops : List Op} (hio : ∀ o ∈ ops, o.nd.io = .ok)
    (hcopy : ∀ o ∈ ops, ∀ p, o.call ≠ .copy p) (hne : db.path ≠ []) (hd : fs db.path ≠ some .dir) :
    run db fs ops = run db fs (effective db fs ops) := by
  induction ops generalizing db fs with
  | nil => rfl
  | cons o os ih =>
    have ht : o.call.target db = db.path := C44_target db o.call (hcopy o (by simp))
    have hpath := (exec_path o.call o.nd db fs o.req).1
    have hd' : (exec o.call o.nd db fs o.req).fs (exec o.call o.nd db fs o.req).db.path ≠ some .dir := by
      rw [hpath]
      rcases exec_spec o.call o.nd db fs o.req with h4 | ⟨db1, m, h4⟩
      · rw [h4.fs_eq]; exact hd
      · rw [h4.fs_eq, ht, hio o (by simp), writeFile_ok hne hd]
        simp [upd_same]
    have ih' := ih (db := (exec o.call o.nd db fs o.req).db) (fs := (exec o.call o.nd db fs o.req).fs)
      (fun o ho => hio o (by simp [ho])) (fun o ho => hcopy o (by simp [ho])) (by rw [hpath]; exact hne) hd'
    have hun : ¬ (o.call.mutates = true ∧ (exec o.call o.nd db fs o.req).out = .success) →
        (exec o.call o.nd db fs o.req).Unchanged db fs := by
      intro hc
      by_cases hm : o.call.mutates = true
      · exact C07_rejected_call_changes_nothing_env (fun hs => hc ⟨hm, hs⟩) (hio o (by simp)) (by rw [ht]; exact hne)
          (by rw [ht]; exact hd)
      · exact C43_read_only_calls (by simpa using hm) o.nd db fs o.req
    unfold effective
    dsimp only
    by_cases hh : (exec o.call o.nd db fs o.req).out = .hang
    · rw [if_pos hh]
      obtain ⟨h1, h2⟩ := hun (by rw [hh]; simp)
      unfold run
      dsimp only
      rw [hh]
      simp only [h1, h2]
    · rw [if_neg hh]
      have hrun : run db fs (o :: os) = run (exec o.call o.nd db fs o.req).db (exec o.call o.nd db fs o.req).fs os := by
        conv => lhs; unfold run
        dsimp only
        split
        · exact absurd ‹_› hh
        · rfl
      rw [hrun, ih']
      by_cases hc : o.call.mutates = true ∧ (exec o.call o.nd db fs o.req).out = .success
      · rw [if_pos hc]
        conv => rhs; unfold run
        dsimp only
        split
        · exact absurd ‹_› hh
        · rfl
      · rw [if_neg hc]
        obtain ⟨h1, h2⟩ := hun hc
        rw [h1, h2]

/-- C87: reading calls, however many and whatever they answer, have no effect on any later call: failed logins are neither
counted nor delayed, nothing is locked, and right and wrong attempts leave the same nothing. -/
theorem C87_attempts_leave_nothing [Ext] {db : Database} {fs : FS} {ops : List Op} (h : ∀ o ∈ ops, o.call.mutates = false) :
    run db fs ops = (db, fs) := by
  induction ops with
  | nil => rfl
  | cons o os ih =>
    obtain ⟨h1, h2⟩ := C43_read_only_calls (h o (by simp)) o.nd db fs o.req
    have ih := ih fun o ho => h o (by simp [ho])
    unfold run
    dsimp only
    rw [h1, h2]
    split
    · rfl
    · exact ih

/-- C87: a login is accepted or refused alike after any number of logins, lookups and listings. -/
theorem C87_guessing_is_unlimited [Ext] {db : Database} {fs : FS} {ops : List Op} (h : ∀ o ∈ ops, o.call.mutates = false)
    (nd : Nondet) (req : Request) :
    (exec .authenticateUser nd (run db fs ops).1 (run db fs ops).2 req).out = (exec .authenticateUser nd db fs req).out := by
  rw [C87_attempts_leave_nothing h]

/-- C87: no call locks an account, unlocks one or enables one: every user of a database created by the library is neither
enabled nor locked out, and users read from a file stay as they were read. -/
theorem C87_lockout_never_set [Ext] {db : Database} (h : Reach Created db) : ∀ u ∈ db.users, u.lockout = none ∧ u.enabled = false := by
  induction h with
  | init h => simp [created_users h]
  | @step db hdb c nd fs req ih =>
    intro u hu
    obtain ⟨j, hj⟩ := List.getElem?_of_mem hu
    by_cases hlt : j < db.users.length
    · obtain ⟨v, hv, hsame⟩ := exec_same (c := c) (nd := nd) (fs := fs) (req := req) (List.getElem?_eq_getElem hlt)
      rw [hj] at hv
      cases hv
      obtain ⟨h1, h2⟩ := ih _ (List.getElem_mem hlt)
      exact ⟨by rw [hsame.lockout, h1], by rw [hsame.enabled, h2]⟩
    · rcases exec_users' c nd db fs req with h | h
      · rw [h] at hj
        exact absurd (List.getElem?_eq_some_iff.1 hj).1 hlt
      · revert h hj
        generalize (exec c nd db fs req).db.users = us
        intro hj h
        cases h with
        | appended p e roles name =>
          rw [List.getElem?_append_right (by omega)] at hj
          obtain ⟨_, rfl⟩ := List.getElem?_eq_some_iff.1 hj
          simp [newUserOf, User.zero]
        | modified c i v v' hv hop =>
          have := (List.getElem?_eq_some_iff.1 hj).1
          rw [List.length_set] at this
          exact absurd this hlt
        | _ => exact absurd (List.getElem?_eq_some_iff.1 hj).1 hlt

/-- A login of Joe. -/
def loginJoe (pw : GoString) : Op := ⟨.authenticateUser, { user := { reqJoe.user with password := pw } }, nd⟩

/-- Three wrong guesses, then the right password. -/
example : run db1 fs2 [loginJoe (gs! "guess one"), loginJoe (gs! "guess two"), loginJoe []] = (db1, fs2) ∧
    (exec .authenticateUser nd db1 fs2 (loginJoe (gs! "guess one")).req).out ≠ .success ∧
    (exec .authenticateUser nd db1 fs2 (loginJoe reqJoe.user.password).req).out = .success := by
  refine ⟨C87_attempts_leave_nothing ?_, by decide +kernel, by decide +kernel⟩
  intro o ho
  simp only [List.mem_cons, List.not_mem_nil, or_false] at ho
  rcases ho with rfl | rfl | rfl <;> rfl

/-- Of five calls, two change data and return nil. -/
example : (effective db0 fs1 [⟨.addUser, reqJoe, nd⟩, loginJoe (gs! "guess"), ⟨.addUser, reqJoe, nd2⟩, ⟨.addUser, reqAnn, nd2⟩,
    ⟨.deleteUser, reqJoe, nd⟩]).map (·.call) = [.addUser, .addUser] := by decide +kernel

/-- The database holds users, and none is enabled or locked out. -/
example : db2.users.length = 2 ∧ ∀ u ∈ db2.users, u.lockout = none ∧ u.enabled = false :=
  ⟨by decide +kernel, C87_lockout_never_set db2_reach⟩

end GoIdentity
