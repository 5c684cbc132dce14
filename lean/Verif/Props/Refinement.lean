import Verif.Lemmas.Book
import Verif.Props.ApiKeys
import Verif.Props.Opening
/-!
# The database is a plain list of accounts: C93
-/
namespace GoIdentity
open Toy

/-- C93: one call.  In a database reached without coinciding account or key identifiers, with a working source of
randomness, a call leaves the accounts, the request and the verdict that the list of accounts prescribes; the file and its
contents decide only whether it can be written. -/
theorem C93_call [Ext] {db : Database} (hf : ReachFresh db) (hk : ReachKeys db) (c : Call) (nd : Nondet) (fs : FS) (req : Request)
    (hsalts : ∀ n, (nd.salts n).isSome = true) (hfuel : 0 < nd.fuel) {written : Bool}
    (hw : written = true ↔ Book.target db.path c ≠ [] ∧ fs (Book.target db.path c) ≠ some .dir ∧ nd.io = .ok) :
    let r := exec c nd db fs req
    let a := Book.step c nd db.policy written db.users req
    r.db.users = a.accounts ∧ r.req = a.req ∧ r.out.verdict = a.verdict ∧ r.db.policy = db.policy ∧ r.db.path = db.path := by
  have ht : Book.target db.path c = c.target db := by cases c <;> rfl
  rw [ht] at hw
  have h := Book.step_same ⟨reach_inv (fresh_reach hf), fresh_invID hf, fun p i => (C22_index_exact hk p i).1⟩ c nd fs req hw
    hsalts hfuel
  obtain ⟨p1, p2, _⟩ := exec_path c nd db fs req
  exact ⟨h.accounts, h.req, h.verdict, p2, p1⟩

/-- C93: any history on an opened database gives, call by call, the requests and verdicts that the list of its accounts
gives, and leaves the accounts that the list has in the end. -/
theorem C93_history [Ext] {db : Database} (h : Opened db) (hids : ∀ u ∈ db.users, (u.apiKeys.map (·.id)).Nodup) (fs : FS)
    {dirs : GoString → Bool} (hd : ∀ p, fs p = some .dir ↔ dirs p = true) {ops : List Op}
    (hb : Book.Behaved dirs db.path db.policy db.users ops) :
    (run db fs ops).1.users = (Book.play dirs db.path db.policy db.users ops).1 ∧
      transcript db fs ops = (Book.play dirs db.path db.policy db.users ops).2 :=
  Book.play_same ops (Book.opened_faithful h) hids hd hb

/-- C93: the life of a database that did not exist before is that of a list that starts empty. -/
theorem C93_from_nothing [Ext] {nd : Nondet} {fs fs' : FS} {fp : GoString} {db : Database} (hnone : fs fp = none)
    (h : newDatabase nd fs fp = (.ok db, fs')) {dirs : GoString → Bool} (hd : ∀ p, fs' p = some .dir ↔ dirs p = true)
    {ops : List Op} (hb : Book.Behaved dirs fp defaultPolicy [] ops) :
    (run db fs' ops).1.users = (Book.play dirs fp defaultPolicy [] ops).1 ∧
      transcript db fs' ops = (Book.play dirs fp defaultPolicy [] ops).2 := by
  obtain ⟨h1, h2, _, _⟩ := C40_new_database hnone h
  have hp : db.path = fp := by obtain ⟨_, _, _, _, h4⟩ := newDatabase_data h; exact h4
  have := C93_history ⟨_, _, _, _, h⟩ (by rw [h2]; simp) fs' hd (ops := ops) (by rw [hp, h1, h2]; exact hb)
  rw [hp, h1, h2] at this
  exact this

/-- C93: two opened databases with the same accounts, policy and path answer every history alike and end with the same
accounts, whatever their revision, time of modification, version and the contents of the files. -/
theorem C93_only_accounts_matter [Ext] {db db' : Database} (h : Opened db) (h' : Opened db') (hu : db.users = db'.users)
    (hpol : db.policy = db'.policy) (hpath : db.path = db'.path)
    (hids : ∀ u ∈ db.users, (u.apiKeys.map (·.id)).Nodup) {fs fs' : FS} {dirs : GoString → Bool}
    (hd : ∀ p, fs p = some .dir ↔ dirs p = true) (hd' : ∀ p, fs' p = some .dir ↔ dirs p = true) {ops : List Op}
    (hb : Book.Behaved dirs db.path db.policy db.users ops) :
    (run db fs ops).1.users = (run db' fs' ops).1.users ∧ transcript db fs ops = transcript db' fs' ops := by
  obtain ⟨a1, a2⟩ := C93_history h hids fs hd hb
  rw [hu] at hids
  rw [hu, hpol, hpath] at hb a1 a2
  obtain ⟨b1, b2⟩ := C93_history h' hids fs' hd' hb
  exact ⟨a1.trans b1.symm, a2.trans b2.symm⟩

/-- C93, why coinciding key identifiers are excluded: after two keys of one identifier were deleted by one call, no account has a
key, so the list would issue one, but the call on the database never returns. -/
theorem C93_not_with_equal_key_ids : Reach Created dbAfter ∧ (exec .addAPIKey ndA dbAfter fs3 reqApi).out.verdict = .stuck ∧
    (Book.step .addAPIKey ndA dbAfter.policy true dbAfter.users reqApi).verdict = .ok :=
  ⟨C22_index_leak_with_equal_ids.1, by decide +kernel, by decide +kernel⟩

/-- Joe's and Ann's registration, a second Joe, Joe's login, and a wrong password. -/
def bookOps : List Op :=
  [⟨.addUser, reqJoe, nd⟩, ⟨.addUser, reqAnn, nd2⟩, ⟨.addUser, reqJoe, { nd with ids := [List.replicate 36 100] }⟩, ⟨.authenticateUser, reqJoe, nd⟩,
    ⟨.authenticateUser, { reqJoe with user := { reqJoe.user with password := gs! "password2" } }, nd⟩,
    ⟨.addAPIKey, reqApi, ndA⟩, ⟨.addAPIKey, reqApi, ndA⟩, ⟨.getUsers, reqJoe, nd⟩]

example : (Book.play (fun _ => false) path db0.policy [] bookOps).2.map (·.2) =
    [.ok, .ok, .refused, .ok, .refused, .ok, .stuck] := by decide +kernel

example : (transcript db0 fs1 bookOps).map (·.2) = [.ok, .ok, .refused, .ok, .refused, .ok, .stuck] := by decide +kernel

example : Book.Behaved (fun _ => false) path db0.policy [] bookOps := by
  unfold bookOps
  refine ⟨fun _ => ⟨List.replicate 36 98, by decide, by decide +kernel⟩, by decide +kernel, fun _ => rfl, by decide, fun _ => ?_⟩
  refine ⟨fun _ => ⟨List.replicate 36 99, by decide, by decide +kernel⟩, by decide +kernel, fun _ => rfl, by decide, fun _ => ?_⟩
  refine ⟨fun _ => ⟨List.replicate 36 100, by decide, by decide +kernel⟩, by decide +kernel, fun _ => rfl, by decide, fun _ => ?_⟩
  refine ⟨nofun, by decide +kernel, fun _ => rfl, by decide, fun _ => ?_⟩
  refine ⟨nofun, by decide +kernel, fun _ => rfl, by decide, fun _ => ?_⟩
  refine ⟨nofun, by decide +kernel, fun _ => rfl, by decide, fun _ => ?_⟩
  refine ⟨nofun, by decide +kernel, fun _ => rfl, by decide, fun h => absurd (by decide +kernel) h⟩

end GoIdentity
