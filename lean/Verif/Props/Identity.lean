import Verif.Lemmas.Frame
import Verif.Lemmas.Passwords
import Verif.Spec.Toy
/-!
# Users, uniqueness, lookups and frames: C01–C10, C43, C44, C48, C49, C55, C56
-/
namespace GoIdentity
open Toy

/-! ## C01 -/

/-- C01: in every history no two stored users have usernames that agree up to case. -/
theorem C01_usernames_unique [Ext] {db : Database} (h : Reach Opened db) {i j : Nat} {u v : User}
    (hi : db.users[i]? = some u) (hj : db.users[j]? = some v) (he : toLower u.username = toLower v.username) : i = j := by
  have hinv := reach_inv h
  have h1 := hinv.name_ref i u hi
  have h2 := hinv.name_ref j v hj
  rw [he, h2] at h1
  exact (Option.some.inj h1).symm

/-- C01: registering a taken username returns an error and stores nothing. -/
theorem C01_taken_username_rejected [Ext] {db : Database} (h : Reach Opened db) (nd : Nondet) (fs : FS) (req : Request)
    (ht : ∃ u ∈ db.users, toLower u.username = toLower req.user.username) :
    (exec .addUser nd db fs req).Failed ∧ (exec .addUser nd db fs req).Unchanged db fs := by
  obtain ⟨u, hu, he⟩ := ht
  obtain ⟨i, hi⟩ := List.getElem?_of_mem hu
  have href := (reach_inv h).name_ref i u hi
  have hno : ∀ db', ¬ Mutation nd req db .addUser db' := by
    intro db' m
    cases m with
    | addUser user emails hpol hnew hname hemails =>
      obtain ⟨p, e, roles, name, _, _, _, _, _, _, rfl⟩ := User.newWithRoles_ok hnew
      simp only at hname
      rw [← he, href] at hname
      simp at hname
  rcases exec_spec .addUser nd db fs req with h1 | ⟨db', m, _⟩
  · obtain ⟨e, hout⟩ := addUser_returns nd db fs req
    cases e with
    | none => exact absurd hout (h1.out rfl)
    | some e => exact ⟨⟨e, hout⟩, h1.db_eq, h1.fs_eq⟩
  · exact absurd m (hno db')

example : ∃ (i j : Nat) (u v : User), i ≠ j ∧ db2.users[i]? = some u ∧ db2.users[j]? = some v := by
  refine ⟨0, 1, _, _, by decide, List.getElem?_eq_getElem (by decide +kernel), List.getElem?_eq_getElem (by decide +kernel)⟩
example : Reach Opened db2 ∧ ∃ u ∈ db2.users, toLower u.username = toLower (gs! "JOE") :=
  ⟨db2_reachO, by decide +kernel⟩

/-! ## C02 -/

/-- C02: in every history an email address, up to case, belongs to at most one stored user and occurs there once. -/
theorem C02_emails_unique [Ext] {db : Database} (h : Reach Opened db) :
    (∀ (i j : Nat) (u v : User), db.users[i]? = some u → db.users[j]? = some v →
      ∀ e ∈ u.emailAddresses, ∀ f ∈ v.emailAddresses, toLower e.address = toLower f.address → i = j) ∧
    ∀ u ∈ db.users, (u.emailAddresses.map fun e => toLower e.address).Nodup := by
  have hinv := reach_inv h
  refine ⟨?_, hinv.email_nodup⟩
  intro i j u v hi hj e he f hf heq
  have h1 := hinv.email_ref i u e hi he
  have h2 := hinv.email_ref j v f hj hf
  rw [heq, h2] at h1
  exact (Option.some.inj h1).symm

/-- C02: registering a taken address returns an error and stores nothing. -/
theorem C02_taken_email_rejected [Ext] {db : Database} (h : Reach Opened db) (nd : Nondet) (fs : FS) (req : Request)
    (ht : ∃ u ∈ db.users, ∃ e ∈ u.emailAddresses, toLower e.address = toLower req.user.email) :
    (exec .addUser nd db fs req).Failed ∧ (exec .addUser nd db fs req).Unchanged db fs := by
  obtain ⟨u, hu, e, hmem, he⟩ := ht
  obtain ⟨i, hi⟩ := List.getElem?_of_mem hu
  have href := (reach_inv h).email_ref i u e hi hmem
  have hno : ∀ db', ¬ Mutation nd req db .addUser db' := by
    intro db' m
    cases m with
    | addUser user emails hpol hnew hname hemails =>
      obtain ⟨p, e', roles, name, _, hem, _, _, _, _, rfl⟩ := User.newWithRoles_ok hnew
      obtain ⟨_, hfree⟩ := checkEmails_ok hemails
      have haddr : e'.address = req.user.email := by
        unfold newEmailAddress at hem
        split at hem
        · simp at hem
        · split at hem
          · simp at hem; rw [← hem]
          · simp at hem
      have := hfree e' (by simp)
      rw [haddr, ← he, href] at this
      simp at this
  rcases exec_spec .addUser nd db fs req with h1 | ⟨db', m, _⟩
  · obtain ⟨e, hout⟩ := addUser_returns nd db fs req
    cases e with
    | none => exact absurd hout (h1.out rfl)
    | some e => exact ⟨⟨e, hout⟩, h1.db_eq, h1.fs_eq⟩
  · exact absurd m (hno db')

example : ∃ u ∈ db2.users, ∃ e ∈ u.emailAddresses, toLower e.address = toLower (gs! "JOE@Example.com") := by
  decide +kernel

/-! ## C03 -/

/-- C03: if every `AddUser` draws an unused UUID among its ten attempts, no two stored users share an ID. -/
theorem C03_ids_unique [Ext] {db : Database} (h : ReachFresh db) {i j : Nat} {u v : User}
    (hi : db.users[i]? = some u) (hj : db.users[j]? = some v) (he : u.id = v.id) : i = j := by
  have key : Inv db ∧ InvID db := by
    clear hi hj
    induction h with
    | init h => obtain ⟨nd, fs, fp, fs', h⟩ := h; exact ⟨newDatabase_inv h, newDatabase_invID h⟩
    | step h c nd fs req hfresh ih =>
      refine ⟨exec_inv ih.1, exec_invID ih.2 ?_⟩
      intro hc
      obtain ⟨id, hid, hne⟩ := hfresh hc
      refine ⟨id, hid, ?_⟩
      cases hr : Database.refID _ id with
      | none => rfl
      | some k =>
        obtain ⟨w, hw, hwid⟩ := ih.1.id_src _ _ hr
        exact absurd hwid (hne w (List.mem_of_getElem? hw))
  have h1 := key.2 i u hi
  have h2 := key.2 j v hj
  rw [he, h2] at h1
  exact (Option.some.inj h1).symm

/-- C03: every database `NewDatabase` opens has unique IDs, whatever the file says. -/
theorem C03_opened_ids_unique [Ext] {db : Database} (h : Opened db) {i j : Nat} {u v : User}
    (hi : db.users[i]? = some u) (hj : db.users[j]? = some v) (he : u.id = v.id) : i = j :=
  C03_ids_unique (.init h) hi hj he

theorem db1_fresh : ReachFresh db1 := .step (.init db0_opened) _ _ _ _ (fun _ => by decide +kernel)
theorem db2_fresh : ReachFresh db2 := .step db1_fresh _ _ _ _ (fun _ => by decide +kernel)

/-- Three registrations that draw the same UUIDs. -/
def dbDup : Database :=
  let r1 := exec .addUser nd db1 fs2 reqAnn
  (exec .addUser nd r1.db r1.fs { reqAnn with user := { reqAnn.user with
    username := gs! "bob", email := gs! "bob@example.com" } }).db

theorem dbDup_reach : Reach Opened dbDup := .step (.step db1_reachO ..) ..

/-- C03: without the premise the claim is false: ten collisions are ignored and a duplicate ID is stored. -/
theorem C03_duplicate_id_possible :
    Reach Opened dbDup ∧ ∃ (i j : Nat) (u v : User), i ≠ j ∧ dbDup.users[i]? = some u ∧ dbDup.users[j]? = some v ∧ u.id = v.id := by
  refine ⟨dbDup_reach, 1, 2, dbDup.users[1]'(by decide +kernel), dbDup.users[2]'(by decide +kernel), by decide,
    List.getElem?_eq_getElem _, List.getElem?_eq_getElem _, by decide +kernel⟩

/-! ## C04 -/

/-- C04: in every history a login name resolves to a stored user exactly if it denotes that user, and to nobody exactly if
it denotes no stored user. -/
theorem C04_resolution [Ext] {db : Database} (h : Reach Opened db) (s : GoString) :
    (∀ i u, db.getUser s = some (i, u) ↔ db.users[i]? = some u ∧ Denotes s u) ∧
    (db.getUser s = none ↔ ∀ u ∈ db.users, ¬ Denotes s u) :=
  ⟨fun _ _ => getUser_iff (reach_inv h), getUser_none_iff (reach_inv h)⟩

/-- C04, through the API: `IdentifyUser` reports the user the name denotes, and `nobody` when there is none. -/
theorem C04_identify [Ext] {db : Database} (h : Reach Opened db) (nd : Nondet) (fs : FS) (req : Request) :
    (∀ u ∈ db.users, Denotes req.user.username u →
      (exec .identifyUser nd db fs req).req.response.code = 200 ∧
      (exec .identifyUser nd db fs req).req.user.username = u.username) ∧
    ((∀ u ∈ db.users, ¬ Denotes req.user.username u) →
      (exec .identifyUser nd db fs req).req.response.code = req.response.code ∧
      (exec .identifyUser nd db fs req).req.user.username = gs! "nobody") := by
  constructor
  · intro u hu hd
    obtain ⟨i, hi⟩ := List.getElem?_of_mem hu
    have := (getUser_iff (reach_inv h)).2 ⟨hi, hd⟩
    simp only [exec, Database.identifyUser, this, Database.setCode]
    exact ⟨trivial, trivial⟩
  · intro hn
    have := (getUser_none_iff (reach_inv h)).2 hn
    simp only [exec, Database.identifyUser, this]
    exact ⟨trivial, trivial⟩

/-- C04, through the API: `AuthenticateUser` fails with code 400 for a name that denotes nobody, and otherwise decides on the
user the name denotes. -/
theorem C04_authenticate [Ext] {db : Database} (h : Reach Opened db) (nd : Nondet) (fs : FS) (req : Request) :
    ((∀ u ∈ db.users, ¬ Denotes req.user.username u) →
      (exec .authenticateUser nd db fs req).Failed ∧ (exec .authenticateUser nd db fs req).req.response.code = 400) ∧
    (∀ u ∈ db.users, Denotes req.user.username u → req.user.password ≠ [] →
      ((exec .authenticateUser nd db fs req).Succeeded ↔ u.verifyPassword req.user.password = none)) := by
  constructor
  · intro hn
    have := (getUser_none_iff (reach_inv h)).2 hn
    simp only [exec, Database.authenticateUser, this]
    exact ⟨⟨_, rfl⟩, rfl⟩
  · intro u hu hd hp
    obtain ⟨i, hi⟩ := List.getElem?_of_mem hu
    have := (getUser_iff (reach_inv h)).2 ⟨hi, hd⟩
    simp only [exec, Database.authenticateUser, this, if_pos hp, Result.Succeeded]
    cases hv : u.verifyPassword req.user.password with
    | none => simp
    | some e => simp [Database.failWith]

/-- C04: the lookup tables never disagree with the stored users. -/
theorem C04_indexes_agree [Ext] {db : Database} (h : Reach Opened db) :
    (∀ s i, db.refUsername s = some i ↔ ∃ u, db.users[i]? = some u ∧ toLower u.username = s) ∧
    (∀ s i, db.refEmailAddress s = some i ↔
      ∃ u, db.users[i]? = some u ∧ ∃ e ∈ u.emailAddresses, toLower e.address = s) ∧
    (∀ s i, db.refID s = some i → ∃ u, db.users[i]? = some u ∧ u.id = s) := by
  have hinv := reach_inv h
  refine ⟨fun s i => ⟨hinv.name_src s i, ?_⟩, fun s i => ⟨hinv.email_src s i, ?_⟩, hinv.id_src⟩
  · rintro ⟨u, hu, rfl⟩; exact hinv.name_ref i u hu
  · rintro ⟨u, hu, e, he, rfl⟩; exact hinv.email_ref i u e hu he

example : ∃ u ∈ db2.users, Denotes (gs! "jOE") u ∧ ∃ v ∈ db2.users, Denotes (gs! "ANN@example.com") v := by
  unfold Denotes
  decide +kernel
example : ∀ u ∈ db2.users, ¬ Denotes (gs! "bob") u := by
  unfold Denotes
  decide +kernel

/-! ## C06 -/

/-- What `NewEmailAddress` stores. -/
theorem newEmailAddress_address [Ext] {s : GoString} {e : EmailAddress} (h : newEmailAddress s = .ok e) :
    e.address = s ∧ e.confirmed = false ∧ e.isPrimary = false := by
  unfold newEmailAddress at h
  split at h
  · simp at h
  · split at h
    · simp at h; rw [← h]; exact ⟨rfl, rfl, rfl⟩
    · simp at h

theorem newPassword_fields [Ext] {now salt s} {p : Password} (h : newPassword now salt s = .ok p) :
    p.disabled = false ∧ p.expired = false ∧ p.createdAt = now 0 := by
  unfold newPassword newPasswordWithOptions at h
  dsimp only at h
  split at h
  · simp at h
  · split at h
    · split at h
      · simp at h; rw [← h]; exact ⟨rfl, rfl, rfl⟩
      · simp at h
      · simp at h
    · split at h <;> simp at h

/-- C06: a successful `AddUser` appends exactly one user, with the requested username, address, roles (first occurrences, in
order), name, and one enabled password made from the given one. -/
theorem C06_add_user_appends_one [Ext] {nd : Nondet} {db : Database} {fs : FS} {req : Request}
    (hs : (exec .addUser nd db fs req).Succeeded) :
    ∃ u, (exec .addUser nd db fs req).db.users = db.users ++ [u] ∧
      (exec .addUser nd db fs req).db.getUserCount = db.getUserCount + 1 ∧
      u.username = req.user.username ∧
      (∃ e, u.emailAddresses = [e] ∧ u.emailAddress = some e ∧ e.address = req.user.email) ∧
      (∃ p, u.passwords = [p] ∧ p.disabled = false ∧ p.expired = false ∧
        newPassword (nd.now.skip 2) (nd.salts 0) req.user.password = .ok p) ∧
      (∃ rs : List Role, req.user.roles.map newRole = rs.map Res.ok ∧ u.roles = rs.eraseDups) ∧
      ((trimSpace req.user.fullName = [] ∧ u.name = none ∧ u.names = []) ∨
        ∃ n, parseName (trimSpace req.user.fullName) = .ok n ∧ u.name = some n ∧ u.names = [n]) ∧
      u.created = nd.now 0 ∧ u.revision = 0 ∧ u.publicKeys = [] ∧ u.apiKeys = [] ∧ u.mfaTokens = [] := by
  obtain ⟨db', m, hc⟩ := exec_success rfl hs
  rw [hc.db_eq]
  cases m with
  | addUser user emails hpol hnew hname hemails =>
    obtain ⟨p, e, roles, name, hp, he, hr, hn, _, _, rfl⟩ := User.newWithRoles_ok hnew
    refine ⟨_, rfl, by simp [Database.getUserCount, Database.touch, Database.withUser], rfl,
      ⟨e, rfl, rfl, (newEmailAddress_address he).1⟩,
      ⟨p, rfl, (newPassword_fields hp).1, (newPassword_fields hp).2.1, hp⟩,
      ⟨roles, parseRoles_map hr, ?_⟩, ?_, rfl, rfl, rfl, rfl, rfl⟩
    · show User.dedupRoles [] roles = _
      rw [dedupRoles_eq]
      simp only [List.nil_append, List.contains_nil, Bool.not_false]
      rw [List.filter_eq_self.2 (by simp)]
    · rcases hn with ⟨h1, rfl⟩ | ⟨h1, n, h2, rfl⟩
      · exact .inl ⟨h1, rfl, rfl⟩
      · exact .inr ⟨n, h2, rfl, rfl⟩

example : (exec .addUser nd db0 fs1 reqJoe).Succeeded := by unfold Result.Succeeded; decide +kernel

/-! ## C05 -/

/-- C05: after a successful `AddUser`, whatever happens later, `IdentifyUser` with any case variant of the username (at least
2 bytes, without `@`) or of the email address (at least 6 bytes) reports the new user; and an account call naming both
addresses that user's record. -/
theorem C05_added_user_is_found [Ext] {db : Database} (h : Reach Opened db) {nd : Nondet} {fs : FS} {req : Request}
    (hs : (exec .addUser nd db fs req).Succeeded) (ops : List Op) (s : GoString)
    (hsname : (64 ∉ s ∧ 2 ≤ s.length ∧ toLower s = toLower req.user.username) ∨
      (64 ∈ s ∧ 6 ≤ s.length ∧ toLower s = toLower req.user.email)) (nd' : Nondet) (fs' : FS) (req' : Request)
    (hreq' : req'.user.username = s) :
    let later := (run (exec .addUser nd db fs req).db (exec .addUser nd db fs req).fs ops).1
    let r := exec .identifyUser nd' later fs' req'
    r.Succeeded ∧ r.req.response.code = 200 ∧ r.req.user.username = req.user.username := by
  intro later r
  obtain ⟨u, hu, _, hname, ⟨e, hem, _, haddr⟩, _⟩ := C06_add_user_appends_one hs
  have hreach : Reach Opened later := reach_run (.step h ..) _ ops
  have hget : (exec .addUser nd db fs req).db.users[db.users.length]? = some u := by rw [hu]; simp
  obtain ⟨u', hu', hsame⟩ := run_same (fs := (exec .addUser nd db fs req).fs) (ops := ops) hget
  have hd : Denotes s u' := by
    apply hsame.denotes
    unfold Denotes
    rcases hsname with ⟨h1, h2, h3⟩ | ⟨h1, h2, h3⟩
    · rw [if_neg h1, hname]; exact ⟨h2, h3.symm⟩
    · rw [if_pos h1]; exact ⟨h2, e, by simp [hem], by rw [haddr]; exact h3.symm⟩
  have := (C04_identify hreach nd' fs' req').1 u' (List.mem_of_getElem? hu') (hreq' ▸ hd)
  refine ⟨?_, this.1, ?_⟩
  · show (exec .identifyUser nd' later fs' req').out = .success
    simp only [exec, Database.identifyUser]
    split <;> rfl
  · rw [← hname, ← hsame.username]; exact this.2

/-- C05: `AuthenticateUser` with such a name takes the new user's record: the password given is checked against that user's
passwords that are neither disabled nor expired. -/
theorem C05_added_user_authenticates [Ext] {db : Database} (h : Reach Opened db) {nd : Nondet} {fs : FS} {req : Request}
    (hs : (exec .addUser nd db fs req).Succeeded) (ops : List Op) (s : GoString)
    (hsname : (64 ∉ s ∧ 2 ≤ s.length ∧ toLower s = toLower req.user.username) ∨
      (64 ∈ s ∧ 6 ≤ s.length ∧ toLower s = toLower req.user.email)) (nd' : Nondet) (fs' : FS) (req' : Request)
    (hreq' : req'.user.username = s) (hpw : req'.user.password ≠ []) :
    let later := (run (exec .addUser nd db fs req).db (exec .addUser nd db fs req).fs ops).1
    ∃ u, later.users[db.users.length]? = some u ∧ u.username = req.user.username ∧
      ((exec .authenticateUser nd' later fs' req').Succeeded ↔
        ∃ p ∈ u.passwords, p.disabled = false ∧ p.expired = false ∧ bcryptMatch p.hash req'.user.password = true) := by
  intro later
  obtain ⟨u, hu, _, hname, ⟨e, hem, _, haddr⟩, _⟩ := C06_add_user_appends_one hs
  have hreach : Reach Opened later := reach_run (.step h ..) _ ops
  have hget : (exec .addUser nd db fs req).db.users[db.users.length]? = some u := by rw [hu]; simp
  obtain ⟨u', hu', hsame⟩ := run_same (fs := (exec .addUser nd db fs req).fs) (ops := ops) hget
  have hd : Denotes s u' := by
    apply hsame.denotes
    unfold Denotes
    rcases hsname with ⟨h1, h2, h3⟩ | ⟨h1, h2, h3⟩
    · rw [if_neg h1, hname]; exact ⟨h2, h3.symm⟩
    · rw [if_pos h1]; exact ⟨h2, e, by simp [hem], by rw [haddr]; exact h3.symm⟩
  refine ⟨u', hu', by rw [hsame.username, hname], ?_⟩
  rw [(C04_authenticate hreach nd' fs' req').2 u' (List.mem_of_getElem? hu') (hreq' ▸ hd) hpw]
  exact verifyPassword_none_iff

/-- C05: the identity check of the account calls accepts the pair, for any case variants. -/
theorem C05_added_user_passes_identity_check [Ext] {db : Database} (h : Reach Opened db) {nd : Nondet} {fs : FS}
    {req : Request} (hs : (exec .addUser nd db fs req).Succeeded) (ops : List Op) (un em : GoString)
    (hun : 2 ≤ un.length ∧ toLower un = toLower req.user.username)
    (hem : 6 ≤ em.length ∧ toLower em = toLower req.user.email) :
    let later := (run (exec .addUser nd db fs req).db (exec .addUser nd db fs req).fs ops).1
    ∃ u, later.users[db.users.length]? = some u ∧ u.username = req.user.username ∧
      later.validateUserIdentity un em = .ok (db.users.length, u) := by
  intro later
  obtain ⟨u, hu, _, hname, ⟨e, hems, _, haddr⟩, _⟩ := C06_add_user_appends_one hs
  have hreach : Reach Opened later := reach_run (.step h ..) _ ops
  have hget : (exec .addUser nd db fs req).db.users[db.users.length]? = some u := by rw [hu]; simp
  obtain ⟨u', hu', hsame⟩ := run_same (fs := (exec .addUser nd db fs req).fs) (ops := ops) hget
  refine ⟨u', hu', by rw [hsame.username, hname], ?_⟩
  rw [validate_iff (reach_inv hreach)]
  refine ⟨hu', hsame.names' ⟨hun.1, by rw [hname]; exact hun.2.symm⟩, u', List.mem_of_getElem? hu', ?_, rfl⟩
  exact hsame.mails ⟨hem.1, e, by simp [hems], by rw [haddr]; exact hem.2.symm⟩

example : toLower (gs! "jOE") = toLower reqJoe.user.username ∧
    toLower (gs! "JOE@EXAMPLE.COM") = toLower reqJoe.user.email := by decide +kernel

/-! ## C07 -/

/-- C07: a mutating call that does not return nil, and whose failure is not a failed file write (the returned error does not
wrap `ErrDatabaseCommit`), leaves the database and the files unchanged. -/
theorem C07_rejected_call_changes_nothing [Ext] {c : Call} {nd : Nondet} {db : Database} {fs : FS} {req : Request}
    (hf : ¬ (exec c nd db fs req).Succeeded)
    (hw : ∀ e, (exec c nd db fs req).out = .fail e → ¬ e.wraps .databaseCommit) :
    (exec c nd db fs req).Unchanged db fs := by
  rcases exec_spec c nd db fs req with h1 | ⟨db', m, hc⟩
  · exact ⟨h1.db_eq, h1.fs_eq⟩
  · exfalso
    cases hwr : (writeFile fs (c.target db) (marshalDB (db'.touch nd.commitTime).toDBData) nd.io).2 with
    | none => exact hf (hc.out_ok hwr)
    | some e =>
      obtain ⟨e', h1, h2⟩ := hc.out_err e hwr
      exact hw e' h1 h2

/-- C07, in terms of the environment: if writing the file would work, a call that does not return nil changes nothing. -/
theorem C07_rejected_call_changes_nothing_env [Ext] {c : Call} {nd : Nondet} {db : Database} {fs : FS} {req : Request}
    (hf : ¬ (exec c nd db fs req).Succeeded) (hio : nd.io = .ok) (hp : c.target db ≠ [])
    (hd : fs (c.target db) ≠ some .dir) : (exec c nd db fs req).Unchanged db fs := by
  rcases exec_spec c nd db fs req with h1 | ⟨db', m, hc⟩
  · exact ⟨h1.db_eq, h1.fs_eq⟩
  · exfalso
    apply hf
    apply hc.out_ok
    rw [hio, writeFile_ok hp hd]

example : ¬ (exec .addUser nd db1 fs2 reqJoe).Succeeded ∧ nd.io = .ok ∧ fs2 db1.path ≠ some .dir := by
  unfold Result.Succeeded; decide +kernel

/-! ## C08 -/

/-- C08: in histories with unused UUIDs, an account call that succeeds was given the username and an email address of one
and the same stored user; if there is no such user it returns an error and has no effect. -/
theorem C08_account_calls_need_matching_identity [Ext] {db : Database} (h : ReachFresh db) {c : Call}
    (hc : c ∈ accountCalls) (nd : Nondet) (fs : FS) (req : Request) :
    ((exec c nd db fs req).Succeeded →
      ∃ u ∈ db.users, NamesUser req.user.username u ∧ MailsUser req.user.email u) ∧
    ((¬ ∃ u ∈ db.users, NamesUser req.user.username u ∧ MailsUser req.user.email u) →
      (exec c nd db fs req).Failed ∧ (exec c nd db fs req).Unchanged db fs) := by
  have hreach : Reach Opened db := by
    clear hc
    induction h with
    | init h => exact .init h
    | step h c nd fs req _ ih => exact .step ih c nd fs req
  have hok : ∀ i u, db.validateUserIdentity req.user.username req.user.email = .ok (i, u) →
      ∃ u ∈ db.users, NamesUser req.user.username u ∧ MailsUser req.user.email u := by
    intro i u hv
    obtain ⟨h1, h2, v, h3, h4, h5⟩ := (validate_iff (reach_inv hreach)).1 hv
    obtain ⟨j, hj⟩ := List.getElem?_of_mem h3
    have := C03_ids_unique h h1 hj h5
    subst this
    rw [h1] at hj
    cases hj
    exact ⟨u, h3, h2, h4⟩
  have key : (¬ ∃ u ∈ db.users, NamesUser req.user.username u ∧ MailsUser req.user.email u) →
      (exec c nd db fs req).Failed ∧ (exec c nd db fs req).Unchanged db fs := by
    intro hno
    cases hv : db.validateUserIdentity req.user.username req.user.email with
    | error e => exact exec_validate_error hc hv
    | ok x => exact absurd (hok x.1 x.2 hv) hno
  refine ⟨fun hs => Classical.byContradiction fun hno => ?_, key⟩
  obtain ⟨⟨e, he⟩, _⟩ := key hno
  rw [Result.Succeeded, he] at hs
  simp at hs

/-- C08, for every history: the email address belongs to a user whose ID equals that of the user named. -/
theorem C08_account_calls_same_id [Ext] {db : Database} (h : Reach Opened db) {c : Call}
    (hc : c ∈ accountCalls) (nd : Nondet) (fs : FS) (req : Request) (hs : (exec c nd db fs req).Succeeded) :
    ∃ u ∈ db.users, NamesUser req.user.username u ∧ ∃ v ∈ db.users, MailsUser req.user.email v ∧ u.id = v.id := by
  cases hv : db.validateUserIdentity req.user.username req.user.email with
  | error e =>
    obtain ⟨⟨e, he⟩, _⟩ := exec_validate_error (nd := nd) (fs := fs) hc hv
    rw [Result.Succeeded, he] at hs
    simp at hs
  | ok x =>
    obtain ⟨h1, h2, v, h3, h4, h5⟩ := (validate_iff (reach_inv h)).1 (show _ = Except.ok (x.1, x.2) from hv)
    exact ⟨x.2, List.mem_of_getElem? h1, h2, v, h3, h4, h5⟩

/-- A request naming one user and the address of another. -/
def reqCross : Request := { user := { username := gs! "ann", email := gs! "bob@example.com" } }

/-- C08: with a duplicate ID (see C03) a request with one user's name and another user's address is accepted. -/
theorem C08_fails_with_duplicate_ids :
    Reach Opened dbDup ∧ (exec .getUsers nd dbDup fs0 reqCross).Succeeded ∧
      ¬ ∃ u ∈ dbDup.users, NamesUser reqCross.user.username u ∧ MailsUser reqCross.user.email u := by
  refine ⟨dbDup_reach, ?_, ?_⟩
  · unfold Result.Succeeded; decide +kernel
  · unfold NamesUser MailsUser; decide +kernel

example : (exec .getUsers nd db2 fs3 { user := { username := gs! "JOE", email := gs! "joe@EXAMPLE.com" } }).Succeeded := by
  unfold Result.Succeeded; decide +kernel

/-! ## C09 -/

/-- C09: no call changes the record of a user other than the one its request names. -/
theorem C09_other_users_untouched [Ext] {db : Database} (h : Reach Opened db) (c : Call) (nd : Nondet) (fs : FS)
    (req : Request) {j : Nat} {v : User} (hj : db.users[j]? = some v)
    (hother : toLower v.username ≠ toLower req.user.username) :
    (exec c nd db fs req).db.users[j]? = some v := by
  rcases exec_user_at (c := c) (nd := nd) (fs := fs) (req := req) hj with h1 | ⟨v', _, _, hv⟩
  · exact h1
  · exact absurd ((validate_iff (reach_inv h)).1 hv).2.1.2 hother

example : ∃ v, db2.users[1]? = some v ∧ toLower v.username ≠ toLower (gs! "joe") :=
  ⟨db2.users[1]'(by decide +kernel), List.getElem?_eq_getElem _, by decide +kernel⟩

/-! ## C10 -/

/-- C10: over any history every user stays at its place and keeps its identity; the number of users never decreases. -/
theorem C10_users_never_lost [Ext] (db : Database) (fs : FS) (ops : List Op) :
    (∀ (i : Nat) (u : User), db.users[i]? = some u → ∃ u', (run db fs ops).1.users[i]? = some u' ∧ SameIdentity u u') ∧
    db.getUserCount ≤ (run db fs ops).1.getUserCount := by
  refine ⟨fun i u hi => run_same hi, ?_⟩
  rcases Nat.lt_or_ge 0 db.users.length with h0 | h0
  · obtain ⟨u', h1, _⟩ := run_same (fs := fs) (ops := ops)
      (List.getElem?_eq_getElem (by omega : db.users.length - 1 < db.users.length))
    have := (List.getElem?_eq_some_iff.1 h1).1
    unfold Database.getUserCount
    omega
  · unfold Database.getUserCount; omega

/-- C10: `DeleteUser` always returns an error and has no effect. -/
theorem C10_delete_user_unsupported [Ext] (nd : Nondet) (db : Database) (fs : FS) (req : Request) :
    (exec .deleteUser nd db fs req).Failed ∧ (exec .deleteUser nd db fs req).Unchanged db fs := by
  simp only [exec, Database.deleteUser]
  split <;> exact ⟨⟨_, rfl⟩, rfl, rfl⟩

example : ∃ u, db2.users[0]? = some u := ⟨_, List.getElem?_eq_getElem (by decide +kernel)⟩

/-! ## C43 -/

/-- C43: calls other than the mutating ones leave users, lookup tables, revision, path and files unchanged. -/
theorem C43_read_only_calls [Ext] {c : Call} (hc : c.mutates = false) (nd : Nondet) (db : Database) (fs : FS)
    (req : Request) : (exec c nd db fs req).Unchanged db fs := by
  rcases exec_spec c nd db fs req with h1 | ⟨db', m, _⟩
  · exact ⟨h1.db_eq, h1.fs_eq⟩
  · cases m <;> simp [Call.mutates] at hc

example : ∀ c ∈ [Call.getUsers, .getUser, .getPublicKeys, .getAPIKeys, .getMfaTokens, .authenticateUser, .identifyUser,
    .lookupAPIKey], c.mutates = false := by decide

/-! ## C44 -/

/-- C44: a mutating call that returns nil advances the revision by one and leaves exactly the serialisation of the in-memory
database in the file; no other file changes. -/
theorem C44_commit_reaches_disk [Ext] {c : Call} (hm : c.mutates = true) {nd : Nondet} {db : Database} {fs : FS}
    {req : Request} (hs : (exec c nd db fs req).Succeeded) :
    (exec c nd db fs req).db.revision = (db.revision + 1) % 2 ^ 64 ∧
    (exec c nd db fs req).db.lastModified = nd.commitTime ∧
    (exec c nd db fs req).fs (c.target db) = some (.file (marshalDB (exec c nd db fs req).db.toDBData)) ∧
    ∀ p, p ≠ c.target db → (exec c nd db fs req).fs p = fs p := by
  obtain ⟨db', m, hc⟩ := exec_success hm hs
  have hrev : db'.revision = db.revision := by cases m <;> rfl
  cases hwr : (writeFile fs (c.target db) (marshalDB (db'.touch nd.commitTime).toDBData) nd.io).2 with
  | some e =>
    obtain ⟨e', h1, _⟩ := hc.out_err e hwr
    rw [Result.Succeeded, h1] at hs
    simp at hs
  | none =>
    obtain ⟨_, _, _, hfs⟩ := writeFile_none hwr
    rw [hc.db_eq, hc.fs_eq, hfs]
    refine ⟨by simp [Database.touch, hrev], rfl, upd_same .., fun p hp => upd_other _ _ hp⟩

/-- C44: the database file is the one at the database's path, for every call but `Copy`. -/
theorem C44_target [Ext] (db : Database) (c : Call) (hc : ∀ fp, c ≠ .copy fp) : c.target db = db.getPath := by
  cases c <;> first | rfl | exact absurd rfl (hc _)

/-- C44: if the file cannot be written, a mutating call does not return nil. -/
theorem C44_failed_write_reported [Ext] {c : Call} (hm : c.mutates = true) {nd : Nondet} {db : Database} {fs : FS}
    {req : Request} (hw : nd.io ≠ .ok ∨ c.target db = [] ∨ fs (c.target db) = some .dir) :
    ¬ (exec c nd db fs req).Succeeded := by
  intro hs
  obtain ⟨db', m, hc⟩ := exec_success hm hs
  cases hwr : (writeFile fs (c.target db) (marshalDB (db'.touch nd.commitTime).toDBData) nd.io).2 with
  | some e =>
    obtain ⟨e', h1, _⟩ := hc.out_err e hwr
    rw [Result.Succeeded, h1] at hs
    simp at hs
  | none =>
    obtain ⟨h1, h2, h3, _⟩ := writeFile_none hwr
    rcases hw with h | h | h
    · exact h h3
    · exact h1 h
    · exact h2 h

example : Call.addUser.mutates = true ∧ (exec .addUser nd db0 fs1 reqJoe).Succeeded := by
  unfold Result.Succeeded; decide +kernel

/-! ## C48 -/

/-- C48: if a mutating call would succeed but its file write fails, the call returns an error although the in-memory database
has changed exactly as if it had succeeded; a later successful `Save` then writes that change to the file. -/
theorem C48_failed_write_leaves_memory_ahead [Ext] {c : Call} (hm : c.mutates = true) {nd : Nondet} {db : Database}
    {fs : FS} {req : Request} (hs : (exec c nd db fs req).Succeeded) {w : WriteOutcome} (hw : w ≠ .ok) :
    (exec c { nd with io := w } db fs req).Failed ∧
    (exec c { nd with io := w } db fs req).db = (exec c nd db fs req).db ∧
    (exec c { nd with io := w } db fs req).db.revision = (db.revision + 1) % 2 ^ 64 ∧
    ∀ nd' req', nd'.io = .ok → db.path ≠ [] → fs db.path ≠ some .dir →
      let r' := exec .save nd' (exec c { nd with io := w } db fs req).db (exec c { nd with io := w } db fs req).fs req'
      r'.Succeeded ∧ r'.db.users = (exec c nd db fs req).db.users ∧
        r'.fs db.path = some (.file (marshalDB r'.db.toDBData)) := by
  obtain ⟨db', m, hc⟩ := exec_success hm hs
  have hc' := (m.io w).committed fs
  have hdb : (exec c { nd with io := w } db fs req).db = (exec c nd db fs req).db := by
    rw [hc.db_eq, hc'.db_eq]
  have hpath : (exec c nd db fs req).db.path = db.path := (exec_path c nd db fs req).1
  refine ⟨?_, hdb, by rw [hdb]; exact (C44_commit_reaches_disk hm hs).1, ?_⟩
  · cases hwr : (writeFile fs (c.target db) (marshalDB (db'.touch nd.commitTime).toDBData) w).2 with
    | some e =>
      obtain ⟨e', h1, _⟩ := hc'.out_err e hwr
      exact ⟨e', h1⟩
    | none => exact absurd (writeFile_none hwr).2.2.1 hw
  · intro nd' req' hio hp hdir r'
    have hfs : (exec c { nd with io := w } db fs req).fs db.path ≠ some .dir := by
      rw [hc'.fs_eq]
      unfold writeFile
      split
      · exact hdir
      · cases w
        · exact absurd rfl hw
        · exact hdir
        · unfold upd
          simp only
          split
          · simp
          · exact hdir
    have hsave : r'.Succeeded := by
      apply Classical.byContradiction
      intro hn
      have := (Mutation.save (nd := nd') (req := req') (db := (exec c { nd with io := w } db fs req).db)).committed
        (exec c { nd with io := w } db fs req).fs
      apply hn
      apply this.out_ok
      have htp : Call.save.target (exec c { nd with io := w } db fs req).db = db.path := by
        show (exec c { nd with io := w } db fs req).db.path = db.path
        rw [hdb, hpath]
      rw [htp, hio, writeFile_ok hp hfs]
    have h44 := C44_commit_reaches_disk (c := .save) rfl hsave
    refine ⟨hsave, ?_, ?_⟩
    · obtain ⟨db'', m'', hc''⟩ := exec_success (c := .save) rfl hsave
      rw [hc''.db_eq]
      cases m''
      show (exec c { nd with io := w } db fs req).db.users = _
      rw [hdb]
    · have htp : Call.save.target (exec c { nd with io := w } db fs req).db = db.path := by
        show (exec c { nd with io := w } db fs req).db.path = db.path
        rw [hdb, hpath]
      have := h44.2.2.1
      rw [htp] at this
      exact this

example : (exec .addUser nd db0 fs1 reqJoe).Succeeded ∧ WriteOutcome.writeErr 5 ≠ .ok ∧ db0.path ≠ [] ∧
    fs1 db0.path ≠ some .dir := by
  unfold Result.Succeeded; decide +kernel

/-! ## C49 -/

/-- C49: `Copy(fp)` leaves every other file alone, keeps the database's path and users whether or not it succeeds, and on
success `fp` holds the serialisation of the database. -/
theorem C49_copy [Ext] (nd : Nondet) (fp : GoString) (db : Database) (fs : FS) (req : Request) :
    (exec (.copy fp) nd db fs req).db.getPath = db.getPath ∧
    (exec (.copy fp) nd db fs req).db.users = db.users ∧
    (∀ p, p ≠ fp → (exec (.copy fp) nd db fs req).fs p = fs p) ∧
    ((exec (.copy fp) nd db fs req).Succeeded →
      (exec (.copy fp) nd db fs req).fs fp =
        some (.file (marshalDB (exec (.copy fp) nd db fs req).db.toDBData))) ∧
    (nd.io = .ok → fp ≠ [] → fs fp ≠ some .dir → (exec (.copy fp) nd db fs req).Succeeded) := by
  have hc := (Mutation.copy (nd := nd) (req := req) (db := db) fp).committed fs
  refine ⟨by rw [hc.db_eq]; rfl, by rw [hc.db_eq]; rfl, ?_, ?_, ?_⟩
  · intro p hp
    rw [hc.fs_eq]
    unfold writeFile
    split
    · rfl
    · cases nd.io
      · exact upd_other _ _ hp
      · rfl
      · exact upd_other _ _ hp
  · intro hs
    exact (C44_commit_reaches_disk (c := .copy fp) rfl hs).2.2.1
  · intro h1 h2 h3
    apply hc.out_ok
    rw [h1]
    show (writeFile fs fp _ .ok).2 = none
    rw [writeFile_ok h2 h3]

/-! ## C55 -/

theorem foldl_bundle {α β : Type} (f : α → β) (l : List α) (b : Bundle β) :
    l.foldl (fun b u => b.add (f u)) b = ⟨b.items ++ l.map f, b.size + l.length⟩ := by
  induction l generalizing b with
  | nil => simp
  | cons x l ih => rw [List.foldl_cons, ih]; simp [Bundle.add]; omega

/-- C55: `GetUsers` returns one metadata record per stored user, in stored order; the bundle size is the user count. -/
theorem C55_get_users [Ext] {nd : Nondet} {db : Database} {fs : FS} {req : Request}
    (hs : (exec .getUsers nd db fs req).Succeeded) :
    ∃ b, (exec .getUsers nd db fs req).req.response.payload = .metadata b ∧ b.size = db.getUserCount ∧
      b.items.length = db.getUserCount ∧
      ∀ (i : Nat) (u : User), db.users[i]? = some u → ∃ m : UserMetadata, b.items[i]? = some m ∧ m.id = u.id ∧ m.enabled = u.enabled ∧
        m.username = u.username ∧ m.title = u.title ∧ m.created = u.created ∧ m.lastModified = u.lastModified ∧
        m.revision = u.revision ∧
        (∀ n, u.name = some n → m.name = n.fullName) ∧ (u.name = none → m.name = []) ∧
        (∀ e, u.emailAddress = some e → m.email = e.address) ∧ (u.emailAddress = none → m.email = []) ∧
        (∀ a, u.avatar = some a → m.avatar = a.path) ∧ (u.avatar = none → m.avatar = []) := by
  revert hs
  simp only [exec, Database.getUsers]
  split
  · intro hs; simp [Result.Succeeded, Database.failWith] at hs
  · intro _
    refine ⟨_, rfl, ?_, ?_, ?_⟩
    · simp [foldl_bundle, Bundle.new, Database.getUserCount]
    · simp [foldl_bundle, Bundle.new, Database.getUserCount]
    · intro i u hi
      refine ⟨u.metadata, by simp [foldl_bundle, Bundle.new, hi], rfl, rfl, rfl, rfl, rfl, rfl, rfl, ?_, ?_, ?_, ?_, ?_, ?_⟩
      all_goals intros; simp_all [User.metadata]

/-! ## C56 -/

/-- C56: a successful account modification increases the addressed user's revision by one (the largest 64-bit number is followed by
the smallest) and sets its modification time to a reading of the clock;
every other user keeps its record. -/
theorem C56_revision_counts [Ext] {db : Database} (h : Reach Opened db) {c : Call} (hc : c ∈ modifyingCalls)
    {nd : Nondet} {fs : FS} {req : Request} (hs : (exec c nd db fs req).Succeeded) :
    ∃ i u u', db.users[i]? = some u ∧ NamesUser req.user.username u ∧
      (exec c nd db fs req).db.users = db.users.set i u' ∧
      u'.revision = (if u.revision = 2 ^ 63 - 1 then -2 ^ 63 else u.revision + 1) ∧ ∃ k, u'.lastModified = nd.now k := by
  have hm : c.mutates = true := by
    simp only [modifyingCalls, List.mem_cons, List.not_mem_nil, or_false] at hc
    rcases hc with rfl | rfl | rfl | rfl | rfl | rfl | rfl <;> rfl
  obtain ⟨db', m, hcm⟩ := exec_success hm hs
  cases m.users with
  | same h1 h2 =>
    exfalso
    rcases h2 with rfl | ⟨fp, rfl⟩ <;> simp [modifyingCalls] at hc
  | appended u h1 h2 => subst h1; simp [modifyingCalls] at hc
  | modified i u u' hv hk hset =>
    obtain ⟨h1, h2, _⟩ := (validate_iff (reach_inv h)).1 hv
    refine ⟨i, u, u', h1, h2, ?_, ?_, ?_⟩
    · rw [hcm.db_eq]; exact hset
    · rw [hk.eq]; rfl
    · exact hk.time

/-- C56: for any call whatever, a stored user is either unchanged or has its revision increased by exactly one, as 64-bit
numbers. -/
theorem C56_revision_steps [Ext] (c : Call) (nd : Nondet) (db : Database) (fs : FS) (req : Request) {j : Nat} {v : User}
    (hj : db.users[j]? = some v) :
    ∃ v', (exec c nd db fs req).db.users[j]? = some v' ∧
      (v' = v ∨ (v'.revision = (if v.revision = 2 ^ 63 - 1 then -2 ^ 63 else v.revision + 1) ∧ ∃ k, v'.lastModified = nd.now k)) := by
  rcases exec_user_at (c := c) (nd := nd) (fs := fs) (req := req) hj with h1 | ⟨v', h1, hk, _⟩
  · exact ⟨v, h1, .inl rfl⟩
  · exact ⟨v', h1, .inr ⟨by rw [hk.eq]; rfl, hk.time⟩⟩

/-- C56: adding a role to a user counts exactly if it was not there before. -/
theorem C56_add_role [Ext] {now : Clock} {s : GoString} {u u' : User} :
    u.addRole now s = .ok u' ↔ ∃ r, newRole s = .ok r ∧
      ((r ∈ u.roles ∧ u' = u) ∨ (r ∉ u.roles ∧
        u' = { u with
          roles := u.roles ++ [r], lastModified := now 0
          revision := if u.revision = 2 ^ 63 - 1 then -2 ^ 63 else u.revision + 1 })) := by
  constructor
  · intro h
    obtain ⟨r, hr, rfl⟩ := User.addRole_ok h
    refine ⟨r, hr, ?_⟩
    by_cases hm : r ∈ u.roles
    · exact .inl ⟨hm, by rw [if_pos hm]⟩
    · exact .inr ⟨hm, by rw [if_neg hm]; rfl⟩
  · rintro ⟨r, hr, h⟩
    have hok : ∃ v, u.addRole now s = .ok v := by
      unfold User.addRole
      rw [hr]
      dsimp only
      repeat' split
      all_goals exact ⟨_, rfl⟩
    obtain ⟨v, hv⟩ := hok
    obtain ⟨r', hr', hv'⟩ := User.addRole_ok hv
    rw [hr] at hr'
    injection hr' with hr'
    subst hr'
    rw [hv]
    congr 1
    rcases h with ⟨hm, rfl⟩ | ⟨hm, rfl⟩
    · rw [hv', if_pos hm]
    · rw [hv', if_neg hm]; rfl

/-- C56: adding an address to a user counts exactly if the user did not have it (letter for letter); the first becomes the
main address. -/
theorem C56_add_email [Ext] {now : Clock} {s : GoString} {u u' : User} :
    u.addEmailAddress now s = .ok u' ↔ ∃ m, newEmailAddress s = .ok m ∧
      (((∃ e ∈ u.emailAddresses, e.address = m.address) ∧ u' = u) ∨ ((∀ e ∈ u.emailAddresses, e.address ≠ m.address) ∧
        u' = { u with
          emailAddress := if u.emailAddresses = [] then some m else u.emailAddress
          emailAddresses := u.emailAddresses ++ [m], lastModified := now 0
          revision := if u.revision = 2 ^ 63 - 1 then -2 ^ 63 else u.revision + 1 })) := by
  unfold User.addEmailAddress
  rcases hm : newEmailAddress s with m | e | _
  · dsimp only
    simp only [Res.ok.injEq, exists_eq_left']
    by_cases h0 : u.emailAddresses = []
    · simp [h0, User.revise, User.incr64, eq_comm]
    · have : u.emailAddresses.length ≠ 0 := by simpa using h0
      rw [if_neg this, if_neg h0]
      by_cases hin : ∃ e ∈ u.emailAddresses, e.address = m.address
      · rw [if_pos (by obtain ⟨e, he, h⟩ := hin; exact List.any_eq_true.2 ⟨e, he, beq_iff_eq.2 h.symm⟩)]
        constructor
        · intro h; injection h with h; exact .inl ⟨hin, h.symm⟩
        · rintro (⟨_, rfl⟩ | ⟨h, _⟩)
          · rfl
          · obtain ⟨e, he, hea⟩ := hin
            exact absurd hea (h e he)
      · have hne : ∀ e ∈ u.emailAddresses, e.address ≠ m.address := fun e he hea => hin ⟨e, he, hea⟩
        rw [if_neg fun h => by
          obtain ⟨e, he, h⟩ := List.any_eq_true.1 h
          exact hne e he (beq_iff_eq.1 h).symm]
        constructor
        · intro h; injection h with h; exact .inr ⟨hne, h.symm⟩
        · rintro (⟨h, _⟩ | ⟨_, rfl⟩)
          · exact absurd h hin
          · rfl
  · simp
  · simp

/-- C56: adding a name does nothing if the user has one that reads the same; the first name becomes the main one and, unlike
the others, is not counted. -/
theorem C56_add_name [Ext] {now : Clock} {n : Name} {u : User} :
    (u.names = [] → u.addName now n = { u with name := some n, names := [n] }) ∧
    ((∃ m ∈ u.names, m.fullName = n.fullName) → u.addName now n = u) ∧
    (u.names ≠ [] → (∀ m ∈ u.names, m.fullName ≠ n.fullName) →
      u.addName now n = { u with
          names := u.names ++ [n], lastModified := now 0
          revision := if u.revision = 2 ^ 63 - 1 then -2 ^ 63 else u.revision + 1 }) := by
  refine ⟨fun h => by simp [User.addName, h], fun ⟨m, hm, h⟩ => ?_, fun h0 h => ?_⟩
  · have h0 : u.names.length ≠ 0 := by
      have := List.length_pos_of_mem hm
      omega
    unfold User.addName
    rw [if_neg h0, if_pos]
    exact List.any_eq_true.2 ⟨m, hm, beq_iff_eq.2 h.symm⟩
  · have h0' : u.names.length ≠ 0 := by simpa using h0
    unfold User.addName
    rw [if_neg h0', if_neg fun h1 => by
      obtain ⟨m, hm, h1⟩ := List.any_eq_true.1 h1
      exact h m hm (beq_iff_eq.1 h1).symm]
    rfl

example : ∃ u', (User.new nd.now (gs! "id") (gs! "joe")).addEmailAddress nd.now (gs! "joe@example.com") = .ok u' ∧
    u'.addEmailAddress nd.now (gs! "joe@example.com") = .ok u' ∧ u'.revision = 1 ∧
    ∃ u'', u'.addEmailAddress nd.now (gs! "Joe@example.com") = .ok u'' ∧ u''.emailAddresses.length = 2 := by
  exact ⟨_, rfl, rfl, rfl, _, rfl, rfl⟩

/-- Joe changes the password. -/
def reqChange : Request :=
  { user := { username := gs! "joe", email := gs! "joe@example.com",
              oldPassword := gs! "password1", password := gs! "newpassword" } }

example : (exec .changeUserPassword nd db2 fs3 reqChange).Succeeded := by
  unfold Result.Succeeded; decide +kernel

end GoIdentity
