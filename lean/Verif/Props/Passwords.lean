import Verif.Lemmas.Passwords
/-!
# Passwords: C11–C17, C41
-/
namespace GoIdentity
open Toy

/-! ## C11 -/

/-- C11: with a non-empty password, `AuthenticateUser` returns nil exactly if the name denotes a stored user one of whose
passwords, neither disabled nor expired, has a bcrypt hash that accepts the given password; the code is then 200.  Otherwise
it returns an error and the code is 400. -/
theorem C11_authentication_sound [Ext] {db : Database} (h : Reach Opened db) (nd : Nondet) (fs : FS) (req : Request)
    (hpw : req.user.password ≠ []) :
    ((exec .authenticateUser nd db fs req).Succeeded ↔
      ∃ u ∈ db.users, Denotes req.user.username u ∧ ∃ p ∈ u.passwords, p.disabled = false ∧ p.expired = false ∧
        bcryptMatch p.hash req.user.password = true) ∧
    ((exec .authenticateUser nd db fs req).Succeeded → (exec .authenticateUser nd db fs req).req.response.code = 200) ∧
    (¬ (exec .authenticateUser nd db fs req).Succeeded →
      (exec .authenticateUser nd db fs req).Failed ∧ (exec .authenticateUser nd db fs req).req.response.code = 400) :=
  authenticate_password (reach_inv h) nd fs req hpw

/-- C11: with neither a password nor a WebAuthn request, `AuthenticateUser` always returns an error and code 400. -/
theorem C11_empty_request_rejected [Ext] (db : Database) (nd : Nondet) (fs : FS) (req : Request)
    (hpw : req.user.password = []) (hw : req.webAuthn.request = []) :
    (exec .authenticateUser nd db fs req).Failed ∧ (exec .authenticateUser nd db fs req).req.response.code = 400 := by
  simp only [exec, Database.authenticateUser, hpw, hw]
  split <;> exact ⟨⟨_, rfl⟩, rfl⟩

def reqLogin (un pw : GoString) : Request := { user := { username := un, password := pw } }

example : (exec .authenticateUser nd db2 fs3 (reqLogin (gs! "JOE") (gs! "password1"))).Succeeded ∧
    ¬ (exec .authenticateUser nd db2 fs3 (reqLogin (gs! "JOE") (gs! "password2"))).Succeeded := by
  unfold Result.Succeeded; decide +kernel

/-! ## C12 -/

/-- No operation of the list changes the password of the user with this name. -/
def NoPasswordChange [Ext] (ops : List Op) (username : GoString) : Prop :=
  ∀ o ∈ ops, o.call = .changeUserPassword → toLower o.req.user.username ≠ toLower username

theorem passwords_kept [Ext] {db : Database} (h : Reach Opened db) {fs : FS} {ops : List Op} {j : Nat} {v : User}
    {un : GoString} (hun : toLower v.username = toLower un) (hops : NoPasswordChange ops un) (hj : db.users[j]? = some v) :
    ∃ v', (run db fs ops).1.users[j]? = some v' ∧ v'.passwords = v.passwords ∧ SameIdentity v v' := by
  refine run_user (R := fun u u' => u'.passwords = u.passwords)
    (Q := fun o => o.call = .changeUserPassword → toLower o.req.user.username ≠ toLower un)
    (fun _ => rfl) (fun _ _ _ h1 h2 => h2.trans h1) h hops ?_ hj
  intro o db w w' hq _ _ hs hn hop
  apply hop.parts.1
  intro hc
  apply hq hc
  rw [← hn.2, hs.username, hun]

/-- C12: after a successful `AddUser`, whatever calls follow that do not change this user's password, `AuthenticateUser` with
a name denoting the user accepts exactly the passwords from which bcrypt computes, with the salt drawn then, the same digest as
from the registered password without surrounding white space. -/
theorem C12_accepted_iff [Ext] {db : Database} (h : Reach Opened db) {nd : Nondet} {fs : FS}
    {req : Request} (hs : (exec .addUser nd db fs req).Succeeded) (ops : List Op)
    (hops : NoPasswordChange ops req.user.username) (nd' : Nondet) (fs' : FS) (req' : Request)
    (hname : (64 ∉ req'.user.username ∧ 2 ≤ req'.user.username.length ∧
        toLower req'.user.username = toLower req.user.username) ∨
      (64 ∈ req'.user.username ∧ 6 ≤ req'.user.username.length ∧
        toLower req'.user.username = toLower req.user.email))
    (hne : req'.user.password ≠ []) :
    trimSpace req.user.password ≠ [] ∧ ∃ salt, nd.salts 0 = some salt ∧
    ((exec .authenticateUser nd' (run (exec .addUser nd db fs req).db (exec .addUser nd db fs req).fs ops).1 fs' req').Succeeded ↔
      SameDigest salt (trimSpace req.user.password) req'.user.password) := by
  obtain ⟨db', m, hc⟩ := exec_success rfl hs
  have hr : Reach Opened (exec .addUser nd db fs req).db := .step h ..
  cases m with
  | addUser user emails hpol hnew hun hemails =>
    obtain ⟨p, e, roles, name, hp, he, _, _, _, _, rfl⟩ := User.newWithRoles_ok hnew
    obtain ⟨hblank, salt, hsalt, _⟩ := newPassword_ok hp
    rw [hsalt] at hp
    refine ⟨hblank, salt, hsalt, ?_⟩
    have hget : (exec .addUser nd db fs req).db.users[db.users.length]? =
        some (newUserOf nd req db p e roles name) := by
      rw [hc.db_eq]
      simp only [Database.touch, Database.withUser, List.getElem?_append_right (Nat.le_refl _), Nat.sub_self]
      rfl
    obtain ⟨v, hv, hpass, hsame⟩ := passwords_kept hr (fs := (exec .addUser nd db fs req).fs)
      (un := req.user.username) rfl hops hget
    have hfin := reach_inv (reach_run hr (exec .addUser nd db fs req).fs ops)
    have hpass' : v.passwords = [p] := by rw [hpass]; simp [newUserOf]
    have hdv : Denotes req'.user.username v := by
      apply hsame.denotes
      unfold Denotes
      have haddr : e.address = req.user.email := by
        unfold newEmailAddress at he
        split at he
        · simp at he
        · split at he
          · simp at he; rw [← he]
          · simp at he
      rcases hname with ⟨h1, h2, h3⟩ | ⟨h1, h2, h3⟩
      · rw [if_neg h1]; exact ⟨h2, h3.symm⟩
      · rw [if_pos h1]; exact ⟨h2, e, by simp [newUserOf], by rw [haddr]; exact h3.symm⟩
    rw [(authenticate_password hfin nd' fs' req' hne).1, ← newPassword_accepts_iff hp]
    constructor
    · rintro ⟨x, hx, hdx, q, hq, hqd, hqe, hacc⟩
      have hxv : x = v := by
        obtain ⟨j, hj⟩ := List.getElem?_of_mem hx
        have e1 := (getUser_iff hfin).2 ⟨hj, hdx⟩
        have e2 := (getUser_iff hfin).2 ⟨hv, hdv⟩
        rw [e1] at e2
        simp only [Option.some.injEq, Prod.mk.injEq] at e2
        exact e2.2
      rw [hxv, hpass', List.mem_singleton] at hq
      subst hq
      exact hacc
    · intro hacc
      refine ⟨v, List.mem_of_getElem? hv, hdv, p, by rw [hpass']; simp, ?_⟩
      obtain ⟨_, _, _, rfl⟩ := newPassword_ok hp
      exact ⟨rfl, rfl, hacc⟩

/-- C12: after a successful `AddUser` with a password without surrounding white space, whatever calls follow that do not
change this user's password, `AuthenticateUser` with that password and any name denoting the user succeeds. -/
theorem C12_registered_password_works [Ext] {db : Database} (h : Reach Opened db) {nd : Nondet} {fs : FS}
    {req : Request} (hs : (exec .addUser nd db fs req).Succeeded)
    (htrim : trimSpace req.user.password = req.user.password) (ops : List Op)
    (hops : NoPasswordChange ops req.user.username) (nd' : Nondet) (fs' : FS) (req' : Request)
    (hname : (64 ∉ req'.user.username ∧ 2 ≤ req'.user.username.length ∧
        toLower req'.user.username = toLower req.user.username) ∨
      (64 ∈ req'.user.username ∧ 6 ≤ req'.user.username.length ∧
        toLower req'.user.username = toLower req.user.email))
    (hpw : req'.user.password = req.user.password) :
    (exec .authenticateUser nd' (run (exec .addUser nd db fs req).db (exec .addUser nd db fs req).fs ops).1 fs' req').Succeeded := by
  have hne : req.user.password ≠ [] := by
    obtain ⟨db', m, hc⟩ := exec_success rfl hs
    cases m with
    | addUser user emails hpol hnew hun hemails =>
      obtain ⟨p, e, roles, name, hp, he, _, _, _, _, rfl⟩ := User.newWithRoles_ok hnew
      rw [← htrim]; exact (newPassword_ok hp).1
  obtain ⟨_, salt, _, hiff⟩ := C12_accepted_iff h hs ops hops nd' fs' req' hname (by rw [hpw]; exact hne)
  rw [hiff, htrim, hpw]
  exact rfl

example : (exec .addUser nd db0 fs1 reqJoe).Succeeded ∧
    trimSpace reqJoe.user.password = reqJoe.user.password :=
  ⟨by unfold Result.Succeeded; decide +kernel, by decide +kernel⟩

/-- A password with a trailing space. -/
def reqSpace : Request := { reqAnn with user := { reqAnn.user with password := gs! "password2 " } }

/-- C12: the premise on white space is needed: hashing trims the password and verification does not, so a user registered
with the password `"password2 "` cannot log in with it (but can with `"password2"`). -/
theorem C12_untrimmed_password_fails :
    (exec .addUser nd2 db1 fs2 reqSpace).Succeeded ∧
    (exec .authenticateUser nd (exec .addUser nd2 db1 fs2 reqSpace).db fs3 (reqLogin (gs! "ann") (gs! "password2 "))).Failed ∧
    (exec .authenticateUser nd (exec .addUser nd2 db1 fs2 reqSpace).db fs3
      (reqLogin (gs! "ann") (gs! "password2"))).Succeeded := by
  refine ⟨by unfold Result.Succeeded; decide +kernel, ?_, by unfold Result.Succeeded; decide +kernel⟩
  exact ⟨.withE .authFailed [] (.std .userPasswordInvalid), by decide +kernel⟩

/-! ## C13 -/

/-- C13: `ChangeUserPassword` changes stored passwords only if the given old password currently verifies. -/
theorem C13_change_needs_old_password [Ext] {db : Database} (h : Reach Opened db) {nd : Nondet} {fs : FS} {req : Request}
    (hch : (exec .changeUserPassword nd db fs req).Succeeded ∨
      (exec .changeUserPassword nd db fs req).db.users ≠ db.users) :
    ∃ u ∈ db.users, NamesUser req.user.username u ∧ ∃ p ∈ u.passwords, p.disabled = false ∧ p.expired = false ∧
      bcryptMatch p.hash req.user.oldPassword = true := by
  rcases exec_spec .changeUserPassword nd db fs req with h1 | ⟨db', m, hc⟩
  · rcases hch with h2 | h2
    · exact absurd h2 (h1.out rfl)
    · rw [h1.db_eq] at h2; exact absurd rfl h2
  · cases m with
    | changeUserPassword i u u' hv hpol hu =>
      obtain ⟨h1, h2, _⟩ := (validate_iff (reach_inv h)).1 hv
      exact ⟨u, List.mem_of_getElem? h1, h2, verifyPassword_none_iff.1 (User.changePassword_ok hu).1⟩

/-- C13: after a successful `ChangeUserPassword`, and until this user's password is changed again, a password logs the user
in exactly if bcrypt computes the same digest from it, with the salt drawn then, as from the (trimmed) new one. -/
theorem C13_only_new_digest_works [Ext] {db : Database} (h : Reach Opened db) {nd : Nondet} {fs : FS}
    {req : Request} (hs : (exec .changeUserPassword nd db fs req).Succeeded) (ops : List Op)
    (hops : NoPasswordChange ops req.user.username) (nd' : Nondet) (fs' : FS) (req' : Request)
    (hname : ∃ u ∈ db.users, NamesUser req.user.username u ∧ Denotes req'.user.username u)
    (hne : req'.user.password ≠ []) :
    ∃ salt, nd.salts 0 = some salt ∧
    ((exec .authenticateUser nd'
      (run (exec .changeUserPassword nd db fs req).db (exec .changeUserPassword nd db fs req).fs ops).1 fs' req').Succeeded ↔
    SameDigest salt (trimSpace req.user.password) req'.user.password) := by
  obtain ⟨db', m, hc⟩ := exec_success rfl hs
  have hr : Reach Opened (exec .changeUserPassword nd db fs req).db := .step h ..
  obtain ⟨w, hw, hwn, hwd⟩ := hname
  cases m with
  | changeUserPassword i u u' hv hpol hu =>
    obtain ⟨h1, h2, _⟩ := (validate_iff (reach_inv h)).1 hv
    obtain ⟨_, hadd⟩ := User.changePassword_ok hu
    obtain ⟨p, hp, hu'⟩ := User.addPassword_ok hadd
    obtain ⟨_, salt, hsalt, _⟩ := newPassword_ok hp
    rw [hsalt] at hp
    refine ⟨salt, hsalt, ?_⟩
    have hsame0 : SameIdentity u u' := by rw [hu']; constructor <;> rfl
    have hget : (exec .changeUserPassword nd db fs req).db.users[i]? = some u' := by
      rw [hc.db_eq]
      have := (List.getElem?_eq_some_iff.1 h1).1
      simp [Database.touch, Database.setUser, this]
    have hwu : w = u := by
      obtain ⟨j, hj⟩ := List.getElem?_of_mem hw
      have e1 := (getUserByUsername_iff (reach_inv h)).2 ⟨hj, hwn⟩
      have e2 := (getUserByUsername_iff (reach_inv h)).2 ⟨h1, h2⟩
      rw [e1] at e2
      simp only [Option.some.injEq, Prod.mk.injEq] at e2
      exact e2.2
    subst hwu
    obtain ⟨v, hv', hpass, hsame⟩ := passwords_kept hr (fs := (exec .changeUserPassword nd db fs req).fs)
      (un := req.user.username) (by rw [hsame0.username]; exact h2.2) hops hget
    have hfin := (reach_inv (reach_run hr (exec .changeUserPassword nd db fs req).fs ops))
    rw [(authenticate_password hfin nd' fs' req' hne).1]
    have hdv : Denotes req'.user.username v := hsame.denotes (hsame0.denotes hwd)
    have hpw : v.passwords = p :: (w.passwords.take (keepOf db.policy.password.keepVersions + 2).toNat).mapIdx
        fun j q => q.off ((nd.now.skip 1).skip (2 * j)) := by
      rw [hpass, hu']
      show p :: User.keepLoop (nd.now.skip 1) (keepOf db.policy.password.keepVersions) 0 w.passwords = _
      rw [keepLoop_eq _ _ (keepOf_pos _) 0 (by have := keepOf_pos db.policy.password.keepVersions; omega)]
      simp
    constructor
    · rintro ⟨x, hx, hdx, q, hq, hqd, hqe, hacc⟩
      have hxv : x = v := by
        obtain ⟨j, hj⟩ := List.getElem?_of_mem hx
        have e1 := (getUser_iff hfin).2 ⟨hj, hdx⟩
        have e2 := (getUser_iff hfin).2 ⟨hv', hdv⟩
        rw [e1] at e2
        simp only [Option.some.injEq, Prod.mk.injEq] at e2
        exact e2.2
      rw [hxv, hpw] at hq
      rcases List.mem_cons.1 hq with rfl | hq
      · exact (newPassword_accepts_iff hp).1 hacc
      · obtain ⟨q', _, _, rfl⟩ := mem_off hq
        rw [off_disabled] at hqd
        simp at hqd
    · intro hk
      refine ⟨v, List.mem_of_getElem? hv', hdv, p, by rw [hpw]; simp, ?_⟩
      have hacc := (newPassword_accepts_iff hp (q := req'.user.password)).2 hk
      obtain ⟨_, _, _, rfl⟩ := newPassword_ok hp
      exact ⟨rfl, rfl, hacc⟩

/-- C13: so the new password works, and every other one, old or older, is rejected, unless bcrypt's key schedule does not
distinguish it from the new one or its digest happens to be the same. -/
theorem C13_only_new_password_works [Ext] {db : Database} (h : Reach Opened db) {nd : Nondet} {fs : FS}
    {req : Request} (hs : (exec .changeUserPassword nd db fs req).Succeeded) (ops : List Op)
    (hops : NoPasswordChange ops req.user.username) (nd' : Nondet) (fs' : FS) (req' : Request)
    (hname : ∃ u ∈ db.users, NamesUser req.user.username u ∧ Denotes req'.user.username u)
    (hne : req'.user.password ≠ [])
    (hb : ∀ salt, nd.salts 0 = some salt → NoCollision salt (trimSpace req.user.password) req'.user.password) :
    (exec .authenticateUser nd'
      (run (exec .changeUserPassword nd db fs req).db (exec .changeUserPassword nd db fs req).fs ops).1 fs' req').Succeeded ↔
    bcryptKey (trimSpace req.user.password) = bcryptKey req'.user.password := by
  obtain ⟨salt, hsalt, hiff⟩ := C13_only_new_digest_works h hs ops hops nd' fs' req' hname hne
  rw [hiff, (hb salt hsalt).iff]

/-- Joe changes the password. -/
def reqNewPw : Request :=
  { user := { username := gs! "joe", email := gs! "joe@example.com",
              oldPassword := gs! "password1", password := gs! "newpassword" } }

example : (exec .changeUserPassword nd db2 fs3 reqNewPw).Succeeded := by unfold Result.Succeeded; decide +kernel
example : ∃ u ∈ db2.users, NamesUser reqNewPw.user.username u ∧ Denotes (gs! "joe@example.com") u := by
  unfold NamesUser Denotes; decide +kernel

/-! ## C14 -/

/-- C14: in every history of a newly created database each user's first (most recent) password is the only one that is not
disabled, and it is not expired; all others are disabled and expired. -/
theorem C14_one_active_password [Ext] {db : Database} (h : Reach Created db) :
    ∀ u ∈ db.users, ∃ p ps, u.passwords = p :: ps ∧ p.disabled = false ∧ p.expired = false ∧
      ∀ q ∈ ps, q.disabled = true ∧ q.expired = true := by
  refine reach_forall_users (start := Created) (P := fun u => ∃ p ps, u.passwords = p :: ps ∧ p.disabled = false ∧
    p.expired = false ∧ ∀ q ∈ ps, q.disabled = true ∧ q.expired = true) ?_ ?_ ?_ h
  · intro db hdb u hu
    rw [created_users hdb] at hu
    simp at hu
  · intro nd req db p e roles name hp he
    obtain ⟨_, _, _, rfl⟩ := newPassword_ok hp
    exact ⟨_, [], rfl, rfl, rfl, by simp⟩
  · intro nd req db c u u' _ hP hop
    by_cases hc : c = .changeUserPassword
    · subst hc
      cases hop with
      | changeUserPassword p hpol hold hp =>
        have hk : ∀ q ∈ User.keepLoop (nd.now.skip 1) (keepOf db.policy.password.keepVersions) 0 u.passwords,
            q.disabled = true ∧ q.expired = true := by
          rw [keepLoop_eq _ _ (keepOf_pos _) 0 (by have := keepOf_pos db.policy.password.keepVersions; omega)]
          intro q hq
          obtain ⟨q', hq', _, rfl⟩ := mem_off hq
          refine ⟨off_disabled _ _, ?_⟩
          unfold Password.off
          split
          · rename_i hd
            obtain ⟨p0, ps0, h1, h2, h3, h4⟩ := hP
            have hm := List.mem_of_mem_take hq'
            rw [h1] at hm
            rcases List.mem_cons.1 hm with rfl | hm
            · rw [h2] at hd; simp at hd
            · exact (h4 q' hm).2
          · rfl
        obtain ⟨_, _, _, rfl⟩ := newPassword_ok hp
        exact ⟨_, _, rfl, rfl, rfl, hk⟩
    · rw [hop.parts.1 hc]
      exact hP

example : Reach Created db2 ∧ db2.users.length = 2 := ⟨db2_reach, by decide +kernel⟩

/-! ## C15 -/

/-- C15: a successful `ChangeUserPassword` leaves the addressed user with the new password followed by the most recent `k+2`
old ones, disabled, in the same order, where `k` is the policy's `KeepVersions` (9 if that is below 1).  Nothing but the
disabling marks of the old ones changes. -/
theorem C15_history_after_change [Ext] {db : Database} (h : Reach Opened db) {nd : Nondet} {fs : FS} {req : Request}
    (hs : (exec .changeUserPassword nd db fs req).Succeeded) :
    ∃ (i : Nat) (u u' : User) (p : Password), db.users[i]? = some u ∧ NamesUser req.user.username u ∧
      (exec .changeUserPassword nd db fs req).db.users[i]? = some u' ∧
      u'.passwords = p :: (u.passwords.take
        ((if db.policy.password.keepVersions < 1 then 9 else db.policy.password.keepVersions) + 2).toNat).mapIdx
          (fun j q => if q.disabled then q
            else { q with
              expired := true, expiredAt := nd.now (1 + 2 * j), disabled := true, disabledAt := nd.now (2 + 2 * j) }) := by
  obtain ⟨db', m, hc⟩ := exec_success rfl hs
  cases m with
  | changeUserPassword i u u' hv hpol hu =>
    obtain ⟨h1, h2, _⟩ := (validate_iff (reach_inv h)).1 hv
    obtain ⟨_, hadd⟩ := User.changePassword_ok hu
    obtain ⟨p, hp, hu'⟩ := User.addPassword_ok hadd
    refine ⟨i, u, u', p, h1, h2, ?_, ?_⟩
    · rw [hc.db_eq]
      have := (List.getElem?_eq_some_iff.1 h1).1
      simp [Database.touch, Database.setUser, this]
    · rw [hu']
      show p :: User.keepLoop (nd.now.skip 1) (keepOf db.policy.password.keepVersions) 0 u.passwords = _
      rw [keepLoop_eq _ _ (keepOf_pos _) 0 (by have := keepOf_pos db.policy.password.keepVersions; omega)]
      simp only [Int.ofNat_zero, Int.sub_zero]
      congr 2
      funext j q
      simp only [Password.off, Password.disable, Clock.skip, Nat.zero_add, Nat.add_zero]
      rw [show 1 + (2 * j + 1) = 2 + 2 * j by omega]

/-- C15: in every history of a newly created database no user ever holds more than `k+3` passwords, `k` being the policy's
`KeepVersions` (9 if that is below 1). -/
theorem C15_history_bounded [Ext] {db : Database} (h : Reach Created db) :
    ∀ u ∈ db.users, (u.passwords.length : Int) ≤
      (if db.policy.password.keepVersions < 1 then 9 else db.policy.password.keepVersions) + 3 := by
  induction h with
  | init hdb => intro u hu; rw [created_users hdb] at hu; simp at hu
  | @step db h c nd fs req ih =>
    rw [(exec_path c nd db fs req).2.1]
    have hk := keepOf_pos db.policy.password.keepVersions
    unfold keepOf at hk
    refine exec_forall_users ih ?_ ?_
    · intro p e roles name hp he
      simp only [newUserOf, List.length_singleton]
      omega
    · intro u u' hu hP hop
      by_cases hc : c = .changeUserPassword
      · subst hc
        cases hop with
        | changeUserPassword p hpol hold hp =>
          have := keepLoop_eq (nd.now.skip 1) (keepOf db.policy.password.keepVersions) (keepOf_pos _) 0
            (by have := keepOf_pos db.policy.password.keepVersions; omega) u.passwords
          unfold keepOf at this
          simp only [User.revise, List.length_cons, this, List.length_mapIdx, List.length_take]
          omega
      · rw [hop.parts.1 hc]; exact hP

/-- The history in which Joe sets the same password twelve times. -/
def twelveChanges : List Op :=
  List.replicate 12 { call := .changeUserPassword, nd := nd,
                      req := { reqNewPw with user := { reqNewPw.user with password := gs! "password1" } } }

theorem twelve_reach : Reach Created (run db1 fs2 twelveChanges).1 := reach_run db1_reach _ _

/-- C15: the bound suggested by the policy, `KeepVersions`, is not kept: with its default of 10 a user ends up with 13. -/
theorem C15_policy_bound_fails :
    Reach Created (run db1 fs2 twelveChanges).1 ∧ (run db1 fs2 twelveChanges).1.policy.password.keepVersions = 10 ∧
      ∃ u ∈ (run db1 fs2 twelveChanges).1.users, u.passwords.length = 13 := by
  refine ⟨twelve_reach, ?_, ?_⟩ <;> decide +kernel

/-! ## C16 -/

/-- The byte at position `i` of the key schedule input. -/
def keyAt (p : GoString) (i : Nat) : UInt8 := (p ++ [0]).getD (i % (p.length + 1)) 0

theorem bcryptKey_eq_iff_keyAt (p q : GoString) : bcryptKey p = bcryptKey q ↔ ∀ i < 72, keyAt p i = keyAt q i := by
  unfold bcryptKey
  rw [List.map_inj_left]
  simp [keyAt]

theorem keyAt_lt {p : GoString} {i : Nat} (h : i < p.length) : keyAt p i = p[i] := by
  unfold keyAt
  rw [Nat.mod_eq_of_lt (by omega), List.getD_eq_getElem?_getD, List.getElem?_append_left h]
  simp [h]

theorem keyAt_end (p : GoString) : keyAt p p.length = 0 := by
  unfold keyAt
  rw [Nat.mod_eq_of_lt (by omega), List.getD_eq_getElem?_getD]
  simp

theorem keyAt_agree_aux {p q : GoString} (hq : (0 : UInt8) ∉ q) (h : ∀ i < 72, keyAt p i = keyAt q i)
    (hp72 : p.length < 72) : q.length ≤ p.length := by
  apply Classical.byContradiction
  intro hlt
  have h0 := h p.length hp72
  rw [keyAt_end, keyAt_lt (by omega)] at h0
  exact hq (h0 ▸ List.getElem_mem _)

/-- bcrypt's key schedule distinguishes two NUL-free passwords exactly if they differ within their first 72 bytes. -/
theorem bcryptKey_eq_iff {p q : GoString} (hp : (0 : UInt8) ∉ p) (hq : (0 : UInt8) ∉ q) :
    bcryptKey p = bcryptKey q ↔ p.take 72 = q.take 72 := by
  rw [bcryptKey_eq_iff_keyAt]
  constructor
  · intro h
    have h' : ∀ i < 72, keyAt q i = keyAt p i := fun i hi => (h i hi).symm
    apply List.ext_getElem
    · have h1 := keyAt_agree_aux hq h
      have h2 := keyAt_agree_aux hp h'
      simp only [List.length_take]
      omega
    · intro i hi1 hi2
      simp only [List.length_take] at hi1 hi2
      have := h i (by omega)
      rw [keyAt_lt (by omega), keyAt_lt (by omega)] at this
      simpa using this
  · intro h i hi
    by_cases hlen : p.length < 72
    · have : p = q := by
        have h1 := congrArg List.length h
        simp only [List.length_take] at h1
        rw [List.take_of_length_le (by omega), List.take_of_length_le (by omega)] at h
        exact h
      rw [this]
    · have h1 := congrArg List.length h
      simp only [List.length_take] at h1
      rw [keyAt_lt (by omega), keyAt_lt (by omega)]
      have h2 : (p.take 72)[i]? = (q.take 72)[i]? := by rw [h]
      rw [List.getElem?_take_of_lt hi, List.getElem?_take_of_lt hi, List.getElem?_eq_getElem (by omega),
        List.getElem?_eq_getElem (by omega)] at h2
      exact Option.some.inj h2

/-- C16: a password made from `p` accepts `q` if both agree on their first 72 bytes (both free of NUL bytes, `p` trimmed), and
only then unless `q` happens to have the digest of `p`. -/
theorem C16_accepts_iff_first_72_bytes [Ext] {now : Clock} {salt p q : GoString} (hb : NoCollision salt (trimSpace p) q)
    {pw : Password} (h : newPassword now (some salt) p = .ok pw) (hp : (0 : UInt8) ∉ trimSpace p) (hq : (0 : UInt8) ∉ q) :
    pw.accepts q = true ↔ (trimSpace p).take 72 = q.take 72 := by
  rw [newPassword_accepts_iff h, hb.iff, bcryptKey_eq_iff hp hq]

/-- C16: in particular a password of at most 71 bytes accepts only itself. -/
theorem C16_short_password_accepts_only_itself [Ext] {now : Clock} {salt p q : GoString}
    (hb : NoCollision salt (trimSpace p) q) {pw : Password} (h : newPassword now (some salt) p = .ok pw) (hp : (0 : UInt8) ∉ trimSpace p)
    (hq : (0 : UInt8) ∉ q) (hlen : (trimSpace p).length ≤ 71) : pw.accepts q = true ↔ q = trimSpace p := by
  rw [C16_accepts_iff_first_72_bytes hb h hp hq, List.take_of_length_le (by omega)]
  constructor
  · intro h1
    have h2 := congrArg List.length h1
    simp only [List.length_take] at h2
    rw [List.take_of_length_le (by omega)] at h1
    exact h1.symm
  · intro h1
    rw [h1, List.take_of_length_le (by omega)]

/-- C12, in general: a password that loses white space at its ends and is at most 71 bytes long without it (no NUL bytes) is
refused as it was registered, unless both happen to have the same digest. -/
theorem C12_untrimmed_password_refused [Ext] {db : Database} (h : Reach Opened db) {nd : Nondet} {fs : FS}
    {req : Request} (hs : (exec .addUser nd db fs req).Succeeded) (ops : List Op)
    (hops : NoPasswordChange ops req.user.username) (nd' : Nondet) (fs' : FS) (req' : Request)
    (hname : (64 ∉ req'.user.username ∧ 2 ≤ req'.user.username.length ∧
        toLower req'.user.username = toLower req.user.username) ∨
      (64 ∈ req'.user.username ∧ 6 ≤ req'.user.username.length ∧
        toLower req'.user.username = toLower req.user.email))
    (hpw : req'.user.password = req.user.password) (htrim : trimSpace req.user.password ≠ req.user.password)
    (hlen : (trimSpace req.user.password).length ≤ 71) (h0 : (0 : UInt8) ∉ req.user.password)
    (hb : ∀ salt, nd.salts 0 = some salt → NoCollision salt (trimSpace req.user.password) req.user.password) :
    ¬ (exec .authenticateUser nd' (run (exec .addUser nd db fs req).db (exec .addUser nd db fs req).fs ops).1 fs' req').Succeeded := by
  have hne : req.user.password ≠ [] := by
    intro e; rw [e] at htrim; exact htrim (by decide)
  obtain ⟨_, salt, hsalt, hiff⟩ := C12_accepted_iff h hs ops hops nd' fs' req' hname (by rw [hpw]; exact hne)
  rw [hiff, hpw, (hb salt hsalt).iff]
  have h0' : (0 : UInt8) ∉ trimSpace req.user.password := by
    obtain ⟨a, b, _, _, e, _⟩ := trimSpace_spec req.user.password
    intro hm
    rw [e] at h0
    exact h0 (List.mem_append_left _ (List.mem_append_right _ hm))
  rw [bcryptKey_eq_iff h0' h0, List.take_of_length_le (by omega)]
  intro e
  have h2 := congrArg List.length e
  simp only [List.length_take] at h2
  rw [List.take_of_length_le (by omega)] at e
  exact htrim e

example : (exec .addUser nd2 db1 fs2 reqSpace).Succeeded ∧ trimSpace reqSpace.user.password ≠ reqSpace.user.password ∧
    (∀ salt, nd2.salts 0 = some salt → NoCollision salt (trimSpace reqSpace.user.password) reqSpace.user.password) := by
  refine ⟨by unfold Result.Succeeded; decide +kernel, by decide +kernel, fun salt h => ?_⟩
  have : salt = (nd2.salts 0).getD [] := by rw [h]; rfl
  subst this
  unfold NoCollision SameDigest
  decide +kernel

/-- C16: whatever follows the 60 characters of a stored hash is ignored. -/
theorem C16_trailing_bytes_ignored [Ext] {now : Clock} {salt : Option GoString} {p : GoString} {pw : Password}
    (h : newPassword now salt p = .ok pw) (junk q : GoString) :
    { pw with hash := pw.hash ++ junk }.accepts q = pw.accepts q := by
  obtain ⟨_, salt', _, rfl⟩ := newPassword_ok h
  rw [Bool.eq_iff_iff]
  have h1 := bcryptMatch_text (c := 10) (by decide) (by decide) salt' (trimSpace p) junk q
  have h2 := bcryptMatch_text (c := 10) (by decide) (by decide) salt' (trimSpace p) [] q
  rw [List.append_nil] at h2
  exact h1.trans h2.symm

/-- The texts that can serve as a hash, with their cost, salt (22 characters) and digest (31 characters): a dollar sign, a version of
one character up to `2`, then either a dollar sign or a character other than that and one character that is not looked at, the
cost, one more character that is not looked at, the salt, the digest, and anything. -/
def HashText (h : GoString) (cost : Nat) (salt digest : GoString) : Prop :=
  ∃ (v a b sep : UInt8) (ver tail : GoString), v.toNat ≤ 50 ∧ (ver = [36] ∨ ∃ m x, m ≠ 36 ∧ ver = [m, x]) ∧
    CostChars a b cost ∧ salt.length = 22 ∧ digest.length = 31 ∧
    h = 36 :: v :: ver ++ a :: b :: sep :: salt ++ digest ++ tail

/-- C16: exactly which stored hashes accept a password: those of the form above with a salt in bcrypt's base64 and the digest of
the password.  Every other text, such as an empty one, accepts nothing. -/
theorem C16_which_hashes_accept [Ext] (pw : Password) (q : GoString) :
    pw.accepts q = true ↔ ∃ cost salt digest s, HashText pw.hash cost salt digest ∧ bcDecodeSalt salt = some s ∧
      digest = bcEncode (bcryptDigest cost s (bcryptKey q)) := by
  unfold Password.accepts bcryptMatch
  constructor
  · intro h
    split at h
    · simp at h
    rename_i cost salt rest hp
    split at h
    · simp at h
    rename_i s hs
    obtain ⟨hl, v, a, b, sep, ver, hv, hver, hc, hsl, e⟩ := bcryptParse_iff.1 hp
    have e2 := beq_iff_eq.1 h
    have hdl : (bcEncode (bcryptDigest cost s (bcryptKey q))).length = 31 := by rw [bcEncode_length, bcryptDigest_length]
    have hr : 31 ≤ rest.length := by
      apply Classical.byContradiction
      intro hlt
      apply bcEncode_nonzero (bcryptDigest cost s (bcryptKey q))
      rw [← e2, buffer, List.take_append]
      apply List.mem_append_right
      rw [List.mem_take_iff_getElem]
      exact ⟨0, by simp; omega, by simp⟩
    refine ⟨cost, salt, rest.take 31, s, ⟨v, a, b, sep, ver, rest.drop 31, hv, hver, hc, hsl, by simp; omega, ?_⟩, hs, ?_⟩
    · rw [e]; simp
    · rw [← e2, buffer, List.take_append_of_le_length hr]
  · rintro ⟨cost, salt, digest, s, ⟨v, a, b, sep, ver, tail, hv, hver, hc, hsl, hdl, e⟩, hs, hd⟩
    have hlen : 59 ≤ pw.hash.length := by
      rw [e]
      rcases hver with rfl | ⟨m, x, _, rfl⟩ <;> simp <;> omega
    have hp : bcryptParse pw.hash = some (cost, salt, digest ++ tail) :=
      bcryptParse_iff.2 ⟨hlen, v, a, b, sep, ver, hv, hver, hc, hsl, by rw [e]; simp⟩
    rw [hp]
    dsimp only
    rw [hs]
    dsimp only
    rw [beq_iff_eq, buffer, List.append_assoc, List.take_left' hdl, hd]

-- Two texts in one form each: the one the code writes, and one with another version, unread characters and cost `+4`.
example : HashText (bcryptText 10 [1] (gs! "pw")) 10 (bcEncode (buffer 16 [1]))
      (bcEncode (bcryptDigest 10 (buffer 16 [1]) (bcryptKey (gs! "pw")))) ∧
    ({ Password.zero with hash := (gs! "$1x!+4?" ++ bcEncode (buffer 16 [1])) ++
                                    (bcEncode (bcryptDigest 4 (buffer 16 [1]) (bcryptKey (gs! "pw"))) ++ gs! "tail") } : Password).accepts (gs! "pw") = true := by
  refine ⟨⟨50, 49, 48, 36, [97, 36], [], by decide, Or.inr ⟨97, 36, by decide, rfl⟩, ⟨1, 0, by decide⟩, by decide +kernel,
    by decide +kernel, by decide +kernel⟩, by decide +kernel⟩

/-- C16: the NUL-free premise is needed: the cyclic key schedule does not distinguish `"aNa"` from `"a"` (N a NUL byte). -/
theorem C16_nul_bytes_collide : bcryptKey [97] = bcryptKey [97, 0, 97] := by decide

example : ∃ pw, newPassword nd.now (some []) (gs! " secret123 ") = .ok pw ∧ (0 : UInt8) ∉ trimSpace (gs! " secret123 ") ∧
    (trimSpace (gs! " secret123 ")).length ≤ 71 := ⟨_, rfl, by decide, by decide⟩

/-! ## C17 -/

/-- C17: `NewPasswordWithOptions` succeeds exactly if the trimmed password is non-empty, the algorithm is bcrypt, the cost
(10 for requested costs below 8) is at most 31 and there is entropy; the result is then enabled, unexpired, with the given
purpose and algorithm and that cost. -/
theorem C17_new_password [Ext] (now : Clock) (salt : Option GoString) (s purpose algo : GoString) (cost : Int) :
    ((∃ p, newPasswordWithOptions now salt s purpose algo cost = .ok p) ↔
      trimSpace s ≠ [] ∧ algo = gs! "bcrypt" ∧ cost ≤ 31 ∧ salt ≠ none) ∧
    (∀ p, newPasswordWithOptions now salt s purpose algo cost = .ok p →
      p.purpose = purpose ∧ p.algorithm = algo ∧ p.disabled = false ∧ p.expired = false ∧ p.createdAt = now 0 ∧
      p.cost = (if cost < 8 then 10 else cost) ∧ 8 ≤ p.cost ∧ p.cost ≤ 31 ∧
      ∃ salt', salt = some salt' ∧ p.hash = bcryptText p.cost.toNat salt' (trimSpace s)) ∧
    ((¬ ∃ p, newPasswordWithOptions now salt s purpose algo cost = .ok p) →
      ∃ e, newPasswordWithOptions now salt s purpose algo cost = .err e) := by
  refine ⟨?_, ?_, ?_⟩
  · unfold newPasswordWithOptions bcryptGenerate
    dsimp only
    by_cases h1 : trimSpace s = []
    · simp [h1]
    · by_cases h2 : algo = gs! "bcrypt"
      · subst h2
        rw [if_neg h1, if_pos rfl]
        have h3 : ∀ a : Int, (if a < 4 then 10 else a) = (if a < 4 then (10 : Int) else a) := fun _ => rfl
        by_cases hc : cost < 8
        · simp only [if_pos hc]
          cases salt <;> simp [h1] <;> omega
        · simp only [if_neg hc]
          rw [if_neg (by omega : ¬ cost < 4)]
          by_cases h31 : 31 < cost
          · simp [h31]
            intro _ h; omega
          · rw [if_neg h31]
            cases salt <;> simp [h1] <;> omega
      · rw [if_neg h1, if_neg h2]
        have : ¬ ∃ p : Password, (if algo = [] then (Res.err (.std .passwordEmptyAlgorithm) : Res Password)
          else .err (.withV .passwordUnsupportedAlgorithm [algo] [])) = .ok p := by
          rintro ⟨p, hp⟩; split at hp <;> simp at hp
        constructor
        · intro h; exact absurd h this
        · rintro ⟨_, h, _⟩; exact absurd h h2
  · intro p hp
    unfold newPasswordWithOptions bcryptGenerate at hp
    dsimp only at hp
    split at hp
    · simp at hp
    · split at hp
      · have h4 : ¬ (if cost < 8 then (10 : Int) else cost) < 4 := by split <;> omega
        rw [if_neg h4] at hp
        by_cases h31 : 31 < (if cost < 8 then (10 : Int) else cost)
        · simp [h31] at hp
        · rw [if_neg h31] at hp
          cases salt with
          | none => simp at hp
          | some s' =>
            simp at hp
            subst hp
            refine ⟨rfl, rfl, rfl, rfl, rfl, rfl, ?_, ?_, s', rfl, rfl⟩
            · show 8 ≤ (if cost < 8 then (10 : Int) else cost); split <;> omega
            · show (if cost < 8 then (10 : Int) else cost) ≤ 31; omega
      · split at hp <;> simp at hp
  · intro h
    cases hr : newPasswordWithOptions now salt s purpose algo cost with
    | ok p => exact absurd ⟨p, hr⟩ h
    | err e => exact ⟨e, rfl⟩
    | panic => exact absurd hr (by apply newPasswordWithOptions_ne_panic)

example : trimSpace (gs! " x ") ≠ [] ∧ (gs! "bcrypt") = gs! "bcrypt" ∧ (12 : Int) ≤ 31 ∧ nd.salts 0 ≠ none := by decide

/-- C17: with the parameter map, the cost is its entry `"cost"`, 0 without one; the call panics exactly if there is such an
entry and it is not an `int`. -/
theorem C17_cost_parameter [Ext] (now : Clock) (salt : Option GoString) (s purpose algo : GoString)
    (params : Option (List (GoString × Option Int))) :
    (newPasswordParams now salt s purpose algo params = .panic ↔
      ∃ m, params = some m ∧ m.lookup (gs! "cost") = some none) ∧
    (newPasswordParams now salt s purpose algo params ≠ .panic →
      newPasswordParams now salt s purpose algo params =
        newPasswordWithOptions now salt s purpose algo (((params.getD []).lookup (gs! "cost")).join.getD 0)) := by
  unfold newPasswordParams
  cases params with
  | none => simp [newPasswordWithOptions_ne_panic]
  | some m =>
    dsimp only [Option.getD_some]
    rcases hl : m.lookup (gs! "cost") with _ | _ | c
    · simp [newPasswordWithOptions_ne_panic, hl]
    · simp [hl]
    · simp [newPasswordWithOptions_ne_panic, hl]

example : newPasswordParams nd.now (some []) (gs! "x") (gs! "generic") (gs! "bcrypt") (some [(gs! "cost", none)]) = .panic ∧
    (∃ p, newPasswordParams nd.now (some []) (gs! "x") (gs! "generic") (gs! "bcrypt") (some [(gs! "cost", some 12)]) = .ok p) :=
  ⟨rfl, _, rfl⟩

/-! ## C41 -/

/-- C41: if `AddUser` stores anything, the username and the password as given have lengths (in bytes) within the policy. -/
theorem C41_add_user_within_policy [Ext] {nd : Nondet} {db : Database} {fs : FS} {req : Request}
    (hch : (exec .addUser nd db fs req).Succeeded ∨ (exec .addUser nd db fs req).db.users ≠ db.users) :
    db.policy.user.minLength ≤ req.user.username.length ∧ req.user.username.length ≤ db.policy.user.maxLength ∧
    db.policy.password.minLength ≤ req.user.password.length ∧
    req.user.password.length ≤ db.policy.password.maxLength := by
  rcases exec_spec .addUser nd db fs req with h1 | ⟨db', m, hc⟩
  · rcases hch with h2 | h2
    · exact absurd h2 (h1.out rfl)
    · rw [h1.db_eq] at h2; exact absurd rfl h2
  · cases m with
    | addUser user emails hpol =>
      unfold checkPolicy checkUserPolicy checkPasswordPolicy at hpol
      split at hpol
      · simp at hpol
      · rename_i h
        split at h
        · simp at h
        · split at hpol
          · simp at hpol
          · omega

/-- C41: if `ChangeUserPassword` stores anything, the new password as given has a length within the policy. -/
theorem C41_change_within_policy [Ext] {nd : Nondet} {db : Database} {fs : FS} {req : Request}
    (hch : (exec .changeUserPassword nd db fs req).Succeeded ∨
      (exec .changeUserPassword nd db fs req).db.users ≠ db.users) :
    db.policy.password.minLength ≤ req.user.password.length ∧
    req.user.password.length ≤ db.policy.password.maxLength := by
  rcases exec_spec .changeUserPassword nd db fs req with h1 | ⟨db', m, hc⟩
  · rcases hch with h2 | h2
    · exact absurd h2 (h1.out rfl)
    · rw [h1.db_eq] at h2; exact absurd rfl h2
  · cases m with
    | changeUserPassword i u u' hv hpol =>
      unfold checkPasswordPolicy at hpol
      split at hpol
      · simp at hpol
      · omega

/-- C41: no other call adds a password to any user or a user to the database. -/
theorem C41_no_other_call_sets_passwords [Ext] {c : Call} (h1 : c ≠ .addUser) (h2 : c ≠ .changeUserPassword) (nd : Nondet)
    (db : Database) (fs : FS) (req : Request) :
    (exec c nd db fs req).db.users.map (fun u => (u.username, u.passwords)) =
      db.users.map (fun u => (u.username, u.passwords)) := by
  rcases exec_users' c nd db fs req with h | h
  · rw [h]
  · revert h
    generalize (exec c nd db fs req).db.users = us
    intro h
    cases h with
    | save => rfl
    | copy => rfl
    | appended => exact absurd rfl h1
    | modified _ i u u' hv hop =>
      rw [List.map_set]
      have hi := validate_users hv
      have : (u'.username, u'.passwords) = (u.username, u.passwords) := by
        rw [hop.parts.1 h2, hop.same.username]
      rw [this]
      apply List.ext_getElem?
      intro n
      rw [List.getElem?_set]
      split
      · rename_i hn
        subst hn
        rw [if_pos (by simpa using (List.getElem?_eq_some_iff.1 hi).1), List.getElem?_map, hi]
        rfl
      · rfl

/-- C41: the policy in force never changes after opening. -/
theorem C41_policy_fixed [Ext] (db : Database) (fs : FS) (ops : List Op) : (run db fs ops).1.policy = db.policy := by
  induction ops generalizing db fs with
  | nil => rfl
  | cons o ops ih =>
    rcases run_cons db fs o ops with h | h
    · rw [h]; exact (exec_path ..).2.1
    · rw [h, ih]; exact (exec_path ..).2.1

/-- Replace the flags of a policy that are not lengths or counts. -/
def Policy.withFlags (p : Policy) (f : Bool × Bool × Bool × Bool × Bool × Bool × Bool × Bool) : Policy :=
  { password := { p.password with
      requireUppercase := f.1, requireLowercase := f.2.1, requireNumber := f.2.2.1, requireNonAlphaNumeric := f.2.2.2.1
      blockReuse := f.2.2.2.2.1, blockPasswordChange := f.2.2.2.2.2.1 }
    user := { p.user with allowNonAlphaNumeric := f.2.2.2.2.2.2.1, allowUppercase := f.2.2.2.2.2.2.2 } }

/-- Replace the whole policy. -/
def Database.setPolicy (db : Database) (pol : Policy) : Database := { db with policy := pol }

theorem keyLoop_policy [Ext] (nd : Nondet) (db : Database) (pol : Policy) (s : GoString) (n a f : Nat) :
    (db.setPolicy pol).keyLoop nd s n a f = db.keyLoop nd s n a f := by
  induction n generalizing a f with
  | zero => rfl
  | succ n ih =>
    unfold Database.keyLoop
    split
    · simp [ih]
    · rfl
    · simp only [ih]; rfl

theorem checkEmails_policy [Ext] (db : Database) (pol : Policy) (es : List EmailAddress) :
    (db.setPolicy pol).checkEmails es = db.checkEmails es := by
  induction es with
  | nil => rfl
  | cons e es ih =>
    unfold Database.checkEmails
    simp only [ih]
    rfl

/-- The second result is the first with another policy. -/
def SameBut (pol : Policy) (r r' : Result) : Prop :=
  r'.out = r.out ∧ r'.req = r.req ∧ r'.db = r.db.setPolicy pol

theorem writeFile_err (fs : FS) (path d d' : GoString) (io : WriteOutcome) :
    (writeFile fs path d' io).2 = (writeFile fs path d io).2 := by
  unfold writeFile
  split
  · rfl
  · cases io <;> rfl

theorem commit_policy [Ext] (nd : Nondet) (db : Database) (fs : FS) (pol : Policy) :
    ((db.setPolicy pol).commit nd fs).1 = (db.commit nd fs).1.setPolicy pol ∧
    ((db.setPolicy pol).commit nd fs).2.2 = (db.commit nd fs).2.2 := by
  unfold Database.commit
  have := writeFile_err fs db.path
    (marshalDB { db.toDBData with revision := (db.revision + 1) % 2 ^ 64, lastModified := nd.commitTime })
    (marshalDB { (db.setPolicy pol).toDBData with revision := (db.revision + 1) % 2 ^ 64, lastModified := nd.commitTime }) nd.io
  revert this
  show _ → _
  dsimp only [Database.setPolicy]
  generalize writeFile _ _ _ _ = a
  generalize writeFile _ _ _ _ = b
  rcases a with ⟨a1, a2⟩
  rcases b with ⟨b1, b2⟩
  intro h
  dsimp only at h
  subst h
  cases a2 <;> exact ⟨rfl, rfl⟩

theorem finish_policy [Ext] (nd : Nondet) (db : Database) (fs : FS) (req : Request) (wrap : GoErr → GoErr) (pol : Policy) :
    SameBut pol (db.finish nd fs req wrap) ((db.setPolicy pol).finish nd fs req wrap) := by
  obtain ⟨h1, h2⟩ := commit_policy nd db fs pol
  unfold Database.finish
  revert h1 h2
  generalize (db.setPolicy pol).commit nd fs = a
  generalize db.commit nd fs = b
  rcases a with ⟨a1, a2, a3⟩
  rcases b with ⟨b1, b2, b3⟩
  intro h1 h2
  dsimp only at h1 h2
  subst h1 h2
  cases a3 <;> exact ⟨rfl, rfl, rfl⟩

/-- C41: the flags that ask for or forbid kinds of characters, reuse or change of passwords have no influence on the outcome
of any call, nor on what it answers and stores: only the policy itself differs. -/
theorem C41_flags_not_enforced [Ext] (c : Call) (nd : Nondet) (db : Database) (fs : FS) (req : Request)
    (f : Bool × Bool × Bool × Bool × Bool × Bool × Bool × Bool) :
    (exec c nd (db.setPolicy (db.policy.withFlags f)) fs req).out = (exec c nd db fs req).out ∧
    (exec c nd (db.setPolicy (db.policy.withFlags f)) fs req).req = (exec c nd db fs req).req ∧
    (exec c nd (db.setPolicy (db.policy.withFlags f)) fs req).db =
      (exec c nd db fs req).db.setPolicy (db.policy.withFlags f) := by
  have hpol : ∀ a b, checkPolicy (db.setPolicy (db.policy.withFlags f)).policy a b = checkPolicy db.policy a b :=
    fun _ _ => rfl
  have hpw : ∀ a, checkPasswordPolicy (db.setPolicy (db.policy.withFlags f)).policy a = checkPasswordPolicy db.policy a :=
    fun _ => rfl
  have hkeep : (db.setPolicy (db.policy.withFlags f)).policy.password.keepVersions = db.policy.password.keepVersions := rfl
  show SameBut (db.policy.withFlags f) (exec c nd db fs req) (exec c nd (db.setPolicy (db.policy.withFlags f)) fs req)
  revert hpol hpw hkeep
  generalize db.policy.withFlags f = pol
  intro hpol hpw hkeep
  have hv : ∀ a b, (db.setPolicy pol).validateUserIdentity a b = db.validateUserIdentity a b := fun _ _ => rfl
  have hg : ∀ a, (db.setPolicy pol).getUser a = db.getUser a := fun _ => rfl
  have hd : ∀ a, (db.setPolicy pol).deref a = db.deref a := fun _ => rfl
  have hset : ∀ i u, (db.setPolicy pol).setUser i u = (db.setUser i u).setPolicy pol := fun _ _ => rfl
  have hf : ∀ req' e, SameBut pol (db.failWith fs req' e) ((db.setPolicy pol).failWith fs req' e) :=
    fun _ _ => ⟨rfl, rfl, rfl⟩
  have hfin := fun d r w => finish_policy nd d fs r w pol
  cases c with
  | addUser =>
    simp only [exec, Database.addUser, hpol, checkEmails_policy]
    split
    · apply hf
    · split
      · apply hf
      · exact ⟨rfl, rfl, rfl⟩
      · rename_i user _
        have hr : (db.setPolicy pol).refUsername = db.refUsername := rfl
        simp only [hr]
        cases db.refUsername (toLower user.username) with
        | some _ => apply hf
        | none =>
          cases hce : db.checkEmails user.emailAddresses with
          | error e => apply hf
          | ok emails => apply hfin
  | getUsers =>
    simp only [exec, Database.getUsers, hv]
    split
    · apply hf
    · exact ⟨rfl, rfl, rfl⟩
  | getUser =>
    simp only [exec, Database.getUserCall, hv]
    split
    · apply hf
    · exact ⟨rfl, rfl, rfl⟩
  | deleteUser =>
    simp only [exec, Database.deleteUser, hv]
    split <;> apply hf
  | authenticateUser =>
    simp only [exec, Database.authenticateUser, hg]
    repeat' split
    all_goals first | apply hf | exact ⟨rfl, rfl, rfl⟩
  | save => apply hfin
  | copy fp =>
    simp only [exec, Database.copy]
    obtain ⟨h1, h2⟩ := commit_policy nd { db with path := fp } fs pol
    change ((({ db.setPolicy pol with path := fp } : Database)).commit nd fs).1 = _ at h1
    change ((({ db.setPolicy pol with path := fp } : Database)).commit nd fs).2.2 = _ at h2
    revert h1 h2
    generalize ({ db.setPolicy pol with path := fp } : Database).commit nd fs = a
    generalize ({ db with path := fp } : Database).commit nd fs = b
    rcases a with ⟨a1, a2, a3⟩
    rcases b with ⟨b1, b2, b3⟩
    intro h1 h2
    dsimp only at h1 h2
    subst h1 h2
    cases a3 <;> exact ⟨rfl, rfl, rfl⟩
  | addPublicKey =>
    simp only [exec, Database.addPublicKey, hv, hset]
    repeat' split
    all_goals first | apply hf | apply hfin | exact ⟨rfl, rfl, rfl⟩
  | getPublicKeys =>
    simp only [exec, Database.getPublicKeys, hv]
    split
    · apply hf
    · exact ⟨rfl, rfl, rfl⟩
  | deletePublicKey =>
    simp only [exec, Database.deletePublicKey, hv, hset]
    repeat' split
    all_goals first | apply hf | apply hfin | exact ⟨rfl, rfl, rfl⟩
  | addAPIKey =>
    simp only [exec, Database.addAPIKey, hv, keyLoop_policy]
    repeat' split
    all_goals first | apply hf | apply hfin | exact ⟨rfl, rfl, rfl⟩
  | deleteAPIKey =>
    simp only [exec, Database.deleteAPIKey, hv]
    repeat' split
    all_goals first | apply hf | apply hfin | exact ⟨rfl, rfl, rfl⟩
  | getAPIKeys =>
    simp only [exec, Database.getAPIKeys, hv]
    split
    · apply hf
    · exact ⟨rfl, rfl, rfl⟩
  | changeUserPassword =>
    simp only [exec, Database.changeUserPassword, hv, hset, hpw, hkeep]
    repeat' split
    all_goals first | apply hf | apply hfin | exact ⟨rfl, rfl, rfl⟩
  | identifyUser =>
    simp only [exec, Database.identifyUser, hg]
    split <;> exact ⟨rfl, rfl, rfl⟩
  | lookupAPIKey =>
    have hr : (db.setPolicy pol).refAPIKey = db.refAPIKey := rfl
    simp only [exec, Database.lookupAPIKey, hd, hr]
    repeat' split
    all_goals first | apply hf | exact ⟨rfl, rfl, rfl⟩
  | addMfaToken =>
    simp only [exec, Database.addMfaToken, hv, hset]
    repeat' split
    all_goals first | apply hf | apply hfin | exact ⟨rfl, rfl, rfl⟩
  | getMfaTokens =>
    simp only [exec, Database.getMfaTokens, hv]
    split
    · apply hf
    · exact ⟨rfl, rfl, rfl⟩
  | deleteMfaToken =>
    simp only [exec, Database.deleteMfaToken, hv, hset]
    repeat' split
    all_goals first | apply hf | apply hfin | exact ⟨rfl, rfl, rfl⟩

/-- The policy of the example database, asking for everything. -/
def strict : Policy := db1.policy.withFlags (true, true, true, true, true, true, false, false)

/-- C41: for example a policy that requires upper case, non-alphanumeric characters and forbids changes and reuse lets Joe
change the password to the same all-lower-case one. -/
theorem C41_strict_policy_ignored :
    strict.password.requireUppercase = true ∧ strict.password.blockPasswordChange = true ∧
    strict.password.blockReuse = true ∧
    (exec .changeUserPassword nd (db1.setPolicy strict) fs2
      { reqNewPw with user := { reqNewPw.user with password := gs! "password1" } }).Succeeded := by
  refine ⟨rfl, rfl, rfl, ?_⟩
  unfold Result.Succeeded
  decide +kernel

example : (exec .addUser nd2 db1 fs2 reqAnn).Succeeded := by unfold Result.Succeeded; decide +kernel

end GoIdentity
