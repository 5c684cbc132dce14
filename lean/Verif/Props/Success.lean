import Verif.Lemmas.Complete
import Verif.Props.ApiKeys
import Verif.Props.Patterns
import Verif.Props.Roles
import Verif.Spec.Laws
import Verif.Spec.Toy
/-!
# When calls succeed: C68
-/
namespace GoIdentity
open Toy

/-! ## C68 -/

/-- C68: `AddUser` succeeds exactly if the lengths fit the policy, the password is not blank, the address is a valid one, no
role is blank, the full name is blank or has exactly one comma or exactly one space, neither the username nor the address is
taken (ignoring case), the runtime delivers randomness and an identifier, and the file can be written. -/
theorem C68_add_user [Ext] {db : Database} (h : Reach Opened db) (nd : Nondet) (fs : FS) (req : Request) :
    (exec .addUser nd db fs req).Succeeded ↔
      (UsernameAllowed db.policy req.user.username ∧ PasswordAllowed db.policy req.user.password) ∧
      req.user.username ≠ [] ∧ ¬ Blank req.user.password ∧ emailPattern.Matches req.user.email ∧
      (∀ r ∈ req.user.roles, ¬ Blank r) ∧
      (Blank req.user.fullName ∨ (trimSpace req.user.fullName).count 44 = 1 ∨ (trimSpace req.user.fullName).count 32 = 1) ∧
      (∀ v ∈ db.users, toLower v.username ≠ toLower req.user.username) ∧
      (∀ v ∈ db.users, ∀ e ∈ v.emailAddresses, toLower e.address ≠ toLower req.user.email) ∧
      (nd.salts 0).isSome = true ∧ nd.userID.length = 36 ∧ CanWrite nd fs db.path := by
  have hinv := reach_inv h
  unfold Result.Succeeded
  rw [success_iff rfl]
  have key : (∃ db', Mutation nd req db .addUser db') ↔
      checkPolicy db.policy req.user.username req.user.password = none ∧
      (∃ u, User.newWithRoles nd req.user.username req.user.password req.user.email req.user.fullName
        req.user.roles = .ok u) ∧
      db.refUsername (toLower req.user.username) = none ∧ db.refEmailAddress (toLower req.user.email) = none := by
    constructor
    · rintro ⟨db', m⟩
      cases m with
      | addUser user emails hpol hnew hname hem =>
        obtain ⟨p, e, roles, name, _, he, _, _, _, _, hu⟩ := User.newWithRoles_ok hnew
        refine ⟨hpol, ⟨user, hnew⟩, by rw [hu] at hname; exact hname, ?_⟩
        have h2 := checkEmails_iff.1 ⟨emails, hem⟩ e (by rw [hu]; simp)
        rwa [(C39_stored he).1] at h2
    · rintro ⟨hpol, ⟨user, hnew⟩, h1, h2⟩
      obtain ⟨p, e, roles, name, _, he, _, _, _, _, hu⟩ := User.newWithRoles_ok hnew
      obtain ⟨emails, hem⟩ := (checkEmails_iff (db := db) (es := user.emailAddresses)).2 (by
        rw [hu]
        intro x hx
        rw [List.mem_singleton] at hx
        rw [hx, (C39_stored he).1]
        exact h2)
      exact ⟨_, .addUser user emails hpol hnew (by rw [hu]; exact h1) hem⟩
  rw [key, checkPolicy_iff, newWithRoles_iff, refUsername_none_iff hinv, refEmail_none_iff hinv,
    C39_accepts_iff_matches, (C38_accepted_iff _).1, trimSpace_nil_iff]
  have hb : ∀ s : GoString, trimSpace s ≠ [] ↔ ¬ Blank s := fun s => not_congr trimSpace_nil_iff
  simp only [hb]
  unfold CanWrite
  show (_ ∧ db.path ≠ [] ∧ fs db.path ≠ some .dir ∧ nd.io = .ok) ↔ _
  constructor
  · rintro ⟨⟨a, ⟨b1, b2, b3, b4, b5, b6, b7⟩, c, d⟩, e⟩
    exact ⟨a, b7, b1, b3, b4, b5, c, d, b2, b6, e⟩
  · rintro ⟨a, b7, b1, b3, b4, b5, c, d, b2, b6, e⟩
    exact ⟨⟨a, ⟨b1, b2, b3, b4, b5, b6, b7⟩, c, d⟩, e⟩

/-- C68: `Save` and `Copy` succeed exactly if the file can be written. -/
theorem C68_save_copy [Ext] (nd : Nondet) (db : Database) (fs : FS) (req : Request) (fp : GoString) :
    ((exec .save nd db fs req).Succeeded ↔ CanWrite nd fs db.path) ∧
    ((exec (.copy fp) nd db fs req).Succeeded ↔ CanWrite nd fs fp) := by
  unfold Result.Succeeded CanWrite
  rw [success_iff rfl, success_iff rfl]
  exact ⟨⟨fun h => h.2, fun h => ⟨⟨_, .save⟩, h⟩⟩, ⟨fun h => h.2, fun h => ⟨⟨_, .copy fp⟩, h⟩⟩⟩

/-- C68: `ChangeUserPassword` succeeds exactly if a user is addressed, the old password is accepted by one of their passwords
that is neither disabled nor expired, the new one fits the policy and is not blank, randomness is available and the file can
be written. -/
theorem C68_change_password [Ext] {db : Database} (h : Reach Opened db) (nd : Nondet) (fs : FS) (req : Request) :
    (exec .changeUserPassword nd db fs req).Succeeded ↔
      (∃ u, Addressed db req u ∧ ∃ p ∈ u.passwords, p.disabled = false ∧ p.expired = false ∧
        bcryptMatch p.hash req.user.oldPassword = true) ∧
      PasswordAllowed db.policy req.user.password ∧ ¬ Blank req.user.password ∧ (nd.salts 0).isSome = true ∧
      CanWrite nd fs db.path := by
  have hinv := reach_inv h
  unfold Result.Succeeded
  rw [success_iff rfl]
  have hb : trimSpace req.user.password ≠ [] ↔ ¬ Blank req.user.password := not_congr trimSpace_nil_iff
  constructor
  · rintro ⟨⟨db', m⟩, hw⟩
    cases m with
    | changeUserPassword i u u' hv hpol hu =>
      unfold User.changePassword at hu
      split at hu
      · simp at hu
      · rename_i hver
        split at hu
        · simp at hu
        · simp at hu
        · rename_i u1 hadd
          obtain ⟨p, hp, _⟩ := User.addPassword_ok hadd
          obtain ⟨h1, h2⟩ := newPassword_iff.1 ⟨p, hp⟩
          exact ⟨⟨u, (addressed_iff hinv).1 ⟨i, hv⟩, verifyPassword_iff.1 hver⟩, checkPasswordPolicy_iff.1 hpol, hb.1 h1, h2, hw⟩
  · rintro ⟨⟨u, ha, hver⟩, hpol, h1, h2, hw⟩
    obtain ⟨i, hv⟩ := (addressed_iff hinv).2 ha
    obtain ⟨u', hu⟩ := changePassword_of (keep := db.policy.password.keepVersions) (verifyPassword_iff.2 hver)
      (newPassword_iff (now := nd.now).2 ⟨hb.2 h1, h2⟩)
    exact ⟨⟨_, .changeUserPassword i u u' hv (checkPasswordPolicy_iff.2 hpol) hu⟩, hw⟩

/-- C68: `DeletePublicKey`, `DeleteAPIKey` and `DeleteMfaToken` succeed exactly if a user is addressed who has an item with the
given ID, and the file can be written. -/
theorem C68_delete [Ext] {db : Database} (h : Reach Opened db) (nd : Nondet) (fs : FS) (req : Request) :
    ((exec .deletePublicKey nd db fs req).Succeeded ↔
      (∃ u, Addressed db req u ∧ ∃ k ∈ u.publicKeys, k.id = req.key.id) ∧ CanWrite nd fs db.path) ∧
    ((exec .deleteAPIKey nd db fs req).Succeeded ↔
      (∃ u, Addressed db req u ∧ ∃ k ∈ u.apiKeys, k.id = req.key.id) ∧ CanWrite nd fs db.path) ∧
    ((exec .deleteMfaToken nd db fs req).Succeeded ↔
      (∃ u, Addressed db req u ∧ ∃ k ∈ u.mfaTokens, k.id = req.mfaToken.id) ∧ CanWrite nd fs db.path) := by
  have hinv := reach_inv h
  unfold Result.Succeeded
  rw [success_iff rfl, success_iff rfl, success_iff rfl]
  refine ⟨⟨?_, ?_⟩, ⟨?_, ?_⟩, ⟨?_, ?_⟩⟩
  · rintro ⟨⟨db', m⟩, hw⟩
    cases m with
    | deletePublicKey i u u' hv hu => exact ⟨⟨u, (addressed_iff hinv).1 ⟨i, hv⟩, (User.deletePublicKey_ok hu).1⟩, hw⟩
  · rintro ⟨⟨u, ha, k, hk, hid⟩, hw⟩
    obtain ⟨i, hv⟩ := (addressed_iff hinv).2 ha
    obtain ⟨u', hd⟩ := deletePublicKey_of (now := nd.now) ⟨k, hk, hid⟩
    exact ⟨⟨_, .deletePublicKey i u u' hv hd⟩, hw⟩
  · rintro ⟨⟨db', m⟩, hw⟩
    cases m with
    | deleteAPIKey i u u' key hv hu =>
      refine ⟨⟨u, (addressed_iff hinv).1 ⟨i, hv⟩, ?_⟩, hw⟩
      obtain ⟨⟨y, hy, _⟩, _⟩ := User.deleteAPIKey_ok hu
      have := List.mem_of_getLast? hy
      rw [List.mem_filter] at this
      exact ⟨y, this.1, by simpa using this.2⟩
  · rintro ⟨⟨u, ha, k, hk, hid⟩, hw⟩
    obtain ⟨i, hv⟩ := (addressed_iff hinv).2 ha
    obtain ⟨u', key, hd⟩ := deleteAPIKey_of (now := nd.now) (k := req.key) ⟨k, hk, hid⟩
    exact ⟨⟨_, .deleteAPIKey i u u' key hv hd⟩, hw⟩
  · rintro ⟨⟨db', m⟩, hw⟩
    cases m with
    | deleteMfaToken i u u' hv hu => exact ⟨⟨u, (addressed_iff hinv).1 ⟨i, hv⟩, (User.deleteMfaToken_ok hu).1⟩, hw⟩
  · rintro ⟨⟨u, ha, k, hk, hid⟩, hw⟩
    obtain ⟨i, hv⟩ := (addressed_iff hinv).2 ha
    obtain ⟨u', hd⟩ := deleteMfaToken_of (now := nd.now) ⟨k, hk, hid⟩
    exact ⟨⟨_, .deleteMfaToken i u u' hv hd⟩, hw⟩

/-- C68: `AddAPIKey` succeeds exactly if a user is addressed, the usage is "api", there is a comment, no stored key has the
prefix of the secret that is drawn, hashing finds randomness within twelve attempts, and the file can be written. -/
theorem C68_add_api_key [Ext] {db : Database} (h : ReachKeys db) (nd : Nondet) (fs : FS) (req : Request)
    (hfuel : 12 ≤ nd.fuel) :
    (exec .addAPIKey nd db fs req).Succeeded ↔
      (∃ u, Addressed db req u) ∧ req.key.usage = gs! "api" ∧ req.key.comment ≠ [] ∧
      (∀ s, getRandomStringFromRange nd.globalRand nd.seedRand 72 96 = .ok s → PrefixUnused db (s.take 24)) ∧
      (∃ n, n < 12 ∧ (nd.salts n).isSome = true) ∧ CanWrite nd fs db.path := by
  have hinv := reach_inv h.reach
  obtain ⟨s, hs⟩ := secret_exists nd.globalRand nd.seedRand
  have hne : trimSpace s ≠ [] := by
    obtain ⟨h1, _, _, h2⟩ := secret_shape hs
    rw [h2]; intro hc; rw [hc] at h1; simp at h1
  have hfree : db.refAPIKey (s.take 24) = none ↔ PrefixUnused db (s.take 24) := by
    constructor
    · intro hn u hu k hk hc
      obtain ⟨i, hi⟩ := List.getElem?_of_mem hu
      have := hinv.api_ref i u k hi hk
      rw [hc, hn] at this; simp at this
    · intro hu
      cases hr : db.refAPIKey (s.take 24) with
      | none => rfl
      | some i =>
        obtain ⟨u, hui, k, hk, hkp⟩ := (C22_index_exact h _ _).1 hr
        exact absurd hkp (hu u (List.mem_of_getElem? hui) k hk)
  have hloop := keyLoop_found_iff (nd := nd) (db := db) hne nd.fuel 0 0 (by omega)
  unfold Result.Succeeded
  rw [success_iff rfl]
  constructor
  · rintro ⟨⟨db', m⟩, hw⟩
    cases m with
    | addAPIKey i u u' s' hash hv hs' hl hadd =>
      have : s' = s := by rw [hs] at hs'; cases hs'; rfl
      subst this
      obtain ⟨h1, n, h2, h3, h4⟩ := hloop.1 ⟨hash, hl⟩
      rw [Nat.zero_add] at h4
      unfold User.addAPIKey at hadd
      split at hadd
      · simp at hadd
      · simp at hadd
      · rename_i key hkey
        obtain ⟨_, k1, k2, _⟩ := User.newAPIKey_ok hkey
        refine ⟨⟨u, (addressed_iff hinv).1 ⟨i, hv⟩⟩, k1, k2, ?_, ⟨n, by omega, h4⟩, hw⟩
        intro s2 hs2
        have : s2 = s' := by rw [hs] at hs2; cases hs2; rfl
        rw [this]
        exact hfree.1 h1
  · rintro ⟨⟨u, ha⟩, k1, k2, hun, ⟨n, hn, hsalt⟩, hw⟩
    obtain ⟨i, hv⟩ := (addressed_iff hinv).2 ha
    obtain ⟨hash, hl⟩ := hloop.2 ⟨hfree.2 (hun s hs), n, by omega, by omega, by rw [Nat.zero_add]; exact hsalt⟩
    have hhash : hash ≠ [] := by
      obtain ⟨_, m, hk, hp, rfl⟩ := keyLoop_found hl
      obtain ⟨_, salt, _, rfl⟩ := newPassword_ok hp
      intro hc
      have := bcryptText_length 10 salt (trimSpace s)
      dsimp only at hc
      rw [hc] at this
      simp at this
    obtain ⟨u', hu⟩ := (addAPIKey_iff (now := nd.now) (id := getRandomString nd.seedRand s.length 40)
      (k := { req.key with payload := hash, pfx := s.take 24 }) (u := u) hhash).2 ⟨k1, k2⟩
    exact ⟨⟨_, .addAPIKey i u u' s hash hv hs hl hu⟩, hw⟩

/-- C68: `AddPublicKey` succeeds exactly if a user is addressed, the key is accepted by `NewPublicKey`, the user has no key of
the same type and fingerprint, and the file can be written. -/
theorem C68_add_public_key [Ext] {db : Database} (h : Reach Opened db) (nd : Nondet) (fs : FS) (req : Request) :
    (exec .addPublicKey nd db fs req).Succeeded ↔
      (∃ u key, Addressed db req u ∧ newPublicKey nd.now (getRandomString nd.seedRand 0 40) req.key = .ok key ∧
        ∀ x ∈ u.publicKeys, x.type ≠ key.type ∨ x.fingerprint ≠ key.fingerprint) ∧ CanWrite nd fs db.path := by
  have hinv := reach_inv h
  unfold Result.Succeeded
  rw [success_iff rfl]
  constructor
  · rintro ⟨⟨db', m⟩, hw⟩
    cases m with
    | addPublicKey i u u' hv hu =>
      obtain ⟨key, h1, h2⟩ := addPublicKey_iff.1 ⟨u', hu⟩
      exact ⟨⟨u, key, (addressed_iff hinv).1 ⟨i, hv⟩, h1, h2⟩, hw⟩
  · rintro ⟨⟨u, key, ha, h1, h2⟩, hw⟩
    obtain ⟨i, hv⟩ := (addressed_iff hinv).2 ha
    obtain ⟨u', hu⟩ := addPublicKey_iff.2 ⟨key, h1, h2⟩
    exact ⟨⟨_, .addPublicKey i u u' hv hu⟩, hw⟩

/-- C68: `AddMfaToken` succeeds exactly if a user is addressed, the token is accepted by `NewMfaToken`, none of the user's
tokens has its secret or its comment, and the file can be written. -/
theorem C68_add_mfa_token [Ext] {db : Database} (h : Reach Opened db) (nd : Nondet) (fs : FS) (req : Request) :
    (exec .addMfaToken nd db fs req).Succeeded ↔
      (∃ u t, Addressed db req u ∧ (newMfaToken nd req).1 = .ok t ∧
        ∀ x ∈ u.mfaTokens, x.secret ≠ t.secret ∧ x.comment ≠ t.comment) ∧ CanWrite nd fs db.path := by
  have hinv := reach_inv h
  unfold Result.Succeeded
  rw [success_iff rfl]
  constructor
  · rintro ⟨⟨db', m⟩, hw⟩
    cases m with
    | addMfaToken i u u' req' hv hu =>
      obtain ⟨t, h1, h2⟩ := addMfaToken_iff.1 ⟨u', req', hu⟩
      exact ⟨⟨u, t, (addressed_iff hinv).1 ⟨i, hv⟩, h1, h2⟩, hw⟩
  · rintro ⟨⟨u, t, ha, h1, h2⟩, hw⟩
    obtain ⟨i, hv⟩ := (addressed_iff hinv).2 ha
    obtain ⟨u', req', hu⟩ := addMfaToken_iff.2 ⟨t, h1, h2⟩
    exact ⟨⟨_, .addMfaToken i u u' req' hv hu⟩, hw⟩

/-- C68: the calls that only read succeed exactly if a user is addressed; `IdentifyUser` always succeeds and `DeleteUser`
never does. -/
theorem C68_reads [Ext] {db : Database} (h : Reach Opened db) (nd : Nondet) (fs : FS) (req : Request) :
    (∀ c ∈ [Call.getUsers, .getUser, .getPublicKeys, .getAPIKeys, .getMfaTokens],
      ((exec c nd db fs req).Succeeded ↔ ∃ u, Addressed db req u)) ∧
    (exec .identifyUser nd db fs req).Succeeded ∧ (exec .deleteUser nd db fs req).Failed := by
  have hinv := reach_inv h
  have hv : (∃ u, Addressed db req u) ↔ ∃ x, db.validateUserIdentity req.user.username req.user.email = .ok x := by
    constructor
    · rintro ⟨u, hu⟩
      obtain ⟨i, hi⟩ := (addressed_iff hinv).2 hu
      exact ⟨(i, u), hi⟩
    · rintro ⟨⟨i, u⟩, hi⟩
      exact ⟨u, (addressed_iff hinv).1 ⟨i, hi⟩⟩
  refine ⟨?_, ?_, ?_⟩
  · intro c hc
    rw [hv]
    simp only [List.mem_cons, List.not_mem_nil, or_false] at hc
    unfold Result.Succeeded
    rcases hc with rfl | rfl | rfl | rfl | rfl <;>
      simp only [exec, Database.getUsers, Database.getUserCall, Database.getPublicKeys, Database.getAPIKeys,
        Database.getMfaTokens] <;>
      cases db.validateUserIdentity req.user.username req.user.email <;> simp [Database.failWith]
  · unfold Result.Succeeded
    simp only [exec, Database.identifyUser]
    split <;> rfl
  · simp only [exec, Database.deleteUser]
    split <;> exact ⟨_, rfl⟩

/-! ### The conditions can be met, and each can fail -/

example : (exec .addUser nd db0 fs1 reqJoe).Succeeded := by unfold Result.Succeeded; decide +kernel
example : ¬ (exec .addUser nd2 db1 fs2 reqJoe).Succeeded := by
  rw [C68_add_user db1_reachO]
  rintro ⟨_, _, _, _, _, _, h, _⟩
  exact absurd h (by decide +kernel)
example : CanWrite nd fs2 db1.path ∧ ¬ CanWrite nd fs2 [] := by
  unfold CanWrite
  exact ⟨⟨by decide +kernel, by decide +kernel, rfl⟩, fun h => h.1 rfl⟩
example : (∃ u, Addressed db2 reqJoe u) ∧ ¬ ∃ u, Addressed db2 { reqJoe with user := { reqJoe.user with email := gs! "ann@example.com" } } u := by
  unfold Addressed NamesUser MailsUser
  exact ⟨⟨db2.users[0]'(by decide +kernel), by decide +kernel⟩, by
    rintro ⟨u, hu, hx⟩
    revert hx
    revert u
    decide +kernel⟩
/-- Joe changes their password. -/
def reqChangeOwn : Request :=
  { reqJoe with user := { reqJoe.user with oldPassword := gs! "password1", password := gs! "password3" } }
example : (exec .changeUserPassword nd db2 fs3 reqChangeOwn).Succeeded ∧
    ¬ (exec .changeUserPassword nd db2 fs3 { reqChangeOwn with user := { reqChangeOwn.user with oldPassword := gs! "x" } }).Succeeded := by
  unfold Result.Succeeded; decide +kernel
example : (exec .addAPIKey nd db2 fs3 reqApi).Succeeded := by unfold Result.Succeeded; decide +kernel

end GoIdentity
