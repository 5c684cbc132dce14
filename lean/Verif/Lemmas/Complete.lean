import Verif.Lemmas.ApiKeys
import Verif.Lemmas.Frame
import Verif.Lemmas.Passwords
import Verif.Spec.Precond
/-!
# A call succeeds exactly when its mutation is possible and the file can be written
-/
set_option linter.unusedSectionVars false
namespace GoIdentity
variable [Ext]

/-- Converse of `exec_spec`: a possible mutation is what the call does. -/
theorem Mutation.exec {c : Call} {nd : Nondet} {db db' : Database} {fs : FS} {req : Request}
    (h : Mutation nd req db c db') : Committed nd fs (c.target db) db' (exec c nd db fs req) := by
  cases h with
  | addUser user emails hpol hnew hname hem =>
    simp only [GoIdentity.exec, Database.addUser, hpol, hnew, hname, hem]
    exact finish_committed nd (db.withUser { user with id := db.pickID nd.ids user.id } emails) fs req _ (fun _ h => .inr h)
  | save => exact finish_committed nd db fs req id (fun _ h => h)
  | copy fp => exact copy_committed nd fp db fs req
  | addPublicKey i u u' hv h =>
    simp only [GoIdentity.exec, Database.addPublicKey, hv, h]
    exact finish_committed nd (db.setUser i u') fs req _ (fun _ h => .inr h)
  | deletePublicKey i u u' hv h =>
    simp only [GoIdentity.exec, Database.deletePublicKey, hv, h]
    exact finish_committed nd (db.setUser i u') fs req _ (fun _ h => .inr h)
  | addAPIKey i u u' s hash hv hs hl h =>
    simp only [GoIdentity.exec, Database.addAPIKey, hv, hs, hl, h]
    exact finish_committed nd { db.setUser i u' with refAPIKey := upd db.refAPIKey (s.take 24) (some i) } fs _ _
      (fun _ h => .inr h)
  | deleteAPIKey i u u' key hv h =>
    simp only [GoIdentity.exec, Database.deleteAPIKey, hv, h]
    exact finish_committed nd { db.setUser i u' with refAPIKey := upd db.refAPIKey key.pfx none } fs _ _
      (fun _ h => .inr h)
  | changeUserPassword i u u' hv hpol h =>
    simp only [GoIdentity.exec, Database.changeUserPassword, hv, hpol, h]
    exact finish_committed nd (db.setUser i u') fs req _ (fun _ h => .inr h)
  | addMfaToken i u u' req' hv h =>
    simp only [GoIdentity.exec, Database.addMfaToken, hv, h]
    exact finish_committed nd (db.setUser i u') fs req' _ (fun _ h => .inr h)
  | deleteMfaToken i u u' hv h =>
    simp only [GoIdentity.exec, Database.deleteMfaToken, hv, h]
    exact finish_committed nd (db.setUser i u') fs req _ (fun _ h => .inr h)

theorem writeFile_none_iff {fs : FS} {path data : GoString} {io : WriteOutcome} :
    (writeFile fs path data io).2 = none ↔ path ≠ [] ∧ fs path ≠ some .dir ∧ io = .ok := by
  unfold writeFile
  by_cases h : path = [] ∨ fs path = some .dir
  · rw [if_pos h]
    constructor
    · intro hc; simp at hc
    · rintro ⟨h1, h2, _⟩; rcases h with h | h
      · exact absurd h h1
      · exact absurd h h2
  · rw [if_neg h]
    have h' := not_or.1 h
    cases io <;> simp [h'.1, h'.2]

theorem Committed.success_iff {nd : Nondet} {fs : FS} {path : GoString} {db' : Database} {r : Result}
    (h : Committed nd fs path db' r) : r.out = .success ↔ path ≠ [] ∧ fs path ≠ some .dir ∧ nd.io = .ok := by
  rw [← writeFile_none_iff (data := marshalDB (db'.touch nd.commitTime).toDBData)]
  constructor
  · intro ho
    cases hw : (writeFile fs path (marshalDB (db'.touch nd.commitTime).toDBData) nd.io).2 with
    | none => rfl
    | some e =>
      obtain ⟨e', he, _⟩ := h.out_err e hw
      rw [he] at ho; simp at ho
  · exact h.out_ok

/-- A changing call succeeds exactly if its mutation is possible and the file can be written. -/
theorem success_iff {c : Call} {nd : Nondet} {db : Database} {fs : FS} {req : Request} (hm : c.mutates = true) :
    (exec c nd db fs req).out = .success ↔
      (∃ db', Mutation nd req db c db') ∧ c.target db ≠ [] ∧ fs (c.target db) ≠ some .dir ∧ nd.io = .ok := by
  constructor
  · intro h
    obtain ⟨db', h1, h2⟩ := exec_success hm h
    exact ⟨⟨db', h1⟩, h2.success_iff.1 h⟩
  · rintro ⟨⟨db', h1⟩, h2⟩
    exact (h1.exec (fs := fs)).success_iff.2 h2

/-! ## The parts of each call -/

theorem newPassword_iff {now : Clock} {salt : Option GoString} {s : GoString} :
    (∃ p, newPassword now salt s = .ok p) ↔ trimSpace s ≠ [] ∧ salt.isSome = true := by
  constructor
  · rintro ⟨p, hp⟩
    obtain ⟨h1, t, h2, _⟩ := newPassword_ok hp
    exact ⟨h1, by rw [h2]; rfl⟩
  · rintro ⟨h1, h2⟩
    obtain ⟨t, ht⟩ := Option.isSome_iff_exists.1 h2
    unfold newPassword newPasswordWithOptions bcryptGenerate
    simp [ht, h1]

theorem newRole_iff {s : GoString} : (∃ r, newRole s = .ok r) ↔ trimSpace s ≠ [] := by
  unfold newRole
  by_cases h : trimSpace s = []
  · simp [h]
  · simp only [h, if_false, not_false_eq_true, iff_true, ne_eq]
    split
    · rename_i hc; exact absurd hc (splitByte_ne_nil _ _)
    · exact ⟨_, rfl⟩
    · exact ⟨_, rfl⟩

theorem addRole_of {now : Clock} {s : GoString} (u : User) (h : ∃ r, newRole s = .ok r) :
    ∃ u', u.addRole now s = .ok u' := by
  obtain ⟨r, hr⟩ := h
  unfold User.addRole
  rw [hr]
  dsimp only
  split
  · exact ⟨_, rfl⟩
  · split <;> exact ⟨_, rfl⟩

theorem addRoles_iff {now : Clock} {ss : List GoString} (u : User) :
    (∃ u', u.addRoles now ss = .ok u') ↔ ∀ s ∈ ss, trimSpace s ≠ [] := by
  induction ss generalizing now u with
  | nil => simp [User.addRoles]
  | cons s ss ih =>
    unfold User.addRoles
    constructor
    · rintro ⟨u', h⟩
      split at h
      · simp at h
      · simp at h
      · rename_i u1 h1
        obtain ⟨r, hr, _⟩ := User.addRole_ok h1
        intro x hx
        rcases List.mem_cons.1 hx with rfl | hx
        · exact newRole_iff.1 ⟨r, hr⟩
        · exact (ih u1).1 ⟨u', h⟩ x hx
    · intro h
      obtain ⟨u1, h1⟩ := addRole_of (now := now) u (newRole_iff.2 (h s (by simp)))
      rw [h1]
      exact (ih u1).2 fun x hx => h x (by simp [hx])

/-- When `NewUserWithRoles` succeeds. -/
theorem newWithRoles_iff {nd : Nondet} {un pw em fn : GoString} {rs : List GoString} :
    (∃ u, User.newWithRoles nd un pw em fn rs = .ok u) ↔
      trimSpace pw ≠ [] ∧ (nd.salts 0).isSome = true ∧ (∃ e, newEmailAddress em = .ok e) ∧
      (∀ r ∈ rs, trimSpace r ≠ []) ∧ (trimSpace fn = [] ∨ ∃ n, parseName (trimSpace fn) = .ok n) ∧
      nd.userID.length = 36 ∧ un ≠ [] := by
  constructor
  · rintro ⟨u, h⟩
    obtain ⟨p, e, roles, name, hp, he, hr, hn, h1, h2, _⟩ := User.newWithRoles_ok h
    obtain ⟨a, b⟩ := newPassword_iff.1 ⟨p, hp⟩
    refine ⟨a, b, ⟨e, he⟩, ?_, ?_, h1, h2⟩
    · have aux : ∀ (ss : List GoString) roles, User.parseRoles ss = some roles → ∀ s ∈ ss, trimSpace s ≠ [] := by
        intro ss
        induction ss with
        | nil => simp
        | cons s ss ih =>
          intro roles hh x hx
          unfold User.parseRoles at hh
          split at hh
          · rename_i r rs' hr' hrs'
            rcases List.mem_cons.1 hx with rfl | hx
            · exact newRole_iff.1 ⟨r, hr'⟩
            · exact ih rs' hrs' x hx
          · simp at hh
      exact aux rs roles hr
    · rcases hn with ⟨h, _⟩ | ⟨_, n, h, _⟩
      · exact .inl h
      · exact .inr ⟨n, h⟩
  · rintro ⟨h1, h2, ⟨e, he⟩, hr, hn, h3, h4⟩
    obtain ⟨p, hp⟩ := newPassword_iff (now := nd.now.skip 2).2 ⟨h1, h2⟩
    unfold User.newWithRoles
    have e1 : ∃ t, User.addPassword (nd.now.skip 2) (nd.salts 0) pw 0 (User.new nd.now nd.userID un) =
        .ok (User.revise t { User.new nd.now nd.userID un with passwords := [p] }) := by
      unfold User.addPassword; rw [hp]; exact ⟨_, rfl⟩
    obtain ⟨t, e1⟩ := e1
    rw [e1]
    dsimp only
    have e2 : User.addEmailAddress (nd.now.skip 4) em (User.revise t { User.new nd.now nd.userID un with passwords := [p] }) =
        .ok (User.revise (nd.now.skip 4) { User.revise t { User.new nd.now nd.userID un with passwords := [p] } with
          emailAddress := some e, emailAddresses := [e] }) := by
      unfold User.addEmailAddress; rw [he]; rfl
    rw [e2]
    dsimp only
    generalize hu2 : User.revise (nd.now.skip 4) { User.revise t { User.new nd.now nd.userID un with passwords := [p] } with
          emailAddress := some e, emailAddresses := [e] } = u2
    obtain ⟨u3, e3⟩ := (addRoles_iff (now := nd.now.skip 5) u2).2 hr
    rw [e3]
    dsimp only
    obtain ⟨roles, n, m, _, hu3⟩ := User.addRoles_ok' e3
    have k3 : u3.id = nd.userID ∧ u3.username = un ∧ u3.passwords = [p] ∧ u3.names = [] := by
      subst hu3 hu2; exact ⟨rfl, rfl, rfl, rfl⟩
    have e4 : ∃ u4, User.addFullName (nd.now.skip (5 + rs.length)) fn u3 = .ok u4 ∧ u4.id = nd.userID ∧ u4.username = un ∧ u4.passwords = [p] := by
      unfold User.addFullName
      dsimp only
      by_cases hb : trimSpace fn = []
      · rw [if_pos hb]; exact ⟨u3, rfl, k3.1, k3.2.1, k3.2.2.1⟩
      · rw [if_neg hb]
        obtain ⟨n, hn⟩ := hn.resolve_left hb
        rw [hn]
        refine ⟨_, rfl, ?_⟩
        unfold User.addName
        rw [k3.2.2.2]
        exact ⟨k3.1, k3.2.1, k3.2.2.1⟩
    obtain ⟨u4, e4, k4⟩ := e4
    rw [e4]
    dsimp only
    have e5 : u4.valid = .ok () := by
      unfold User.valid
      rw [k4.1, k4.2.1, k4.2.2]
      simp [h3, h4]
    rw [e5]
    exact ⟨_, rfl⟩

theorem checkEmails_iff {db : Database} {es : List EmailAddress} :
    (∃ l, db.checkEmails es = .ok l) ↔ ∀ e ∈ es, db.refEmailAddress (toLower e.address) = none := by
  induction es with
  | nil => simp [Database.checkEmails]
  | cons e es ih =>
    unfold Database.checkEmails
    cases h : db.refEmailAddress (toLower e.address) with
    | some i => simp [h]
    | none =>
      constructor
      · rintro ⟨l, hl⟩ x hx
        simp only [h] at hl
        split at hl
        · simp at hl
        · rename_i as has
          rcases List.mem_cons.1 hx with rfl | hx
          · exact h
          · exact ih.1 ⟨as, has⟩ x hx
      · intro hall
        obtain ⟨l, hl⟩ := ih.2 fun x hx => hall x (by simp [hx])
        simp [hl, h]

theorem refUsername_none_iff {db : Database} (h : Inv db) {s : GoString} :
    db.refUsername s = none ↔ ∀ v ∈ db.users, toLower v.username ≠ s := by
  constructor
  · intro hn v hv hc
    obtain ⟨i, hi⟩ := List.getElem?_of_mem hv
    have := h.name_ref i v hi
    rw [hc, hn] at this; simp at this
  · intro hall
    cases hr : db.refUsername s with
    | none => rfl
    | some i =>
      obtain ⟨u, hu, hs⟩ := h.name_src s i hr
      exact absurd hs (hall u (List.mem_of_getElem? hu))

theorem refEmail_none_iff {db : Database} (h : Inv db) {s : GoString} :
    db.refEmailAddress s = none ↔ ∀ v ∈ db.users, ∀ e ∈ v.emailAddresses, toLower e.address ≠ s := by
  constructor
  · intro hn v hv e he hc
    obtain ⟨i, hi⟩ := List.getElem?_of_mem hv
    have := h.email_ref i v e hi he
    rw [hc, hn] at this; simp at this
  · intro hall
    cases hr : db.refEmailAddress s with
    | none => rfl
    | some i =>
      obtain ⟨u, hu, e, he, hs⟩ := h.email_src s i hr
      exact absurd hs (hall u (List.mem_of_getElem? hu) e he)

omit [Ext] in
theorem checkPasswordPolicy_iff {p : Policy} {s : GoString} :
    checkPasswordPolicy p s = none ↔ PasswordAllowed p s := by
  unfold checkPasswordPolicy PasswordAllowed
  by_cases h : (s.length : Int) > p.password.maxLength ∨ (s.length : Int) < p.password.minLength
  · rw [if_pos h]
    simp only [reduceCtorEq, false_iff, not_and]
    omega
  · rw [if_neg h]
    simp only [true_iff]
    omega

omit [Ext] in
theorem checkPolicy_iff {p : Policy} {un pw : GoString} :
    checkPolicy p un pw = none ↔ UsernameAllowed p un ∧ PasswordAllowed p pw := by
  rw [← checkPasswordPolicy_iff]
  unfold checkPolicy checkUserPolicy UsernameAllowed
  by_cases h : (un.length : Int) > p.user.maxLength ∨ (un.length : Int) < p.user.minLength
  · rw [if_pos h]
    simp only [reduceCtorEq, false_iff, not_and]
    intro h'; omega
  · rw [if_neg h]
    dsimp only
    constructor
    · intro hh; exact ⟨by omega, hh⟩
    · exact fun hh => hh.2

theorem addressed_iff {db : Database} (h : Inv db) {req : Request} {u : User} :
    (∃ i, db.validateUserIdentity req.user.username req.user.email = .ok (i, u)) ↔ Addressed db req u := by
  constructor
  · rintro ⟨i, hv⟩
    obtain ⟨h1, h2, v, h3, h4, h5⟩ := (validate_iff h).1 hv
    exact ⟨List.mem_of_getElem? h1, h2, v, h3, h4, h5.symm⟩
  · rintro ⟨h1, h2, v, h3, h4, h5⟩
    obtain ⟨i, hi⟩ := List.getElem?_of_mem h1
    exact ⟨i, (validate_iff h).2 ⟨hi, h2, v, h3, h4, h5.symm⟩⟩

theorem verifyPassword_iff {s : GoString} {u : User} :
    u.verifyPassword s = none ↔ ∃ p ∈ u.passwords, p.disabled = false ∧ p.expired = false ∧ p.accepts s = true := by
  unfold User.verifyPassword
  rw [← matchAny_iff]
  by_cases h0 : u.passwords.length = 0
  · have : u.passwords = [] := List.eq_nil_of_length_eq_zero h0
    simp [this, User.matchAny]
  · rw [if_neg h0]
    cases User.matchAny s u.passwords <;> simp

theorem keyLoop_found_iff {nd : Nondet} {db : Database} {s : GoString} (hs : trimSpace s ≠ []) (fuel a f : Nat) (hf11 : f ≤ 11) :
    (∃ hash, db.keyLoop nd s fuel a f = .found hash) ↔
      db.refAPIKey (s.take 24) = none ∧ ∃ n, n < fuel ∧ n + f ≤ 11 ∧ (nd.salts (a + n)).isSome = true := by
  induction fuel generalizing a f with
  | zero => simp [Database.keyLoop]
  | succ k ih =>
    unfold Database.keyLoop
    cases hsalt : nd.salts a with
    | none =>
      have herr : ∃ e, newPassword nd.now none s = .err e := by
        unfold newPassword newPasswordWithOptions bcryptGenerate
        simp [hs]
      obtain ⟨e, he⟩ := herr
      rw [he]
      dsimp only
      by_cases hf : f > 10
      · rw [if_pos hf]
        constructor
        · rintro ⟨_, h⟩; simp at h
        · rintro ⟨_, n, _, h2, h3⟩
          have : n = 0 := by omega
          subst this
          rw [Nat.add_zero, hsalt] at h3; simp at h3
      · rw [if_neg hf, ih _ _ (by omega)]
        constructor
        · rintro ⟨h1, n, h2, h3, h4⟩
          exact ⟨h1, n + 1, by omega, by omega, by rw [show a + (n + 1) = a + 1 + n by omega]; exact h4⟩
        · rintro ⟨h1, n, h2, h3, h4⟩
          cases n with
          | zero => rw [Nat.add_zero, hsalt] at h4; simp at h4
          | succ n => exact ⟨h1, n, by omega, by omega, by rw [show a + 1 + n = a + (n + 1) by omega]; exact h4⟩
    | some t =>
      obtain ⟨p, hp⟩ := newPassword_iff (now := nd.now) (salt := some t) (s := s).2 ⟨hs, rfl⟩
      rw [hp]
      dsimp only
      cases hr : db.refAPIKey (s.take 24) with
      | some i =>
        dsimp only
        rw [ih _ _ hf11, hr]
        simp
      | none =>
        exact ⟨fun _ => ⟨rfl, 0, by omega, by omega, by rw [Nat.add_zero, hsalt]; rfl⟩, fun _ => ⟨_, rfl⟩⟩

theorem changePassword_of {nd : Nondet} {old new : GoString} {keep : Int} {u : User}
    (h1 : u.verifyPassword old = none) (h2 : ∃ p, newPassword nd.now (nd.salts 0) new = .ok p) :
    ∃ u', u.changePassword nd old new keep = .ok u' := by
  obtain ⟨p, hp⟩ := h2
  unfold User.changePassword User.addPassword
  rw [h1, hp]
  exact ⟨_, rfl⟩

theorem deletePublicKey_of {now : Clock} {k : ReqKey} {u : User} (h : ∃ x ∈ u.publicKeys, x.id = k.id) :
    ∃ u', u.deletePublicKey now k = .ok u' := by
  obtain ⟨x, hx, he⟩ := h
  have : u.publicKeys.any (fun x => x.id == k.id) = true := List.any_eq_true.2 ⟨x, hx, by simp [he]⟩
  unfold User.deletePublicKey
  rw [if_pos this]
  exact ⟨_, rfl⟩

theorem deleteMfaToken_of {now : Clock} {id : GoString} {u : User} (h : ∃ x ∈ u.mfaTokens, x.id = id) :
    ∃ u', u.deleteMfaToken now id = .ok u' := by
  obtain ⟨x, hx, he⟩ := h
  have : u.mfaTokens.any (fun x => x.id == id) = true := List.any_eq_true.2 ⟨x, hx, by simp [he]⟩
  unfold User.deleteMfaToken
  rw [if_pos this]
  exact ⟨_, rfl⟩

theorem deleteAPIKey_of {now : Clock} {k : ReqKey} {u : User} (h : ∃ x ∈ u.apiKeys, x.id = k.id) :
    ∃ u' key, u.deleteAPIKey now k = .ok (u', key) := by
  obtain ⟨x, hx, he⟩ := h
  have : u.apiKeys.any (fun x => x.id == k.id) = true := List.any_eq_true.2 ⟨x, hx, by simp [he]⟩
  unfold User.deleteAPIKey
  rw [User.deleteAPIKeyLoop_eq]
  simp [this]

theorem addAPIKey_iff {now : Clock} {id : GoString} {k : ReqKey} {u : User} (hp : k.payload ≠ []) :
    (∃ u', u.addAPIKey now id k = .ok u') ↔ k.usage = gs! "api" ∧ k.comment ≠ [] := by
  unfold User.addAPIKey newAPIKey
  rw [if_neg hp]
  by_cases h1 : k.usage = []
  · rw [if_pos h1, h1]; simp
  · rw [if_neg h1]
    by_cases h2 : k.usage = gs! "api"
    · by_cases h3 : k.comment = [] <;> simp [h2, h3]
    · simp [h2]

theorem addPublicKey_iff {nd : Nondet} {k : ReqKey} {u : User} :
    (∃ u', u.addPublicKey nd k = .ok u') ↔
      ∃ key, newPublicKey nd.now (getRandomString nd.seedRand 0 40) k = .ok key ∧
        ∀ x ∈ u.publicKeys, x.type ≠ key.type ∨ x.fingerprint ≠ key.fingerprint := by
  have hany : ∀ key : PublicKey, u.publicKeys.any (fun x => x.type == key.type && x.fingerprint == key.fingerprint) = true ↔
      ¬ ∀ x ∈ u.publicKeys, x.type ≠ key.type ∨ x.fingerprint ≠ key.fingerprint := by
    intro key
    rw [List.any_eq_true]
    constructor
    · rintro ⟨x, hx, he⟩ hall
      simp at he
      rcases hall x hx with h | h
      · exact h he.1
      · exact h he.2
    · intro h
      apply Classical.byContradiction
      intro hc
      apply h
      intro x hx
      apply Classical.byContradiction
      intro h'
      apply hc
      rw [not_or, Classical.not_not, Classical.not_not] at h'
      exact ⟨x, hx, by simp [h'.1, h'.2]⟩
  unfold User.addPublicKey
  cases hk : newPublicKey nd.now (getRandomString nd.seedRand 0 40) k with
  | err e => simp
  | panic => simp
  | ok key =>
    dsimp only
    constructor
    · rintro ⟨u', h⟩
      split at h
      · simp at h
      · rename_i hn
        exact ⟨key, rfl, Classical.not_not.1 fun hc => hn ((hany key).2 hc)⟩
    · rintro ⟨key', h, hall⟩
      rw [Res.ok.injEq] at h
      subst h
      rw [if_neg (fun hc => (hany key).1 hc hall)]
      exact ⟨_, rfl⟩

theorem addMfaToken_iff {nd : Nondet} {req : Request} {u : User} :
    (∃ u' req', u.addMfaToken nd req = (.ok u', req')) ↔
      ∃ t, (newMfaToken nd req).1 = .ok t ∧ ∀ k ∈ u.mfaTokens, k.secret ≠ t.secret ∧ k.comment ≠ t.comment := by
  constructor
  · rintro ⟨u', req', h⟩
    obtain ⟨t, ht, hd, _⟩ := User.addMfaToken_ok h
    exact ⟨t, by rw [ht], hd⟩
  · rintro ⟨t, ht, hd⟩
    have hp : newMfaToken nd req = (.ok t, (newMfaToken nd req).2) := by rw [← ht]
    unfold User.addMfaToken
    rw [hp]
    dsimp only
    rw [User.checkMfaDup_none.2 hd]
    exact ⟨_, _, rfl⟩

end GoIdentity
