import Verif.Lemmas.Frame
/-!
# What each call does to one user

Used to prove invariants of single users over histories.
-/
set_option linter.unusedSectionVars false
namespace GoIdentity
variable [Ext]

/-- How a call changes the user it addresses. -/
inductive UserOp (nd : Nondet) (req : Request) (db : Database) (u : User) : Call → User → Prop
  | addPublicKey (key : PublicKey) (hk : newPublicKey nd.now (getRandomString nd.seedRand 0 40) req.key = .ok key)
      (hnew : ∀ x ∈ u.publicKeys, ¬ (x.type = key.type ∧ x.fingerprint = key.fingerprint)) :
      UserOp nd req db u .addPublicKey (User.revise (nd.now.skip 2) { u with publicKeys := u.publicKeys ++ [key] })
  | deletePublicKey (hex : ∃ x ∈ u.publicKeys, x.id = req.key.id) :
      UserOp nd req db u .deletePublicKey
        (User.revise nd.now { u with publicKeys := u.publicKeys.filter fun x => !(x.id == req.key.id) })
  | addAPIKey (s : GoString) (n : Nat) (hk : Password) (key : APIKey)
      (hs : getRandomStringFromRange nd.globalRand nd.seedRand 72 96 = .ok s)
      (hnone : db.refAPIKey (s.take 24) = none)
      (hhash : newPassword nd.now (nd.salts n) s = .ok hk)
      (hkey : newAPIKey nd.now (getRandomString nd.seedRand s.length 40)
        { req.key with payload := hk.hash, pfx := s.take 24 } = .ok key) :
      UserOp nd req db u .addAPIKey (User.revise (nd.now.skip 2) { u with apiKeys := u.apiKeys ++ [key] })
  | deleteAPIKey (hex : ∃ x ∈ u.apiKeys, x.id = req.key.id) :
      UserOp nd req db u .deleteAPIKey
        (User.revise nd.now { u with apiKeys := u.apiKeys.filter fun x => !(x.id == req.key.id) })
  | changeUserPassword (p : Password) (hpol : checkPasswordPolicy db.policy req.user.password = none)
      (hold : u.verifyPassword req.user.oldPassword = none)
      (hp : newPassword nd.now (nd.salts 0) req.user.password = .ok p) :
      UserOp nd req db u .changeUserPassword
        (User.revise (nd.now.skip (1 + 2 * u.passwords.length))
          { u with
            passwords := p :: User.keepLoop (nd.now.skip 1)
              (if db.policy.password.keepVersions < 1 then 9 else db.policy.password.keepVersions) 0 u.passwords })
  | addMfaToken (t : MfaToken) (req' : Request) (ht : newMfaToken nd req = (.ok t, req'))
      (hnew : ∀ k ∈ u.mfaTokens, k.secret ≠ t.secret ∧ k.comment ≠ t.comment) :
      UserOp nd req db u .addMfaToken (User.revise (nd.now.skip 2) { u with mfaTokens := u.mfaTokens ++ [t] })
  | deleteMfaToken (hex : ∃ x ∈ u.mfaTokens, x.id = req.mfaToken.id) :
      UserOp nd req db u .deleteMfaToken
        (User.revise nd.now { u with mfaTokens := u.mfaTokens.filter fun x => !(x.id == req.mfaToken.id) })

/-- The user `AddUser` stores. -/
def newUserOf (nd : Nondet) (req : Request) (db : Database) (p : Password) (e : EmailAddress) (roles : List Role)
    (name : Option Name) : User :=
  { User.zero with
    id := db.pickID nd.ids nd.userID, username := req.user.username, created := nd.now 0
    lastModified := nd.now (User.lastReading [] 4 5 roles)
    revision := 0
    passwords := [p], emailAddress := some e, emailAddresses := [e], roles := User.dedupRoles [] roles
    name := name, names := name.toList }

/-- The three ways in which a call affects the list of users, in full. -/
inductive UsersChange' (nd : Nondet) (req : Request) (db : Database) : Call → List User → Prop
  | save : UsersChange' nd req db .save db.users
  | copy (fp : GoString) : UsersChange' nd req db (.copy fp) db.users
  | appended (p : Password) (e : EmailAddress) (roles : List Role) (name : Option Name)
      (hpol : checkPolicy db.policy req.user.username req.user.password = none)
      (hp : newPassword (nd.now.skip 2) (nd.salts 0) req.user.password = .ok p)
      (he : newEmailAddress req.user.email = .ok e) (hun : req.user.username ≠ [])
      (hid : nd.userID.length = 36)
      (hfree : db.refUsername (toLower req.user.username) = none)
      (hefree : db.refEmailAddress (toLower e.address) = none) :
      UsersChange' nd req db .addUser (db.users ++ [newUserOf nd req db p e roles name])
  | modified (c : Call) (i : Nat) (u u' : User)
      (hv : db.validateUserIdentity req.user.username req.user.email = .ok (i, u))
      (hop : UserOp nd req db u c u') : UsersChange' nd req db c (db.users.set i u')

theorem Mutation.users' {nd : Nondet} {req : Request} {db db' : Database} {c : Call}
    (m : Mutation nd req db c db') : UsersChange' nd req db c db'.users := by
  cases m with
  | save => exact .save
  | copy fp => exact .copy fp
  | addUser user emails hpol hnew hname hemails =>
    obtain ⟨p, e, roles, name, h1, h2, h3, h4, h5, h6, rfl⟩ := User.newWithRoles_ok hnew
    exact .appended p e roles name hpol h1 h2 h6 h5 hname ((checkEmails_ok hemails).2 e (by simp))
  | addPublicKey i u u' hv h1 =>
    obtain ⟨key, h2, h3, rfl⟩ := User.addPublicKey_ok h1
    exact .modified _ i u _ hv (.addPublicKey key h2 h3)
  | deletePublicKey i u u' hv h1 =>
    obtain ⟨h2, rfl⟩ := User.deletePublicKey_ok h1
    exact .modified _ i u _ hv (.deletePublicKey h2)
  | changeUserPassword i u u' hv hpol h1 =>
    obtain ⟨h2, h3⟩ := User.changePassword_ok h1
    obtain ⟨p, h4, rfl⟩ := User.addPassword_ok h3
    exact .modified _ i u _ hv (.changeUserPassword p hpol h2 h4)
  | addMfaToken i u u' req' hv h1 =>
    obtain ⟨t, h2, h3, rfl⟩ := User.addMfaToken_ok h1
    exact .modified _ i u _ hv (.addMfaToken t req' h2 h3)
  | deleteMfaToken i u u' hv h1 =>
    obtain ⟨h2, rfl⟩ := User.deleteMfaToken_ok h1
    exact .modified _ i u _ hv (.deleteMfaToken h2)
  | addAPIKey i u u' s hash hv hs hl h1 =>
    obtain ⟨key, hk, rfl⟩ := User.addAPIKey_ok h1
    obtain ⟨hn, n, p, hp, rfl⟩ := keyLoop_found hl
    exact .modified _ i u _ hv (.addAPIKey s n p key hs hn hp hk)
  | deleteAPIKey i u u' key hv h1 =>
    obtain ⟨⟨x, hx, rfl⟩, rfl⟩ := User.deleteAPIKey_ok h1
    have := List.mem_filter.1 (List.mem_of_getLast? hx)
    exact .modified _ i u _ hv (.deleteAPIKey ⟨x, this.1, by simpa using this.2⟩)

theorem exec_users' (c : Call) (nd : Nondet) (db : Database) (fs : FS) (req : Request) :
    (exec c nd db fs req).db.users = db.users ∨ UsersChange' nd req db c (exec c nd db fs req).db.users := by
  rcases exec_spec c nd db fs req with h | ⟨db', m, h⟩
  · left; rw [h.db_eq]
  · right; rw [h.db_eq]; exact m.users'

/-- The user at an index after a call. -/
theorem exec_user_op {c : Call} {nd : Nondet} {db : Database} {fs : FS} {req : Request} {j : Nat} {v : User}
    (hj : db.users[j]? = some v) :
    (exec c nd db fs req).db.users[j]? = some v ∨
      ∃ v', (exec c nd db fs req).db.users[j]? = some v' ∧ UserOp nd req db v c v' ∧
        db.validateUserIdentity req.user.username req.user.email = .ok (j, v) := by
  have hlt : j < db.users.length := (List.getElem?_eq_some_iff.1 hj).1
  rcases exec_users' c nd db fs req with h | h
  · left; rw [h]; exact hj
  · revert h
    generalize (exec c nd db fs req).db.users = us
    intro h
    cases h with
    | save => exact .inl hj
    | copy => exact .inl hj
    | appended => left; rw [List.getElem?_append_left hlt]; exact hj
    | modified _ i u u' hv hop =>
      by_cases hij : i = j
      · subst hij
        have : u = v := by
          have := validate_users hv
          rw [hj] at this
          exact (Option.some.inj this).symm
        subst this
        right
        exact ⟨u', by simp [hlt], hop, hv⟩
      · left
        rw [List.getElem?_set_ne hij]
        exact hj

/-- Invariants of single users. -/
theorem exec_forall_users {P : User → Prop} {c : Call} {nd : Nondet} {db : Database} {fs : FS} {req : Request}
    (h : ∀ u ∈ db.users, P u)
    (hnew : ∀ p e roles name, newPassword (nd.now.skip 2) (nd.salts 0) req.user.password = .ok p →
      newEmailAddress req.user.email = .ok e → P (newUserOf nd req db p e roles name))
    (hop : ∀ u u', u ∈ db.users → P u → UserOp nd req db u c u' → P u') :
    ∀ u ∈ (exec c nd db fs req).db.users, P u := by
  rcases exec_users' c nd db fs req with h1 | h1
  · rw [h1]; exact h
  · revert h1
    generalize (exec c nd db fs req).db.users = us
    intro h1
    cases h1 with
    | save => exact h
    | copy => exact h
    | appended p e roles name hpol hp he =>
      intro u hu
      rcases List.mem_append.1 hu with hu | hu
      · exact h u hu
      · simp at hu; subst hu; exact hnew p e roles name hp he
    | modified _ i u u' hv hop' =>
      intro v hv'
      have hmem := List.mem_of_getElem? (validate_users hv)
      rcases List.mem_or_eq_of_mem_set hv' with h2 | h2
      · exact h v h2
      · subst h2; exact hop u v hmem (h u hmem) hop'

theorem reach_forall_users {P : User → Prop} {start : Database → Prop} (hstart : ∀ db, start db → ∀ u ∈ db.users, P u)
    (hnew : ∀ nd req db p e roles name, newPassword (nd.now.skip 2) (nd.salts 0) req.user.password = .ok p →
      newEmailAddress req.user.email = .ok e → P (newUserOf nd req db p e roles name))
    (hop : ∀ nd req db c u u', u ∈ db.users → P u → UserOp nd req db u c u' → P u') {db : Database}
    (h : Reach start db) : ∀ u ∈ db.users, P u := by
  induction h with
  | init h => exact hstart _ h
  | step h c nd fs req ih => exact exec_forall_users ih (hnew nd req _) (fun u u' => hop nd req _ c u u')

/-- A created database is empty. -/
theorem created_users {db : Database} (h : Created db) : db.users = [] := by
  obtain ⟨nd, fs, fp, fs', hnone, h⟩ := h
  have key : ∀ (d : Database) (fs'' : FS), Database.openFile nd fs fp = (.ok d, fs'') → d.users = [] := by
    intro d fs'' hd
    unfold Database.openFile at hd
    split at hd
    · simp at hd
    · rw [hnone] at hd
      simp only at hd
      split at hd
      · simp at hd
      · split at hd
        · simp at hd
        · rename_i heq
          simp only [Prod.mk.injEq, Res.ok.injEq] at hd
          obtain ⟨rfl, rfl⟩ := hd
          unfold Database.commit at heq
          dsimp only at heq
          split at heq <;> simp at heq
          obtain ⟨rfl, _⟩ := heq
          rfl
  unfold newDatabase at h
  split at h
  · simp at h
  · simp at h
  · rename_i d fs'' hd
    have h0 := key d fs'' hd
    simp only [h0, Database.loadUsers, Prod.mk.injEq, Res.ok.injEq] at h
    rw [← h.1]

/-- A call that is not the given kind leaves that part of a user alone. -/
theorem UserOp.parts {nd : Nondet} {req : Request} {db : Database} {u u' : User} {c : Call}
    (h : UserOp nd req db u c u') :
    (c ≠ .changeUserPassword → u'.passwords = u.passwords) ∧
    (c ≠ .addPublicKey → c ≠ .deletePublicKey → u'.publicKeys = u.publicKeys) ∧
    (c ≠ .addAPIKey → c ≠ .deleteAPIKey → u'.apiKeys = u.apiKeys) ∧
    (c ≠ .addMfaToken → c ≠ .deleteMfaToken → u'.mfaTokens = u.mfaTokens) := by
  cases h <;> refine ⟨?_, ?_, ?_, ?_⟩ <;> simp [User.revise]

theorem UserOp.same {nd : Nondet} {req : Request} {db : Database} {u u' : User} {c : Call}
    (h : UserOp nd req db u c u') : SameIdentity u u' := by
  cases h <;> constructor <;> rfl

/-- A run splits at its first call. -/
theorem run_cons (db : Database) (fs : FS) (o : Op) (ops : List Op) :
    run db fs (o :: ops) = ((exec o.call o.nd db fs o.req).db, (exec o.call o.nd db fs o.req).fs) ∨
    run db fs (o :: ops) = run (exec o.call o.nd db fs o.req).db (exec o.call o.nd db fs o.req).fs ops := by
  unfold run
  dsimp only
  split
  · exact .inl rfl
  · exact .inr (by cases ops <;> rfl)

/-- Relations between a user and its later versions, over a run. -/
theorem run_user {R : User → User → Prop} (hrefl : ∀ u, R u u) (htrans : ∀ u v w, R u v → R v w → R u w)
    {Q : Op → Prop} {db : Database} {fs : FS} {ops : List Op} {j : Nat} {v : User} (h : Reach Opened db)
    (hops : ∀ o ∈ ops, Q o)
    (hstep : ∀ (o : Op) (db : Database) (w w' : User), Q o → Reach Opened db → db.users[j]? = some w →
      SameIdentity v w → NamesUser o.req.user.username w → UserOp o.nd o.req db w o.call w' → R w w')
    (hj : db.users[j]? = some v) :
    ∃ v', (run db fs ops).1.users[j]? = some v' ∧ R v v' ∧ SameIdentity v v' := by
  suffices H : ∀ (w : User), SameIdentity v w → db.users[j]? = some w →
      ∃ v', (run db fs ops).1.users[j]? = some v' ∧ R w v' ∧ SameIdentity v v' from H v (.refl v) hj
  clear hj
  induction ops generalizing db fs with
  | nil => exact fun w hw hj => ⟨w, hj, hrefl w, hw⟩
  | cons o ops ih =>
    intro w hw hj
    have hone : ∃ w', (exec o.call o.nd db fs o.req).db.users[j]? = some w' ∧ R w w' ∧ SameIdentity v w' := by
      rcases exec_user_op (c := o.call) (nd := o.nd) (fs := fs) (req := o.req) hj with h1 | ⟨w', h1, h2, h3⟩
      · exact ⟨w, h1, hrefl w, hw⟩
      · exact ⟨w', h1, hstep o db w w' (hops o (by simp)) h hj hw ((validate_iff (reach_inv h)).1 h3).2.1 h2,
          hw.trans h2.same⟩
    obtain ⟨w', h1, h2, h3⟩ := hone
    rcases run_cons db fs o ops with hr | hr
    · rw [hr]; exact ⟨w', h1, h2, h3⟩
    · rw [hr]
      obtain ⟨v', h4, h5, h6⟩ := ih (fs := (exec o.call o.nd db fs o.req).fs) (.step h ..)
        (fun o ho => hops o (by simp [ho])) w' h3 h1
      exact ⟨v', h4, htrans _ _ _ h2 h5, h6⟩

end GoIdentity
