import Verif.Lemmas.UserSteps
import Verif.Lemmas.Reopen
import Verif.Spec.Isolation
/-!
# What a call's answer depends on
-/
set_option linter.unusedSectionVars false
namespace GoIdentity
variable [Ext]

theorem byUsername_agree {db db' : Database} (h : Inv db) (h' : Inv db') {s : GoString}
    (ha : ∀ u : User, NamesUser s u → (u ∈ db.users ↔ u ∈ db'.users)) :
    (db.getUserByUsername s).map Prod.snd = (db'.getUserByUsername s).map Prod.snd := by
  have key : ∀ {a b : Database}, Inv a → Inv b → (∀ u : User, NamesUser s u → (u ∈ a.users → u ∈ b.users)) →
      ∀ u, (a.getUserByUsername s).map Prod.snd = some u → (b.getUserByUsername s).map Prod.snd = some u := by
    intro a b hA hB hab u hu
    obtain ⟨⟨i, v⟩, hg, rfl⟩ := Option.map_eq_some_iff.1 hu
    obtain ⟨h1, h2⟩ := (getUserByUsername_iff hA).1 hg
    obtain ⟨j, hj⟩ := List.getElem?_of_mem (hab v h2 (List.mem_of_getElem? h1))
    rw [(getUserByUsername_iff hB).2 ⟨hj, h2⟩]
    rfl
  apply Option.ext
  intro u
  exact ⟨key h h' (fun u hu => (ha u hu).1) u, key h' h (fun u hu => (ha u hu).2) u⟩

theorem byEmail_agree {db db' : Database} (h : Inv db) (h' : Inv db') {s : GoString}
    (ha : ∀ u : User, MailsUser s u → (u ∈ db.users ↔ u ∈ db'.users)) :
    (db.getUserByEmailAddress s).map Prod.snd = (db'.getUserByEmailAddress s).map Prod.snd := by
  have key : ∀ {a b : Database}, Inv a → Inv b → (∀ u : User, MailsUser s u → (u ∈ a.users → u ∈ b.users)) →
      ∀ u, (a.getUserByEmailAddress s).map Prod.snd = some u → (b.getUserByEmailAddress s).map Prod.snd = some u := by
    intro a b hA hB hab u hu
    obtain ⟨⟨i, v⟩, hg, rfl⟩ := Option.map_eq_some_iff.1 hu
    obtain ⟨h1, h2⟩ := (getUserByEmailAddress_iff hA).1 hg
    obtain ⟨j, hj⟩ := List.getElem?_of_mem (hab v h2 (List.mem_of_getElem? h1))
    rw [(getUserByEmailAddress_iff hB).2 ⟨hj, h2⟩]
    rfl
  apply Option.ext
  intro u
  exact ⟨key h h' (fun u hu => (ha u hu).1) u, key h' h (fun u hu => (ha u hu).2) u⟩

theorem getUser_agree {db db' : Database} (h : Inv db) (h' : Inv db') {s : GoString}
    (ha : ∀ u : User, Denotes s u → (u ∈ db.users ↔ u ∈ db'.users)) :
    (db.getUser s).map Prod.snd = (db'.getUser s).map Prod.snd := by
  have key : ∀ {a b : Database}, Inv a → Inv b → (∀ u : User, Denotes s u → (u ∈ a.users → u ∈ b.users)) →
      ∀ u, (a.getUser s).map Prod.snd = some u → (b.getUser s).map Prod.snd = some u := by
    intro a b hA hB hab u hu
    obtain ⟨⟨i, v⟩, hg, rfl⟩ := Option.map_eq_some_iff.1 hu
    obtain ⟨h1, h2⟩ := (getUser_iff hA).1 hg
    obtain ⟨j, hj⟩ := List.getElem?_of_mem (hab v h2 (List.mem_of_getElem? h1))
    rw [(getUser_iff hB).2 ⟨hj, h2⟩]
    rfl
  apply Option.ext
  intro u
  exact ⟨key h h' (fun u hu => (ha u hu).1) u, key h' h (fun u hu => (ha u hu).2) u⟩

theorem validate_agree {db db' : Database} (h : Inv db) (h' : Inv db') {un em : GoString} (ha : AgreeOn un em db db') :
    (∃ e, db.validateUserIdentity un em = .error e ∧ db'.validateUserIdentity un em = .error e) ∨
      ∃ (i i' : Nat) (u : User), db.validateUserIdentity un em = .ok (i, u) ∧
        db'.validateUserIdentity un em = .ok (i', u) := by
  have h1 := byUsername_agree h h' (s := un) fun u hu => ha u (.inl hu)
  have h2 := byEmail_agree h h' (s := em) fun u hu => ha u (.inr hu)
  unfold Database.validateUserIdentity
  cases g1 : db.getUserByUsername un with
  | none =>
    cases g1' : db'.getUserByUsername un with
    | none => exact .inl ⟨_, rfl, rfl⟩
    | some x => simp [g1, g1'] at h1
  | some x =>
    cases g1' : db'.getUserByUsername un with
    | none => simp [g1, g1'] at h1
    | some x' =>
      obtain ⟨i, u⟩ := x
      obtain ⟨i', u'⟩ := x'
      have : u = u' := by simpa [g1, g1'] using h1
      subst this
      cases g2 : db.getUserByEmailAddress em with
      | none =>
        cases g2' : db'.getUserByEmailAddress em with
        | none => exact .inl ⟨_, rfl, rfl⟩
        | some x => simp [g2, g2'] at h2
      | some y =>
        cases g2' : db'.getUserByEmailAddress em with
        | none => simp [g2, g2'] at h2
        | some y' =>
          obtain ⟨j, v⟩ := y
          obtain ⟨j', v'⟩ := y'
          have : v = v' := by simpa [g2, g2'] using h2
          subst this
          dsimp only
          by_cases hid : u.id = v.id
          · simp only [hid, ne_eq, not_true_eq_false, if_false]
            exact .inr ⟨i, i', u, rfl, rfl⟩
          · simp only [hid, ne_eq, not_false_eq_true, if_true]
            exact .inl ⟨_, rfl, rfl⟩

theorem writeFile_agree {fs fs' : FS} {p d d' : GoString} {io : WriteOutcome} (h : SameDir fs fs' p) :
    (writeFile fs p d io).2 = (writeFile fs' p d' io).2 := by
  unfold writeFile
  unfold SameDir at h
  by_cases hc : p = [] ∨ fs p = some .dir
  · rw [if_pos hc, if_pos (hc.imp id h.1)]
  · rw [if_neg hc, if_neg (fun hh => hc (hh.imp id h.2))]
    cases io <;> rfl

theorem finish_agree {db db' : Database} {fs fs' : FS} (hp : db.path = db'.path) (hd : SameDir fs fs' db.path)
    (nd : Nondet) (req : Request) (wrap : GoErr → GoErr) :
    (db.finish nd fs req wrap).out = (db'.finish nd fs' req wrap).out ∧
    (db.finish nd fs req wrap).req = (db'.finish nd fs' req wrap).req ∧
    (db.finish nd fs req wrap).db = db.touch nd.commitTime ∧ (db'.finish nd fs' req wrap).db = db'.touch nd.commitTime := by
  have h : ∀ (d : Database) (fs : FS), d.finish nd fs req wrap =
      ⟨d.touch nd.commitTime, (writeFile fs d.path (marshalDB (d.touch nd.commitTime).toDBData) nd.io).1, req,
        match (writeFile fs d.path (marshalDB (d.touch nd.commitTime).toDBData) nd.io).2 with
        | none => .success
        | some e => .fail (wrap (.withE .databaseCommit [d.path] e))⟩ := by
    intro d fs
    have hc : d.commit nd fs =
      match writeFile fs d.path (marshalDB (d.touch nd.commitTime).toDBData) nd.io with
      | (fs, none) => (d.touch nd.commitTime, fs, none)
      | (fs, some e) => (d.touch nd.commitTime, fs, some (.withE .databaseCommit [d.path] e)) := rfl
    unfold Database.finish
    rw [hc]
    rcases writeFile fs d.path (marshalDB (d.touch nd.commitTime).toDBData) nd.io with ⟨fs', _ | e⟩ <;> rfl
  rw [h, h]
  refine ⟨?_, rfl, rfl, rfl⟩
  dsimp only
  have := writeFile_agree (d := marshalDB (db.touch nd.commitTime).toDBData) (d' := marshalDB (db'.touch nd.commitTime).toDBData)
    (io := nd.io) hd
  rw [this, hp]

/-- How two runs of one call on two databases compare. -/
structure Alike (nd : Nondet) (req : Request) (db db' : Database) (r r' : Result) : Prop where
  out : r.out = r'.out
  req_eq : r.req = r'.req
  change : (r.db = db ∧ r'.db = db') ∨ ∃ (i i' : Nat) (u u' : User),
    db.validateUserIdentity req.user.username req.user.email = .ok (i, u) ∧
    db'.validateUserIdentity req.user.username req.user.email = .ok (i', u) ∧
    r.db.users = db.users.set i u' ∧ r'.db.users = db'.users.set i' u' ∧
    r.db.revision = (db.revision + 1) % 2 ^ 64 ∧ r'.db.revision = (db'.revision + 1) % 2 ^ 64 ∧
    r.db.lastModified = nd.commitTime ∧ r'.db.lastModified = nd.commitTime

theorem keyLoop_agree {nd : Nondet} {db db' : Database} {s : GoString}
    (h : (db.refAPIKey (s.take 24)).isSome = (db'.refAPIKey (s.take 24)).isSome) (fuel a f : Nat) :
    db.keyLoop nd s fuel a f = db'.keyLoop nd s fuel a f := by
  induction fuel generalizing a f with
  | zero => rfl
  | succ n ih =>
    unfold Database.keyLoop
    cases newPassword nd.now (nd.salts a) s with
    | err e => dsimp only; rw [ih]
    | panic => rfl
    | ok hk =>
      dsimp only
      cases h1 : db.refAPIKey (s.take 24) <;> cases h2 : db'.refAPIKey (s.take 24) <;> simp [h1, h2] at h ⊢
      exact ih _ _

theorem exec_alike {db db' : Database} (h : Inv db) (h' : Inv db') (hpol : db.policy = db'.policy)
    (hpath : db.path = db'.path) {fs fs' : FS} (hd : SameDir fs fs' db.path) {c : Call} (hc : c ∈ ownCalls) {nd : Nondet}
    {req : Request} (ha : AgreeOn req.user.username req.user.email db db')
    (hp : c = .addAPIKey → ∀ s, getRandomStringFromRange nd.globalRand nd.seedRand 72 96 = .ok s →
      (db.refAPIKey (s.take 24)).isSome = (db'.refAPIKey (s.take 24)).isSome) :
    Alike nd req db db' (exec c nd db fs req) (exec c nd db' fs' req) := by
  simp only [ownCalls, List.mem_cons, List.not_mem_nil, or_false] at hc
  rcases validate_agree h h' ha with ⟨e, hv, hv'⟩ | ⟨i, i', u, hv, hv'⟩
  · rcases hc with rfl | rfl | rfl | rfl | rfl | rfl | rfl | rfl | rfl | rfl | rfl <;>
    simp only [exec, Database.addPublicKey, Database.getPublicKeys, Database.deletePublicKey, Database.addAPIKey,
      Database.getAPIKeys, Database.deleteAPIKey, Database.changeUserPassword, Database.addMfaToken,
      Database.getMfaTokens, Database.deleteMfaToken, Database.deleteUser, hv, hv'] <;>
    exact ⟨rfl, rfl, .inl ⟨rfl, rfl⟩⟩
  · have fin : ∀ (d d' : Database) (req' : Request) (wrap : GoErr → GoErr) (u' : User), d.path = db.path → d'.path = db'.path →
        d.users = db.users.set i u' → d'.users = db'.users.set i' u' → d.revision = db.revision →
        d'.revision = db'.revision →
        Alike nd req db db' (d.finish nd fs req' wrap) (d'.finish nd fs' req' wrap) := by
      intro d d' req' wrap u' p1 p2 u1 u2 r1 r2
      obtain ⟨a1, a2, a3, a4⟩ := finish_agree (db := d) (db' := d') (fs := fs) (fs' := fs') (by rw [p1, p2, hpath])
        (by rw [p1]; exact hd) nd req' wrap
      refine ⟨a1, a2, .inr ⟨i, i', u, u', hv, hv', ?_, ?_, ?_, ?_, ?_, ?_⟩⟩ <;>
        simp only [a3, a4, Database.touch, u1, u2, r1, r2]
    rcases hc with rfl | rfl | rfl | rfl | rfl | rfl | rfl | rfl | rfl | rfl | rfl
    · simp only [exec, Database.addPublicKey, hv, hv']
      cases u.addPublicKey nd req.key with
      | err e => exact ⟨rfl, rfl, .inl ⟨rfl, rfl⟩⟩
      | panic => exact ⟨rfl, rfl, .inl ⟨rfl, rfl⟩⟩
      | ok u' => exact fin _ _ _ _ u' rfl rfl rfl rfl rfl rfl
    · simp only [exec, Database.getPublicKeys, hv, hv']
      exact ⟨rfl, rfl, .inl ⟨rfl, rfl⟩⟩
    · simp only [exec, Database.deletePublicKey, hv, hv']
      cases u.deletePublicKey nd.now req.key with
      | err e => exact ⟨rfl, rfl, .inl ⟨rfl, rfl⟩⟩
      | panic => exact ⟨rfl, rfl, .inl ⟨rfl, rfl⟩⟩
      | ok u' => exact fin _ _ _ _ u' rfl rfl rfl rfl rfl rfl
    · simp only [exec, Database.addAPIKey, hv, hv']
      have hp := hp rfl
      cases hs : getRandomStringFromRange nd.globalRand nd.seedRand 72 96 with
      | err e => exact ⟨rfl, rfl, .inl ⟨rfl, rfl⟩⟩
      | panic => exact ⟨rfl, rfl, .inl ⟨rfl, rfl⟩⟩
      | ok s =>
        dsimp only
        rw [keyLoop_agree (hp s hs)]
        cases db'.keyLoop nd s nd.fuel 0 0 with
        | hang => exact ⟨rfl, rfl, .inl ⟨rfl, rfl⟩⟩
        | fail e => exact ⟨rfl, rfl, .inl ⟨rfl, rfl⟩⟩
        | found hash =>
          dsimp only
          cases u.addAPIKey nd.now (getRandomString nd.seedRand s.length 40)
              { req.key with payload := hash, pfx := s.take 24 } with
          | err e => exact ⟨rfl, rfl, .inl ⟨rfl, rfl⟩⟩
          | panic => exact ⟨rfl, rfl, .inl ⟨rfl, rfl⟩⟩
          | ok u' => exact fin _ _ _ _ u' rfl rfl rfl rfl rfl rfl
    · simp only [exec, Database.getAPIKeys, hv, hv']
      exact ⟨rfl, rfl, .inl ⟨rfl, rfl⟩⟩
    · simp only [exec, Database.deleteAPIKey, hv, hv']
      cases u.deleteAPIKey nd.now req.key with
      | err e => exact ⟨rfl, rfl, .inl ⟨rfl, rfl⟩⟩
      | panic => exact ⟨rfl, rfl, .inl ⟨rfl, rfl⟩⟩
      | ok x => obtain ⟨u', k⟩ := x; exact fin _ _ _ _ u' rfl rfl rfl rfl rfl rfl
    · simp only [exec, Database.changeUserPassword, hv, hv', hpol]
      cases checkPasswordPolicy db'.policy req.user.password with
      | some e => exact ⟨rfl, rfl, .inl ⟨rfl, rfl⟩⟩
      | none =>
        dsimp only
        cases u.changePassword nd req.user.oldPassword req.user.password db'.policy.password.keepVersions with
        | err e => exact ⟨rfl, rfl, .inl ⟨rfl, rfl⟩⟩
        | panic => exact ⟨rfl, rfl, .inl ⟨rfl, rfl⟩⟩
        | ok u' => exact fin _ _ _ _ u' rfl rfl rfl rfl rfl rfl
    · simp only [exec, Database.addMfaToken, hv, hv']
      rcases u.addMfaToken nd req with ⟨_ | _ | _, req'⟩
      · exact fin _ _ _ _ _ rfl rfl rfl rfl rfl rfl
      · exact ⟨rfl, rfl, .inl ⟨rfl, rfl⟩⟩
      · exact ⟨rfl, rfl, .inl ⟨rfl, rfl⟩⟩
    · simp only [exec, Database.getMfaTokens, hv, hv']
      exact ⟨rfl, rfl, .inl ⟨rfl, rfl⟩⟩
    · simp only [exec, Database.deleteMfaToken, hv, hv']
      cases u.deleteMfaToken nd.now req.mfaToken.id with
      | err e => exact ⟨rfl, rfl, .inl ⟨rfl, rfl⟩⟩
      | panic => exact ⟨rfl, rfl, .inl ⟨rfl, rfl⟩⟩
      | ok u' => exact fin _ _ _ _ u' rfl rfl rfl rfl rfl rfl
    · simp only [exec, Database.deleteUser, hv, hv']
      exact ⟨rfl, rfl, .inl ⟨rfl, rfl⟩⟩

/-- A user both databases hold looks the same in both afterwards. -/
theorem Alike.user {nd : Nondet} {req : Request} {db db' : Database} {r r' : Result} (h : Inv db) (h' : Inv db')
    (a : Alike nd req db db' r r') {i i' : Nat} {u : User} (hi : db.users[i]? = some u) (hi' : db'.users[i']? = some u) :
    r.db.users[i]? = r'.db.users[i']? := by
  rcases a.change with ⟨h1, h2⟩ | ⟨j, j', v, v', hv, hv', hu, hu', -⟩
  · rw [h1, h2, hi, hi']
  · rw [hu, hu']
    have g := (validate_iff h).1 hv
    have g' := (validate_iff h').1 hv'
    have hjlt := (List.getElem?_eq_some_iff.1 g.1).1
    have hjlt' := (List.getElem?_eq_some_iff.1 g'.1).1
    by_cases hij : j = i
    · subst hij
      have : u = v := by rw [hi] at g; exact Option.some.inj g.1
      subst this
      have : i' = j' := by
        have e1 := (getUserByUsername_iff h').2 ⟨hi', g'.2.1⟩
        have e2 := (getUserByUsername_iff h').2 ⟨g'.1, g'.2.1⟩
        rw [e1] at e2
        simpa using e2
      subst this
      simp [hjlt, hjlt']
    · have hij' : j' ≠ i' := by
        rintro rfl
        have : u = v := by rw [hi'] at g'; exact Option.some.inj g'.1
        subst this
        have e1 := (getUserByUsername_iff h).2 ⟨hi, g.2.1⟩
        have e2 := (getUserByUsername_iff h).2 ⟨g.1, g.2.1⟩
        rw [e1] at e2
        exact hij (by simpa using e2.symm)
      rw [List.getElem?_set_ne hij, List.getElem?_set_ne hij', hi, hi']

/-! ## Calls for different users -/

theorem exec_dir (c : Call) (nd : Nondet) (db : Database) (fs : FS) (req : Request) (p : GoString) :
    SameDir fs (exec c nd db fs req).fs p := by
  have hw : ∀ q d io, SameDir fs (writeFile fs q d io).1 p := by
    intro q d io
    unfold SameDir writeFile
    split
    · rfl
    · rename_i hc
      rw [not_or] at hc
      cases io
      all_goals
        by_cases hq : p = q
        · subst hq; simp [upd, hc.2]
        · simp [upd, hq]
  rcases exec_spec c nd db fs req with h | ⟨db', m, h⟩
  · rw [h.fs_eq]; exact Iff.rfl
  · rw [h.fs_eq]; exact hw _ _ _

theorem exec_prefix_kept {c : Call} {nd : Nondet} {db : Database} {fs : FS} {req : Request} {p : GoString}
    (hadd : c = .addAPIKey → ∀ s, getRandomStringFromRange nd.globalRand nd.seedRand 72 96 = .ok s → s.take 24 ≠ p)
    (hdel : c = .deleteAPIKey → ∀ u ∈ db.users, ∀ k ∈ u.apiKeys, k.pfx ≠ p) :
    (exec c nd db fs req).db.refAPIKey p = db.refAPIKey p := by
  rcases exec_spec c nd db fs req with h | ⟨db', m, h⟩
  · rw [h.db_eq]
  · rw [h.db_eq]
    cases m with
    | addAPIKey i u u' s hash hv hs hl h1 =>
      exact upd_other _ _ (Ne.symm (hadd rfl s hs))
    | deleteAPIKey i u u' key hv h1 =>
      obtain ⟨⟨x, hx, rfl⟩, -⟩ := User.deleteAPIKey_ok h1
      exact upd_other _ _ (Ne.symm
        (hdel rfl u (List.mem_of_getElem? (validate_users hv)) x (List.mem_filter.1 (List.mem_of_getLast? hx)).1))
    | _ => rfl

/-- After a call for other users, the users a request speaks of are the same. -/
theorem agree_after {c : Call} {nd : Nondet} {db : Database} {fs : FS} {req : Request} {un em : GoString}
    (hi : Inv db) (hc : c ∈ ownCalls)
    (hdiff : ∀ u ∈ db.users, NamesUser un u ∨ MailsUser em u → ¬ NamesUser req.user.username u) :
    AgreeOn un em db (exec c nd db fs req).db := by
  intro w hw
  rcases exec_users c nd db fs req with h | h
  · rw [h]
  · cases h with
    | same h _ => rw [h]
    | appended u hca h => subst hca; simp [ownCalls] at hc
    | modified i u u' hv hk h =>
      rw [h]
      have g := (validate_iff hi).1 hv
      have hlt := (List.getElem?_eq_some_iff.1 g.1).1
      have hu : ¬ (NamesUser un u ∨ MailsUser em u) := fun hh => hdiff u (List.mem_of_getElem? g.1) hh g.2.1
      have hu' : ¬ (NamesUser un u' ∨ MailsUser em u') := by
        intro hh
        apply hu
        rw [hk.eq] at hh
        exact hh
      constructor
      · intro hm
        obtain ⟨j, hj⟩ := List.getElem?_of_mem hm
        have hij : i ≠ j := by
          rintro rfl
          rw [g.1] at hj
          cases hj
          exact hu hw
        apply List.mem_of_getElem? (i := j)
        rw [List.getElem?_set_ne hij]
        exact hj
      · intro hm
        obtain ⟨j, hj⟩ := List.getElem?_of_mem hm
        by_cases hij : i = j
        · subst hij
          rw [List.getElem?_set_self hlt] at hj
          cases hj
          exact absurd hw hu'
        · rw [List.getElem?_set_ne hij] at hj
          exact List.mem_of_getElem? hj

end GoIdentity
