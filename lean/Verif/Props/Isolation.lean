import Verif.Lemmas.Isolation
import Verif.Lemmas.ApiKeys
import Verif.Spec.Toy
/-!
# C84, C85: what one user's calls depend on
-/
namespace GoIdentity
open Toy

/-! ## C84: the answer to a call depends on the addressed user only -/

/-- C84: two databases with the same policy and path that hold the same users among those a request speaks of answer the
request alike, whoever else they hold, and a user both hold looks the same in both afterwards. -/
theorem C84_own_calls [Ext] {db db' : Database} (h : Reach Opened db) (h' : Reach Opened db')
    (hpol : db.policy = db'.policy) (hpath : db.path = db'.path) {fs fs' : FS} (hd : SameDir fs fs' db.path)
    {c : Call} (hc : c ∈ ownCalls) (nd : Nondet) (req : Request)
    (ha : AgreeOn req.user.username req.user.email db db')
    (hp : c = .addAPIKey → ∀ p, drawnPrefix nd = some p → (db.refAPIKey p = none ↔ db'.refAPIKey p = none)) :
    (exec c nd db fs req).out = (exec c nd db' fs' req).out ∧
    (exec c nd db fs req).req = (exec c nd db' fs' req).req ∧
    ∀ (i i' : Nat) (u : User), db.users[i]? = some u → db'.users[i']? = some u →
      (exec c nd db fs req).db.users[i]? = (exec c nd db' fs' req).db.users[i']? := by
  have a := exec_alike (reach_inv h) (reach_inv h') hpol hpath hd hc (nd := nd) ha (fun hc s hs => by
    have := hp hc (s.take 24) (by simp [drawnPrefix, hs])
    cases h1 : db.refAPIKey (s.take 24) <;> cases h2 : db'.refAPIKey (s.take 24) <;> simp [h1, h2] at this ⊢)
  exact ⟨a.out, a.req_eq, fun i i' u hi hi' => a.user (reach_inv h) (reach_inv h') hi hi'⟩

/-- C84: `AuthenticateUser` and `IdentifyUser` answer alike if the same user is denoted. -/
theorem C84_login_calls [Ext] {db db' : Database} (h : Reach Opened db) (h' : Reach Opened db') (fs fs' : FS)
    {c : Call} (hc : c = .authenticateUser ∨ c = .identifyUser) (nd nd' : Nondet) (req : Request)
    (ha : ∀ u : User, Denotes req.user.username u → (u ∈ db.users ↔ u ∈ db'.users)) :
    (exec c nd db fs req).out = (exec c nd' db' fs' req).out ∧
    (exec c nd db fs req).req = (exec c nd' db' fs' req).req := by
  have hg := getUser_agree (reach_inv h) (reach_inv h') ha
  rcases hc with rfl | rfl
  · simp only [exec, Database.authenticateUser]
    cases g : db.getUser req.user.username <;> cases g' : db'.getUser req.user.username <;> simp [g, g'] at hg
    · exact ⟨rfl, rfl⟩
    · dsimp only
      rw [hg]
      split
      · split <;> exact ⟨rfl, rfl⟩
      · split
        · split <;> exact ⟨rfl, rfl⟩
        · exact ⟨rfl, rfl⟩
  · simp only [exec, Database.identifyUser]
    cases g : db.getUser req.user.username <;> cases g' : db'.getUser req.user.username <;> simp [g, g'] at hg
    · exact ⟨rfl, rfl⟩
    · dsimp only
      rw [hg]
      exact ⟨rfl, rfl⟩

/-- C84: `LookupAPIKey` answers alike if the same users have a key with the presented prefix. -/
theorem C84_lookup [Ext] {db db' : Database} (h : Reach Opened db) (h' : Reach Opened db') (fs fs' : FS)
    (nd nd' : Nondet) (req : Request)
    (ha : ∀ u : User, (∃ k ∈ u.apiKeys, k.pfx = req.key.payload.take 24) → (u ∈ db.users ↔ u ∈ db'.users)) :
    (exec .lookupAPIKey nd db fs req).out = (exec .lookupAPIKey nd' db' fs' req).out ∧
    (exec .lookupAPIKey nd db fs req).req = (exec .lookupAPIKey nd' db' fs' req).req := by
  have key : ∀ {a b : Database}, Inv a → Inv b →
      (∀ u : User, (∃ k ∈ u.apiKeys, k.pfx = req.key.payload.take 24) → (u ∈ a.users ↔ u ∈ b.users)) →
      ∀ (i : Nat) (u : User), a.deref (a.refAPIKey (req.key.payload.take 24)) = some (i, u) →
        User.lookupAPIKey (req.key.payload.take 24) req.key.payload u.apiKeys ≠ some (.std .lookupAPIKeyFailed) →
        ∃ j, b.deref (b.refAPIKey (req.key.payload.take 24)) = some (j, u) := by
    intro a b hA hB hab i u hu hl
    obtain ⟨-, h2⟩ := deref_some hu
    by_cases hk : ∃ k ∈ u.apiKeys, k.pfx = req.key.payload.take 24
    · obtain ⟨j, hj⟩ := List.getElem?_of_mem ((hab u hk).1 (List.mem_of_getElem? h2))
      obtain ⟨k, hk, hkp⟩ := hk
      exact ⟨j, deref_eq_some.2 ⟨hkp ▸ hB.api_ref j u k hj hk, hj⟩⟩
    · exact absurd (lookupKeys_fails fun k hk' he => hk ⟨k, hk', he⟩) hl
  have two : ∀ (u : User), User.lookupAPIKey (req.key.payload.take 24) req.key.payload u.apiKeys = none ∨
      User.lookupAPIKey (req.key.payload.take 24) req.key.payload u.apiKeys = some (.std .lookupAPIKeyFailed) := by
    intro u
    induction u.apiKeys with
    | nil => exact .inr rfl
    | cons k ks ih =>
      unfold User.lookupAPIKey
      split
      · split
        · exact .inl rfl
        · exact .inr rfl
      · exact ih
  have k1 := key (reach_inv h) (reach_inv h') ha
  have k2 := key (reach_inv h') (reach_inv h) fun u hu => (ha u hu).symm
  simp only [exec, Database.lookupAPIKey]
  split
  · exact ⟨rfl, rfl⟩
  · split
    · exact ⟨rfl, rfl⟩
    · cases g : db.deref (db.refAPIKey (req.key.payload.take 24)) with
      | none =>
        cases g' : db'.deref (db'.refAPIKey (req.key.payload.take 24)) with
        | none => exact ⟨rfl, rfl⟩
        | some x =>
          obtain ⟨i, u⟩ := x
          rcases two u with ht | ht
          · obtain ⟨j, hj⟩ := k2 i u g' (by rw [ht]; simp)
            rw [g] at hj
            cases hj
          · dsimp only
            rw [ht]
            exact ⟨rfl, rfl⟩
      | some x =>
        obtain ⟨i, u⟩ := x
        rcases two u with ht | ht
        · obtain ⟨j, hj⟩ := k1 i u g (by rw [ht]; simp)
          rw [hj]
          dsimp only
          rw [ht]
          exact ⟨rfl, rfl⟩
        · dsimp only
          rw [ht]
          dsimp only
          cases g' : db'.deref (db'.refAPIKey (req.key.payload.take 24)) with
          | none => exact ⟨rfl, rfl⟩
          | some y =>
            obtain ⟨j, v⟩ := y
            rcases two v with ht' | ht'
            · obtain ⟨l, hl⟩ := k2 j v g' (by rw [ht']; simp)
              rw [g] at hl
              cases hl
              rw [ht] at ht'
              cases ht'
            · dsimp only
              rw [ht']
              exact ⟨rfl, rfl⟩

theorem isoEmail_address [Ext] {s : GoString} {e : EmailAddress} (h : newEmailAddress s = .ok e) : e.address = s := by
  unfold newEmailAddress at h
  split at h
  · simp at h
  · split at h
    · cases h; rfl
    · simp at h

/-- C84: `AddUser` answers alike if the name is taken in both or in neither, and so is the address; what it stores differs
at most in the identifier. -/
theorem C84_add_user [Ext] {db db' : Database} (h : Reach Opened db) (h' : Reach Opened db')
    (hpol : db.policy = db'.policy) (hpath : db.path = db'.path) {fs fs' : FS} (hd : SameDir fs fs' db.path)
    (nd : Nondet) (req : Request)
    (hn : (∃ u ∈ db.users, toLower u.username = toLower req.user.username) ↔
      ∃ u ∈ db'.users, toLower u.username = toLower req.user.username)
    (hm : (∃ u ∈ db.users, ∃ e ∈ u.emailAddresses, toLower e.address = toLower req.user.email) ↔
      ∃ u ∈ db'.users, ∃ e ∈ u.emailAddresses, toLower e.address = toLower req.user.email) :
    (exec .addUser nd db fs req).out = (exec .addUser nd db' fs' req).out ∧
    ((exec .addUser nd db fs req).db.users = db.users ∧ (exec .addUser nd db' fs' req).db.users = db'.users ∨
      ∃ (u : User) (id id' : GoString), (exec .addUser nd db fs req).db.users = db.users ++ [{ u with id := id }] ∧
        (exec .addUser nd db' fs' req).db.users = db'.users ++ [{ u with id := id' }]) := by
  have name : ∀ {a : Database}, Inv a → ((a.refUsername (toLower req.user.username)).isSome = true ↔
      ∃ u ∈ a.users, toLower u.username = toLower req.user.username) := by
    intro a hA
    constructor
    · intro hs
      obtain ⟨i, hi⟩ := Option.isSome_iff_exists.1 hs
      obtain ⟨u, hu, he⟩ := hA.name_src _ _ hi
      exact ⟨u, List.mem_of_getElem? hu, he⟩
    · rintro ⟨u, hu, he⟩
      obtain ⟨i, hi⟩ := List.getElem?_of_mem hu
      rw [← he, hA.name_ref i u hi]
      rfl
  have mail : ∀ {a : Database}, Inv a → ((a.refEmailAddress (toLower req.user.email)).isSome = true ↔
      ∃ u ∈ a.users, ∃ e ∈ u.emailAddresses, toLower e.address = toLower req.user.email) := by
    intro a hA
    constructor
    · intro hs
      obtain ⟨i, hi⟩ := Option.isSome_iff_exists.1 hs
      obtain ⟨u, hu, he⟩ := hA.email_src _ _ hi
      exact ⟨u, List.mem_of_getElem? hu, he⟩
    · rintro ⟨u, hu, e, hem, he⟩
      obtain ⟨i, hi⟩ := List.getElem?_of_mem hu
      rw [← he, hA.email_ref i u e hi hem]
      rfl
  have n1 := (name (reach_inv h)).trans (hn.trans (name (reach_inv h')).symm)
  have m1 := (mail (reach_inv h)).trans (hm.trans (mail (reach_inv h')).symm)
  have hcp : checkPolicy db'.policy req.user.username req.user.password =
      checkPolicy db.policy req.user.username req.user.password := by rw [hpol]
  simp only [exec, Database.addUser, hcp]
  split
  · exact ⟨rfl, .inl ⟨rfl, rfl⟩⟩
  · split
    · exact ⟨rfl, .inl ⟨rfl, rfl⟩⟩
    · exact ⟨rfl, .inl ⟨rfl, rfl⟩⟩
    · rename_i user hnew
      obtain ⟨p, e, roles, nm, -, he, -, -, -, -, rfl⟩ := User.newWithRoles_ok hnew
      have hadr := isoEmail_address he
      dsimp only
      cases g : db.refUsername (toLower req.user.username) <;>
        cases g' : db'.refUsername (toLower req.user.username) <;> simp [g, g'] at n1
      · simp only [Database.checkEmails, hadr]
        cases k : db.refEmailAddress (toLower req.user.email) <;>
          cases k' : db'.refEmailAddress (toLower req.user.email) <;> simp [k, k'] at m1
        · dsimp only
          obtain ⟨a1, a2, a3, a4⟩ := finish_agree
            (db := db.withUser { User.zero with
              id := db.pickID nd.ids nd.userID, username := req.user.username, created := nd.now 0
              lastModified := nd.now (User.lastReading [] 4 5 roles)
              revision := 0, passwords := [p], emailAddress := some e, emailAddresses := [e]
              roles := User.dedupRoles [] roles, name := nm, names := nm.toList } [toLower req.user.email])
            (db' := db'.withUser { User.zero with
              id := db'.pickID nd.ids nd.userID, username := req.user.username, created := nd.now 0
              lastModified := nd.now (User.lastReading [] 4 5 roles)
              revision := 0, passwords := [p], emailAddress := some e, emailAddresses := [e]
              roles := User.dedupRoles [] roles, name := nm, names := nm.toList } [toLower req.user.email])
            (fs := fs) (fs' := fs') hpath hd nd req (.withE .addUser [toLower req.user.username])
          refine ⟨a1, .inr ⟨newUserOf nd req db p e roles nm, db.pickID nd.ids nd.userID, db'.pickID nd.ids nd.userID, ?_, ?_⟩⟩
          · exact congrArg (·.users) a3
          · exact congrArg (·.users) a4
        · exact ⟨rfl, .inl ⟨rfl, rfl⟩⟩
      · exact ⟨rfl, .inl ⟨rfl, rfl⟩⟩

/-- C84: `GetUser` succeeds in both or fails with the same error in both; the pointers it hands out lead to equal users. -/
theorem C84_get_user [Ext] {db db' : Database} (h : Reach Opened db) (h' : Reach Opened db') (fs fs' : FS) (nd nd' : Nondet)
    (req : Request) (ha : AgreeOn req.user.username req.user.email db db') :
    (∃ e, (exec .getUser nd db fs req).out = .fail e ∧ (exec .getUser nd' db' fs' req).out = .fail e) ∨
      ∃ (i i' : Nat) (u : User), (exec .getUser nd db fs req).req.response.payload = .userPtr i ∧
        (exec .getUser nd' db' fs' req).req.response.payload = .userPtr i' ∧
        (exec .getUser nd db fs req).db.users[i]? = some u ∧ (exec .getUser nd' db' fs' req).db.users[i']? = some u := by
  rcases validate_agree (reach_inv h) (reach_inv h') ha with ⟨e, hv, hv'⟩ | ⟨i, i', u, hv, hv'⟩
  · simp only [exec, Database.getUserCall, hv, hv']
    exact .inl ⟨_, rfl, rfl⟩
  · have e1 := validate_users hv
    have e2 := validate_users hv'
    simp only [exec, Database.getUserCall, hv, hv']
    exact .inr ⟨i, i', u, rfl, rfl, e1, e2⟩

/-- C84: whatever other callers do in between, one user's call is answered as if they had done nothing: the history may
contain any calls, as long as none of them carries this user's name. -/
theorem C84_after_others [Ext] {db : Database} (h : Reach Opened db) (fs : FS) (ops : List Op) {i : Nat} {u : User}
    (hi : db.users[i]? = some u) (hops : ∀ o ∈ ops, toLower o.req.user.username ≠ toLower u.username)
    {c : Call} (hc : c ∈ ownCalls) (hk : c ≠ .addAPIKey) (nd : Nondet) (req : Request)
    (hn : NamesUser req.user.username u) (hm : MailsUser req.user.email u) :
    (exec c nd (run db fs ops).1 (run db fs ops).2 req).out = (exec c nd db fs req).out ∧
    (exec c nd (run db fs ops).1 (run db fs ops).2 req).req = (exec c nd db fs req).req ∧
    (exec c nd (run db fs ops).1 (run db fs ops).2 req).db.users[i]? = (exec c nd db fs req).db.users[i]? := by
  have hrun : Reach Opened (run db fs ops).1 ∧ (run db fs ops).1.users[i]? = some u ∧
      (run db fs ops).1.policy = db.policy ∧ (run db fs ops).1.path = db.path ∧
      ∀ p, SameDir (run db fs ops).2 fs p := by
    clear hm hn hk hc
    induction ops generalizing db fs with
    | nil => exact ⟨h, hi, rfl, rfl, fun _ => Iff.rfl⟩
    | cons o ops ih =>
      have h1 : Reach Opened (exec o.call o.nd db fs o.req).db := .step h ..
      have h2 : (exec o.call o.nd db fs o.req).db.users[i]? = some u := by
        rcases exec_user_at (c := o.call) (nd := o.nd) (fs := fs) (req := o.req) hi with h1 | ⟨v', _, _, hv⟩
        · exact h1
        · exact absurd ((validate_iff (reach_inv h)).1 hv).2.1.2.symm (hops o (by simp))
      have h3 := exec_path o.call o.nd db fs o.req
      have h4 := fun p => exec_dir o.call o.nd db fs o.req p
      rcases run_cons db fs o ops with hr | hr
      · rw [hr]
        exact ⟨h1, h2, h3.2.1, h3.1, fun p => (h4 p).symm⟩
      · rw [hr]
        obtain ⟨a1, a2, a3, a4, a5⟩ := ih h1 (exec o.call o.nd db fs o.req).fs h2 fun o ho => hops o (by simp [ho])
        exact ⟨a1, a2, a3.trans h3.2.1, a4.trans h3.1, fun p => (a5 p).trans (h4 p).symm⟩
  obtain ⟨a1, a2, a3, a4, a5⟩ := hrun
  have uniq : ∀ {a : Database}, Inv a → a.users[i]? = some u → ∀ w : User,
      NamesUser req.user.username w ∨ MailsUser req.user.email w → w ∈ a.users → w = u := by
    intro a hA hiA w hw hmem
    obtain ⟨j, hj⟩ := List.getElem?_of_mem hmem
    rcases hw with hw | hw
    · have e1 := (getUserByUsername_iff hA).2 ⟨hj, hw⟩
      rw [(getUserByUsername_iff hA).2 ⟨hiA, hn⟩] at e1
      simp at e1
      exact e1.2.symm
    · have e1 := (getUserByEmailAddress_iff hA).2 ⟨hj, hw⟩
      rw [(getUserByEmailAddress_iff hA).2 ⟨hiA, hm⟩] at e1
      simp at e1
      exact e1.2.symm
  have hagree : AgreeOn req.user.username req.user.email (run db fs ops).1 db := by
    intro w hw
    constructor
    · intro hmem
      rw [uniq (reach_inv a1) a2 w hw hmem]
      exact List.mem_of_getElem? hi
    · intro hmem
      rw [uniq (reach_inv h) hi w hw hmem]
      exact List.mem_of_getElem? a2
  obtain ⟨b1, b2, b3⟩ := C84_own_calls a1 h a3 a4 (a5 _) hc nd req hagree (fun hh => absurd hh hk)
  exact ⟨b1, b2, b3 i i u a2 hi⟩

/-! ## C85: calls for different users commute -/

/-- C85: two calls that speak of different users can be exchanged: each is answered the same, and the same users and the
same revision remain.  If both create API keys they must draw different prefixes, and a created key must not draw the prefix
of a key that exists. -/
theorem C85_commute [Ext] {db : Database} (h : Reach Opened db) (fs : FS) {c1 c2 : Call} (hc1 : c1 ∈ ownCalls)
    (hc2 : c2 ∈ ownCalls) (nd1 nd2 : Nondet) (req1 req2 : Request)
    (hdiff : ∀ u ∈ db.users, NamesUser req1.user.username u ∨ MailsUser req1.user.email u →
      ¬ (NamesUser req2.user.username u ∨ MailsUser req2.user.email u))
    (hp : c1 = .addAPIKey → c2 = .addAPIKey → drawnPrefix nd1 ≠ drawnPrefix nd2)
    (hp1 : c1 = .addAPIKey → c2 = .deleteAPIKey → ∀ p, drawnPrefix nd1 = some p → PrefixFree db p)
    (hp2 : c2 = .addAPIKey → c1 = .deleteAPIKey → ∀ p, drawnPrefix nd2 = some p → PrefixFree db p) :
    let r1 := exec c1 nd1 db fs req1
    let r12 := exec c2 nd2 r1.db r1.fs req2
    let r2 := exec c2 nd2 db fs req2
    let r21 := exec c1 nd1 r2.db r2.fs req1
    r21.out = r1.out ∧ r21.req = r1.req ∧ r12.out = r2.out ∧ r12.req = r2.req ∧
    r12.db.users = r21.db.users ∧ r12.db.revision = r21.db.revision := by
  intro r1 r12 r2 r21
  have drawn : ∀ {nd : Nondet} {s : GoString}, getRandomStringFromRange nd.globalRand nd.seedRand 72 96 = .ok s →
      drawnPrefix nd = some (s.take 24) := by
    intro nd s hs
    simp [drawnPrefix, hs]
  have i0 := reach_inv h
  have i1 : Inv r1.db := exec_inv i0
  have i2 : Inv r2.db := exec_inv i0
  have p1 := exec_path c1 nd1 db fs req1
  have p2 := exec_path c2 nd2 db fs req2
  have A1 : Alike nd1 req1 db r2.db r1 r21 := by
    refine exec_alike i0 i2 p2.2.1.symm p2.1.symm (exec_dir ..) hc1 ?_ ?_
    · exact agree_after i0 hc2 fun u hu h1 h2 => hdiff u hu h1 (.inl h2)
    · intro hadd s hs
      rw [show r2.db.refAPIKey (s.take 24) = db.refAPIKey (s.take 24) from exec_prefix_kept
        (fun h2 s' hs' he => hp hadd h2 (by rw [drawn hs, drawn hs', he]))
        (fun h2 => hp1 hadd h2 _ (drawn hs))]
  have A2 : Alike nd2 req2 db r1.db r2 r12 := by
    refine exec_alike i0 i1 p1.2.1.symm p1.1.symm (exec_dir ..) hc2 ?_ ?_
    · exact agree_after i0 hc1 fun u hu h1 h2 => hdiff u hu (.inl h2) h1
    · intro hadd s hs
      rw [show r1.db.refAPIKey (s.take 24) = db.refAPIKey (s.take 24) from exec_prefix_kept
        (fun h2 s' hs' he => hp h2 hadd (by rw [drawn hs, drawn hs', he]))
        (fun h2 => hp2 hadd h2 _ (drawn hs))]
  refine ⟨A1.out.symm, A1.req_eq.symm, A2.out.symm, A2.req_eq.symm, ?_⟩
  rcases A1.change with ⟨e1, e2⟩ | ⟨i, i', u, u', hv, hv', e1, e2, e3, e4, -⟩ <;>
  rcases A2.change with ⟨f1, f2⟩ | ⟨j, j', v, v', hw, hw', f1, f2, f3, f4, -⟩
  · rw [f2, e1, e2, f1]; exact ⟨rfl, rfl⟩
  · rw [f2, e1, e2, f1, f4, f3, e1]
    rw [e1] at hw'
    rw [hw] at hw'
    simp at hw'
    exact ⟨by rw [hw'], rfl⟩
  · rw [f2, e1, e2, f1, e4, e3, f1]
    rw [f1] at hv'
    rw [hv] at hv'
    simp at hv'
    exact ⟨by rw [hv'], rfl⟩
  · rw [f2, e1, e2, f1, f4, e4, e3, f3]
    have g1 := (validate_iff i0).1 hv
    have g2 := (validate_iff i0).1 hw
    have g1' := (validate_iff i2).1 hv'
    have g2' := (validate_iff i1).1 hw'
    have hij : i ≠ j := by
      rintro rfl
      have : u = v := by
        have := g1.1
        rw [g2.1] at this
        exact (Option.some.inj this).symm
      subst this
      exact hdiff u (List.mem_of_getElem? g1.1) (.inl g1.2.1) (.inl g2.2.1)
    have hi : i' = i := by
      have k : r2.db.users[i]? = some u := by rw [f1, List.getElem?_set_ne (Ne.symm hij)]; exact g1.1
      have k1 := (getUserByUsername_iff i2).2 ⟨k, g1.2.1⟩
      rw [(getUserByUsername_iff i2).2 ⟨g1'.1, g1'.2.1⟩] at k1
      simpa using k1
    have hj : j' = j := by
      have k : r1.db.users[j]? = some v := by rw [e1, List.getElem?_set_ne hij]; exact g2.1
      have k1 := (getUserByUsername_iff i1).2 ⟨k, g2.2.1⟩
      rw [(getUserByUsername_iff i1).2 ⟨g2'.1, g2'.2.1⟩] at k1
      simpa using k1
    subst hi hj
    refine ⟨?_, ?_⟩
    · exact List.set_comm _ _ hij
    · rfl

/-! ### Concrete cases -/

/-- Joe changes the password. -/
def isoJoe : Request :=
  { user := { username := gs! "JOE", email := gs! "joe@example.com", oldPassword := gs! "password1"
              password := gs! "Password9" } }
/-- Ann asks for an API key. -/
def isoAnn : Request :=
  { user := { username := gs! "Ann", email := gs! "ann@example.com" }, key := { usage := gs! "api", comment := gs! "c" } }
/-- Joe asks for an API key. -/
def isoJoeKey : Request :=
  { user := { username := gs! "joe", email := gs! "joe@example.com" }, key := { usage := gs! "api", comment := gs! "c" } }

/-- The requests speak of different users, both calls succeed in either order, and the answer to Ann is not empty. -/
example : (∀ u ∈ db2.users, NamesUser isoJoe.user.username u ∨ MailsUser isoJoe.user.email u →
      ¬ (NamesUser isoAnn.user.username u ∨ MailsUser isoAnn.user.email u)) ∧
    (exec .changeUserPassword nd db2 fs3 isoJoe).out = .success ∧
    (exec .addAPIKey nd (exec .changeUserPassword nd db2 fs3 isoJoe).db fs3 isoAnn).out = .success ∧
    (exec .addAPIKey nd db2 fs3 isoAnn).req.response.payload ≠ .none ∧
    (drawnPrefix nd).isSome = true := by
  unfold NamesUser MailsUser
  decide +kernel

/-- The condition on prefixes is needed: two users whose calls draw the same key are not served independently.  The second
call searches for ever (C23). -/
example : (exec .addAPIKey nd db2 fs3 isoAnn).out = .success ∧ (exec .addAPIKey nd db2 fs3 isoJoeKey).out = .success ∧
    (exec .addAPIKey nd (exec .addAPIKey nd db2 fs3 isoAnn).db fs3 isoJoeKey).out = .hang := by
  decide +kernel

/-- A history of calls for others: Ann fails to log in, changes the password and asks for a key, and a stranger is added.
None carries Joe's name; Joe's change of password then succeeds as it would have before. -/
def isoOps : List Op :=
  [⟨.authenticateUser, { user := { username := gs! "ann", password := gs! "wrong" } }, nd⟩,
   ⟨.addAPIKey, isoAnn, nd⟩,
   ⟨.addUser, { user := { username := gs! "eve", email := gs! "eve@example.com", password := gs! "password3" } }, nd⟩]

example : (∃ u, db2.users[0]? = some u ∧ (∀ o ∈ isoOps, toLower o.req.user.username ≠ toLower u.username) ∧
      NamesUser isoJoe.user.username u ∧ MailsUser isoJoe.user.email u) ∧
    (run db2 fs3 isoOps).1.revision = db2.revision + 2 ∧
    (exec .changeUserPassword nd (run db2 fs3 isoOps).1 fs3 isoJoe).out = .success := by
  refine ⟨⟨db2.users[0]'(by decide +kernel), List.getElem?_eq_getElem _, ?_⟩, ?_⟩
  · unfold NamesUser MailsUser
    decide +kernel
  · decide +kernel

/-- Joe is the same in the database with Joe alone and in the one with Joe and Ann, so Joe's login is answered alike. -/
example : (exec .authenticateUser nd db1 fs2 reqJoe).out = (exec .authenticateUser nd db2 fs3 reqJoe).out ∧
    (exec .authenticateUser nd db2 fs3 reqJoe).out = .success := by
  refine ⟨(C84_login_calls db1_reachO db2_reachO fs2 fs3 (.inl rfl) nd nd reqJoe fun u hu => ?_).1, by decide +kernel⟩
  obtain ⟨x, hx⟩ : ∃ x, db2.users = db1.users ++ [x] := ⟨_, rfl⟩
  rw [hx]
  constructor
  · intro h; simp [h]
  · intro h
    rcases List.mem_append.1 h with h | h
    · exact h
    · have hxe : db2.users[1]? = some x := by
        rw [hx, List.getElem?_append_right (by decide +kernel)]
        rw [show 1 - db1.users.length = 0 from by decide +kernel]
        rfl
      have hnot : ∀ w ∈ db2.users[1]?, ¬ Denotes (gs! "Joe") w := by
        unfold Denotes
        decide +kernel
      rw [List.mem_singleton] at h
      subst h
      exact absurd hu (hnot u hxe)

end GoIdentity
