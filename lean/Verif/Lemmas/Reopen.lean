import Verif.Lemmas.Open
import Verif.Lemmas.ApiKeys
import Verif.Lemmas.Passwords
import Verif.Lemmas.Codec
import Verif.Spec.Proper
/-!
# Opening again what a call has written
-/
set_option linter.unusedSectionVars false
namespace GoIdentity
variable [Ext]

omit [Ext] in
/-- If an index finds every key of every element, no key occurs twice. -/
theorem nodup_flatMap_of_index {α β : Type} {l : List α} {key : α → List β} {m : β → Option Nat} (n : Nat)
    (h : ∀ (i : Nat) (a : α), l[i]? = some a → ∀ b ∈ key a, m b = some (n + i)) (hn : ∀ a ∈ l, (key a).Nodup) :
    (l.flatMap key).Nodup := by
  induction l generalizing n with
  | nil => simp
  | cons a l ih =>
    rw [List.flatMap_cons, List.nodup_append]
    refine ⟨hn a (by simp), ih (n + 1) (fun i b hb c hc => ?_) (fun b hb => hn b (by simp [hb])), ?_⟩
    · have := h (i + 1) b (by simpa using hb) c hc
      rw [this]
      congr 1
      omega
    · intro x hx y hy hxy
      subst hxy
      obtain ⟨b, hb, hxb⟩ := List.mem_flatMap.1 hy
      obtain ⟨i, hi⟩ := List.getElem?_of_mem hb
      have h1 := h 0 a (by simp) x hx
      have h2 := h (i + 1) b (by simpa using hi) x hxb
      rw [h1] at h2
      simp at h2

omit [Ext] in
theorem nodup_map_of_index {α β : Type} {l : List α} {key : α → β} {m : β → Option Nat}
    (h : ∀ (i : Nat) (a : α), l[i]? = some a → m (key a) = some i) : (l.map key).Nodup := by
  have := nodup_flatMap_of_index (key := fun a => [key a]) (m := m) (l := l) 0
    (fun i a ha b hb => by simp at hb; subst hb; simpa using h i a ha) (by simp)
  have hm : l.flatMap (fun a => [key a]) = l.map key := by clear h this; induction l <;> simp_all [List.flatMap_cons]
  rw [← hm]
  exact this

/-- The reachable databases have what the loader requires. -/
theorem loadCond_of_inv {db : Database} (h : Inv db) (hid : InvID db)
    (hv : ∀ u ∈ db.users, u.id.length = 36 ∧ u.username ≠ [] ∧ u.passwords ≠ []) (fp : GoString) :
    LoadCond (Database.empty fp) db.users := by
  constructor
  · exact hv
  · exact nodup_map_of_index (m := db.refUsername) h.name_ref
  · exact nodup_map_of_index (m := db.refID) hid
  · refine nodup_flatMap_of_index (m := db.refEmailAddress) 0 (fun i u hu s hs => ?_) h.email_nodup
    obtain ⟨e, he, rfl⟩ := List.mem_map.1 hs
    rw [h.email_ref i u e hu he, Nat.zero_add]
  · refine nodup_flatMap_of_index (m := db.refAPIKey) 0 (fun i u hu s hs => ?_) h.api_nodup
    obtain ⟨k, hk, rfl⟩ := List.mem_map.1 hs
    rw [h.api_ref i u k hu hk, Nat.zero_add]
  all_goals intros; rfl

/-- What every user of a database in use has. -/
structure UserReady (u : User) : Prop where
  id : u.id.length = 36
  username : u.username ≠ []
  passwords : u.passwords ≠ []
  algorithms : ∀ p ∈ u.passwords, p.algorithm ≠ []

theorem keepLoop_mem {now : Clock} {keep : Int} {i : Nat} {ps : List Password} {p : Password}
    (h : p ∈ User.keepLoop now keep i ps) : ∃ q ∈ ps, p = q ∨ ∃ j, j < i + ps.length ∧ p = q.disable (now.skip (2 * j)) := by
  induction ps generalizing i with
  | nil => simp [User.keepLoop] at h
  | cons q ps ih =>
    unfold User.keepLoop at h
    rcases List.mem_cons.1 h with h | h
    · refine ⟨q, by simp, ?_⟩
      split at h
      · exact .inl h
      · exact .inr ⟨i, by simp, h⟩
    · split at h
      · simp at h
      · obtain ⟨r, hr, hp⟩ := ih h
        refine ⟨r, by simp [hr], hp.imp_right ?_⟩
        rintro ⟨j, hj, hp⟩
        exact ⟨j, by rw [List.length_cons]; omega, hp⟩

theorem fixAlgorithm_ne (p : Password) : (Database.fixAlgorithm p).algorithm ≠ [] := by
  unfold Database.fixAlgorithm
  split
  · simp
  · assumption

theorem newPassword_algorithm {now salt s} {p : Password} (h : newPassword now salt s = .ok p) : p.algorithm ≠ [] := by
  obtain ⟨_, _, _, rfl⟩ := newPassword_ok h
  simp

theorem opened_ready {db : Database} (h : Opened db) : ∀ u ∈ db.users, UserReady u := by
  obtain ⟨nd, fs, fp, fs', h⟩ := h
  obtain ⟨d, _, hc, hdata, _⟩ := newDatabase_data h
  have hus : db.users = d.users.map loadedUser := congrArg DBData.users hdata
  rw [hus]
  intro u hu
  obtain ⟨v, hv, rfl⟩ := List.mem_map.1 hu
  obtain ⟨h1, h2, h3⟩ := hc.valid v hv
  refine ⟨h1, h2, by simpa [loadedUser] using h3, ?_⟩
  intro p hp
  obtain ⟨q, _, rfl⟩ := List.mem_map.1 hp
  exact fixAlgorithm_ne q

/-- `exec_forall_users`, with everything known of a new user. -/
theorem exec_forall_users' {P : User → Prop} {c : Call} {nd : Nondet} {db : Database} {fs : FS} {req : Request}
    (h : ∀ u ∈ db.users, P u)
    (hnew : ∀ p e roles name, UsersChange' nd req db .addUser (db.users ++ [newUserOf nd req db p e roles name]) →
      newPassword (nd.now.skip 2) (nd.salts 0) req.user.password = .ok p →
      newEmailAddress req.user.email = .ok e → req.user.username ≠ [] → nd.userID.length = 36 →
      P (newUserOf nd req db p e roles name))
    (hop : ∀ u u', u ∈ db.users → P u → UserOp nd req db u c u' → P u') :
    ∀ u ∈ (exec c nd db fs req).db.users, P u := by
  rcases exec_users' c nd db fs req with h1 | h1
  · rw [h1]; exact h
  · revert h1
    generalize hus : (exec c nd db fs req).db.users = us
    intro h1
    cases h1 with
    | save => exact h
    | copy => exact h
    | appended p e roles name hpol hp he hun hid hf hef =>
      intro u hu
      rcases List.mem_append.1 hu with hu | hu
      · exact h u hu
      · simp at hu; subst hu
        exact hnew p e roles name (.appended p e roles name hpol hp he hun hid hf hef) hp he hun hid
    | modified _ i u u' hv hop' =>
      intro v hv'
      have hmem := List.mem_of_getElem? (validate_users hv)
      rcases List.mem_or_eq_of_mem_set hv' with h2 | h2
      · exact h v h2
      · subst h2; exact hop u v hmem (h u hmem) hop'

theorem pickID_cases (db : Database) (ids : List GoString) (old : GoString) :
    db.pickID ids old = old ∨ db.pickID ids old ∈ ids := by
  unfold Database.pickID
  split
  · rename_i x hx
    exact .inr (List.mem_of_mem_take (List.mem_of_find?_eq_some hx))
  · exact .inl rfl

theorem exec_ready {c : Call} {nd : Nondet} {db : Database} {fs : FS} {req : Request}
    (hids : ∀ id ∈ nd.ids, id.length = 36) (h : ∀ u ∈ db.users, UserReady u) :
    ∀ u ∈ (exec c nd db fs req).db.users, UserReady u := by
  refine exec_forall_users' h ?_ ?_
  · intro p e roles name _ hp _ hun hid
    refine ⟨?_, hun, by simp [newUserOf], ?_⟩
    · rcases pickID_cases db nd.ids nd.userID with h1 | h1
      · exact (congrArg List.length h1).trans hid
      · exact hids _ h1
    · intro q hq
      simp [newUserOf] at hq
      subst hq
      exact newPassword_algorithm hp
  · intro u u' _ hu hop
    obtain ⟨h1, h2, h3, h4⟩ := hu
    cases hop with
    | changeUserPassword p hpol hold hp =>
      refine ⟨h1, h2, by simp [User.revise], ?_⟩
      intro q hq
      simp only [User.revise, List.mem_cons] at hq
      rcases hq with rfl | hq
      · exact newPassword_algorithm hp
      · obtain ⟨r, hr, rfl | ⟨_, _, rfl⟩⟩ := keepLoop_mem hq
        · exact h4 _ hr
        · exact h4 r hr
    | _ => exact ⟨h1, h2, h3, h4⟩

theorem proper_ready {db : Database} (h : ReachProper db) : ∀ u ∈ db.users, UserReady u := by
  induction h with
  | init nd fs fp fs' hnd h => exact opened_ready ⟨nd, fs, fp, fs', h⟩
  | step h c nd fs req hnd hfresh ih => exact exec_ready hnd.ids ih

theorem fresh_invID {db : Database} (h : ReachFresh db) : InvID db := by
  have key : Inv db ∧ InvID db := by
    induction h with
    | init h => exact ⟨reach_inv (.init h), by obtain ⟨nd, fs, fp, fs', h⟩ := h; exact newDatabase_invID h⟩
    | step h c nd fs req hfresh ih =>
      refine ⟨exec_inv ih.1, exec_invID ih.2 ?_⟩
      intro hc
      obtain ⟨id, hid, hne⟩ := hfresh hc
      refine ⟨id, hid, ?_⟩
      cases hr : Database.refID _ id with
      | none => rfl
      | some i =>
        obtain ⟨u, hu, rfl⟩ := ih.1.id_src _ _ hr
        exact absurd rfl (hne u (List.mem_of_getElem? hu))
  exact key.2

theorem fresh_reach {db : Database} (h : ReachFresh db) : Reach Opened db := by
  induction h with
  | init h => exact .init h
  | step h c nd fs req hfresh ih => exact .step ih c nd fs req

theorem opened_version {db : Database} (h : Opened db) : db.version = Ext.appVersion := by
  obtain ⟨nd, fs, fp, fs', h⟩ := h
  obtain ⟨d, _, hc, hdata, _⟩ := newDatabase_data h
  rw [hdata]

theorem reach_version {db : Database} (h : Reach Opened db) : db.version = Ext.appVersion := by
  induction h with
  | init h => exact opened_version h
  | step h c nd fs req ih => rw [(exec_path c nd _ fs req).2.2]; exact ih

theorem loadedUser_ready {u : User} (h : UserReady u) : loadedUser u = u := by
  unfold loadedUser
  have : u.passwords.map Database.fixAlgorithm = u.passwords := by
    rw [List.map_congr_left (g := id)]
    · simp
    · intro p hp
      unfold Database.fixAlgorithm
      rw [if_neg (h.algorithms p hp)]
      rfl
  rw [this]

/-- The lookup tables are determined by the users (the prefix index up to leaked prefixes). -/
theorem lookups_eq {db db' : Database} (h : Inv db) (h' : Inv db') (hu : db'.users = db.users) :
    db'.refUsername = db.refUsername ∧ db'.refEmailAddress = db.refEmailAddress := by
  have key : ∀ {a b : Database}, Inv a → Inv b → b.users = a.users →
      (∀ s i, a.refUsername s = some i → b.refUsername s = some i) ∧
      (∀ s i, a.refEmailAddress s = some i → b.refEmailAddress s = some i) := by
    intro a b ha hb hu
    constructor
    · intro s i hs
      obtain ⟨u, hui, rfl⟩ := ha.name_src s i hs
      exact hb.name_ref i u (by rw [hu]; exact hui)
    · intro s i hs
      obtain ⟨u, hui, e, he, rfl⟩ := ha.email_src s i hs
      exact hb.email_ref i u e (by rw [hu]; exact hui) he
  have k1 := key h h' hu
  have k2 := key h' h hu.symm
  constructor
  · funext s
    cases hs : db.refUsername s with
    | some i => exact k1.1 s i hs
    | none =>
      cases hs' : db'.refUsername s with
      | none => rfl
      | some i => rw [k2.1 s i hs'] at hs; simp at hs
  · funext s
    cases hs : db.refEmailAddress s with
    | some i => exact k1.2 s i hs
    | none =>
      cases hs' : db'.refEmailAddress s with
      | none => rfl
      | some i => rw [k2.2 s i hs'] at hs; simp at hs

theorem refID_eq {db db' : Database} (h : Inv db) (h' : Inv db') (hi : InvID db) (hi' : InvID db')
    (hu : db'.users = db.users) : db'.refID = db.refID := by
  have key : ∀ {a b : Database}, Inv a → InvID b → b.users = a.users → ∀ s i, a.refID s = some i → b.refID s = some i := by
    intro a b ha hb hu s i hs
    obtain ⟨u, hui, rfl⟩ := ha.id_src s i hs
    exact hb i u (by rw [hu]; exact hui)
  funext s
  cases hs : db.refID s with
  | some i => exact key h hi' hu s i hs
  | none =>
    cases hs' : db'.refID s with
    | none => rfl
    | some i => rw [key h' hi hu.symm s i hs'] at hs; simp at hs

theorem refAPIKey_eq {db db' : Database} (h : Inv db) (h' : Inv db') (hi : ApiExact db) (hi' : ApiExact db')
    (hu : db'.users = db.users) : db'.refAPIKey = db.refAPIKey := by
  have key : ∀ {a b : Database}, ApiExact a → Inv b → b.users = a.users →
      ∀ s i, a.refAPIKey s = some i → b.refAPIKey s = some i := by
    intro a b ha hb hu s i hs
    obtain ⟨u, hui, k, hk, rfl⟩ := ha s i hs
    exact hb.api_ref i u k (by rw [hu]; exact hui) hk
  funext s
  cases hs : db.refAPIKey s with
  | some i => exact key hi h' hu s i hs
  | none =>
    cases hs' : db'.refAPIKey s with
    | none => rfl
    | some i => rw [key hi' h hu.symm s i hs'] at hs; simp at hs

theorem lookupKeys_fails {pfx payload : GoString} {ks : List APIKey} (h : ∀ k ∈ ks, k.pfx ≠ pfx) :
    User.lookupAPIKey pfx payload ks = some (.std .lookupAPIKeyFailed) := by
  induction ks with
  | nil => rfl
  | cons k ks ih =>
    unfold User.lookupAPIKey
    rw [if_neg (h k (by simp))]
    exact ih fun x hx => h x (by simp [hx])

/-- Calls that change nothing answer the same when the users are the same. -/
theorem answers_eq {db db' : Database} (h : Inv db) (h' : Inv db') (hu : db'.users = db.users) {c : Call}
    (hc : c.mutates = false) (nd : Nondet) (fs fs' : FS) (req : Request) :
    (exec c nd db' fs' req).out = (exec c nd db fs req).out ∧ (exec c nd db' fs' req).req = (exec c nd db fs req).req := by
  obtain ⟨hn, he⟩ := lookups_eq h h' hu
  have hg1 : ∀ s, db'.getUserByUsername s = db.getUserByUsername s := by
    intro s; simp [Database.getUserByUsername, Database.deref, hn, hu]
  have hg2 : ∀ s, db'.getUserByEmailAddress s = db.getUserByEmailAddress s := by
    intro s; simp [Database.getUserByEmailAddress, Database.deref, he, hu]
  have hg : ∀ s, db'.getUser s = db.getUser s := by
    intro s; simp [Database.getUser, hg1, hg2]
  have hv : ∀ s t, db'.validateUserIdentity s t = db.validateUserIdentity s t := by
    intro s t; simp only [Database.validateUserIdentity, hg1, hg2]
  cases c
  case addUser => cases hc
  case save => cases hc
  case copy => cases hc
  case addPublicKey => cases hc
  case deletePublicKey => cases hc
  case addAPIKey => cases hc
  case deleteAPIKey => cases hc
  case changeUserPassword => cases hc
  case addMfaToken => cases hc
  case deleteMfaToken => cases hc
  case getUsers =>
    simp only [exec, Database.getUsers, hv, hu, Database.failWith]
    split <;> exact ⟨rfl, rfl⟩
  case getUser =>
    simp only [exec, Database.getUserCall, hv, Database.failWith]
    split <;> exact ⟨rfl, rfl⟩
  case deleteUser =>
    simp only [exec, Database.deleteUser, hv, Database.failWith]
    split <;> exact ⟨rfl, rfl⟩
  case authenticateUser =>
    simp only [exec, Database.authenticateUser, hg, Database.failWith]
    split
    · exact ⟨rfl, rfl⟩
    · split
      · split <;> exact ⟨rfl, rfl⟩
      · split
        · split <;> exact ⟨rfl, rfl⟩
        · exact ⟨rfl, rfl⟩
  case getPublicKeys =>
    simp only [exec, Database.getPublicKeys, hv, Database.failWith]
    split <;> exact ⟨rfl, rfl⟩
  case getAPIKeys =>
    simp only [exec, Database.getAPIKeys, hv, Database.failWith]
    split <;> exact ⟨rfl, rfl⟩
  case getMfaTokens =>
    simp only [exec, Database.getMfaTokens, hv, Database.failWith]
    split <;> exact ⟨rfl, rfl⟩
  case identifyUser =>
    simp only [exec, Database.identifyUser, hg]
    split <;> exact ⟨rfl, rfl⟩
  case lookupAPIKey =>
    have key : ∀ d : Database, Inv d → ∀ p, (∀ u ∈ d.users, ∀ k ∈ u.apiKeys, k.pfx ≠ p) → ∀ i u,
        d.deref (d.refAPIKey p) = some (i, u) → ∀ q, User.lookupAPIKey p q u.apiKeys = some (.std .lookupAPIKeyFailed) := by
      intro d hd p hp i u hdr q
      have := (deref_eq_some.1 hdr).2
      exact lookupKeys_fails fun k hk => hp u (List.mem_of_getElem? this) k hk
    simp only [exec, Database.lookupAPIKey, Database.failWith]
    by_cases h1 : req.key.payload = []
    · simp [h1]
    by_cases h2 : req.key.payload.length < 72
    · simp [h1, h2]
    simp only [if_neg h1, if_neg h2]
    by_cases hex : ∃ u ∈ db.users, ∃ k ∈ u.apiKeys, k.pfx = req.key.payload.take 24
    · obtain ⟨u, hu', k, hk, hkp⟩ := hex
      obtain ⟨i, hi⟩ := List.getElem?_of_mem hu'
      have e1 := h.api_ref i u k hi hk
      have e2 := h'.api_ref i u k (by rw [hu]; exact hi) hk
      rw [hkp] at e1 e2
      have d1 : db.deref (db.refAPIKey (req.key.payload.take 24)) = some (i, u) := deref_eq_some.2 ⟨e1, hi⟩
      have d2 : db'.deref (db'.refAPIKey (req.key.payload.take 24)) = some (i, u) := deref_eq_some.2 ⟨e2, by rw [hu]; exact hi⟩
      simp only [d1, d2]
      split <;> exact ⟨rfl, rfl⟩
    · have hno : ∀ u ∈ db.users, ∀ k ∈ u.apiKeys, k.pfx ≠ req.key.payload.take 24 :=
        fun u hu k hk hkp => hex ⟨u, hu, k, hk, hkp⟩
      have hno' : ∀ u ∈ db'.users, ∀ k ∈ u.apiKeys, k.pfx ≠ req.key.payload.take 24 := by rw [hu]; exact hno
      cases d1 : db.deref (db.refAPIKey (req.key.payload.take 24)) with
      | none =>
        cases d2 : db'.deref (db'.refAPIKey (req.key.payload.take 24)) with
        | none => exact ⟨rfl, rfl⟩
        | some iu' => obtain ⟨i', u'⟩ := iu'; simp [key db' h' _ hno' i' u' d2]
      | some iu =>
        obtain ⟨i, u⟩ := iu
        cases d2 : db'.deref (db'.refAPIKey (req.key.payload.take 24)) with
        | none => simp [key db h _ hno i u d1]
        | some iu' => obtain ⟨i', u'⟩ := iu'; simp [key db' h' _ hno' i' u' d2, key db h _ hno i u d1]

/-- Opening a file that holds a database in use. -/
theorem reopen {db : Database} (h : Reach Opened db) (hid : InvID db) (hready : ∀ u ∈ db.users, UserReady u)
    (hz : enforceDefaultPolicy db.policy = (db.policy, false)) (hok : db.toDBData.Ok) {nd : Nondet} {fs : FS} {fp : GoString}
    (hf : fs fp = some (.file (marshalDB db.toDBData))) (hp : fp.head? ≠ some 126) (hne : fp ≠ [])
    (hst : nd.statErr = false) (hrd : nd.readErr = false) :
    ∃ db', newDatabase nd fs fp = (.ok db', fs) ∧ db'.toDBData = db.toDBData ∧ db'.path = fp := by
  have hread : readFileBytes nd fs fp = .ok (marshalDB db.toDBData) := by
    unfold readFileBytes expandHomePath
    cases fp with
    | nil => exact absurd rfl hne
    | cons c rest =>
      have hc : c ≠ 126 := by simpa using hp
      simp [hc, hrd, hf]
  have hopen : Database.openFile nd fs fp = (.ok { Database.empty fp with toDBData := db.toDBData }, fs) := by
    unfold Database.openFile
    simp only [hst, hf, hread, unmarshal_marshal hok, Bool.false_eq_true, if_false, hz]
  obtain ⟨m1, m2, m3, m4, _⟩ := openFile_maps hopen
  have hl := loadUsers_iff (us := db.users) (i := 0)
    (db := { ({ Database.empty fp with toDBData := db.toDBData } : Database) with version := Ext.appVersion }) rfl (by simp)
  have hc := loadCond_of_inv (reach_inv h) hid (fun u hu => ⟨(hready u hu).id, (hready u hu).username, (hready u hu).passwords⟩) fp
  obtain ⟨db', hdb'⟩ := hl.1.2 ⟨hc.valid, hc.usernames, hc.ids, hc.emails, hc.prefixes, by intros; rfl, by intros; rfl,
    by intros; rfl, by intros; rfl⟩
  obtain ⟨e1, e2⟩ := hl.2 db' hdb'
  refine ⟨db', newDatabase_ok.2 ⟨_, hopen, hdb'⟩, ?_, e2⟩
  rw [e1]
  have hus : db.users.map loadedUser = db.users := by
    rw [List.map_congr_left (g := id)]
    · simp
    · exact fun u hu => loadedUser_ready (hready u hu)
  simp only [List.take_zero, List.nil_append, hus, ← reach_version h]

end GoIdentity
