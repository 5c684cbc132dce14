import Verif.Lemmas.Inv
/-!
# What a call may change; lookups; absence of panics
-/
set_option linter.unusedSectionVars false
namespace GoIdentity
variable [Ext]

/-! ## Frames -/

/-- `u'` is `u` after one modification, at a time read from the clock `now`, of its passwords, keys or tokens. -/
structure Kept (now : Clock) (u u' : User) : Prop where
  eq : u' = { u with
    passwords := u'.passwords, publicKeys := u'.publicKeys, apiKeys := u'.apiKeys, mfaTokens := u'.mfaTokens
    revision := User.incr64 u.revision, lastModified := u'.lastModified }
  time : ∃ k, u'.lastModified = now k

/-- The three ways in which a call affects the list of users. -/
inductive UsersChange (nd : Nondet) (req : Request) (db : Database) (c : Call) (us : List User) : Prop
  | same (h : us = db.users) (hc : c = .save ∨ ∃ fp, c = .copy fp)
  | appended (u : User) (hc : c = .addUser) (h : us = db.users ++ [u])
  | modified (i : Nat) (u u' : User) (hv : db.validateUserIdentity req.user.username req.user.email = .ok (i, u))
      (hk : Kept nd.now u u') (h : us = db.users.set i u')

theorem Mutation.users {nd : Nondet} {req : Request} {db db' : Database} {c : Call}
    (m : Mutation nd req db c db') : UsersChange nd req db c db'.users := by
  cases m with
  | save => exact .same rfl (.inl rfl)
  | copy fp => exact .same rfl (.inr ⟨fp, rfl⟩)
  | addUser user emails hpol hnew hname hemails => exact .appended _ rfl rfl
  | addPublicKey i u u' hv h1 =>
    obtain ⟨key, _, _, rfl⟩ := User.addPublicKey_ok h1
    exact .modified i u _ hv ⟨rfl, _, rfl⟩ rfl
  | deletePublicKey i u u' hv h1 =>
    obtain ⟨_, rfl⟩ := User.deletePublicKey_ok h1
    exact .modified i u _ hv ⟨rfl, _, rfl⟩ rfl
  | changeUserPassword i u u' hv _ h1 =>
    obtain ⟨_, h2⟩ := User.changePassword_ok h1
    obtain ⟨p, _, rfl⟩ := User.addPassword_ok h2
    exact .modified i u _ hv ⟨rfl, _, rfl⟩ rfl
  | addMfaToken i u u' req' hv h1 =>
    obtain ⟨t, _, _, rfl⟩ := User.addMfaToken_ok h1
    exact .modified i u _ hv ⟨rfl, _, rfl⟩ rfl
  | deleteMfaToken i u u' hv h1 =>
    obtain ⟨_, rfl⟩ := User.deleteMfaToken_ok h1
    exact .modified i u _ hv ⟨rfl, _, rfl⟩ rfl
  | addAPIKey i u u' s hash hv hs hl h1 =>
    obtain ⟨key, hk, rfl⟩ := User.addAPIKey_ok h1
    exact .modified i u _ hv ⟨rfl, _, rfl⟩ rfl
  | deleteAPIKey i u u' key hv h1 =>
    obtain ⟨⟨x, hx, rfl⟩, rfl⟩ := User.deleteAPIKey_ok h1
    exact .modified i u _ hv ⟨rfl, _, rfl⟩ rfl

/-- What a call does to the user at one index. -/
inductive UserStep (now : Clock) (req : Request) (u u' : User) : Prop
  | same (h : u' = u)
  | modified (hn : 2 ≤ req.user.username.length) (hk : Kept now u u')

theorem exec_users (c : Call) (nd : Nondet) (db : Database) (fs : FS) (req : Request) :
    (exec c nd db fs req).db.users = db.users ∨ UsersChange nd req db c (exec c nd db fs req).db.users := by
  rcases exec_spec c nd db fs req with h | ⟨db', m, h⟩
  · left; rw [h.db_eq]
  · right; rw [h.db_eq]; exact m.users

/-- The path, the policy and the version never change. -/
theorem exec_path (c : Call) (nd : Nondet) (db : Database) (fs : FS) (req : Request) :
    (exec c nd db fs req).db.path = db.path ∧ (exec c nd db fs req).db.policy = db.policy ∧
      (exec c nd db fs req).db.version = db.version := by
  rcases exec_spec c nd db fs req with h | ⟨db', m, h⟩
  · rw [h.db_eq]; exact ⟨rfl, rfl, rfl⟩
  · rw [h.db_eq]; cases m <;> exact ⟨rfl, rfl, rfl⟩

/-- The user at an index after a call: unchanged, or modified because the request addressed it. -/
theorem exec_user_at {c : Call} {nd : Nondet} {db : Database} {fs : FS} {req : Request} {j : Nat} {v : User}
    (hj : db.users[j]? = some v) :
    (exec c nd db fs req).db.users[j]? = some v ∨
      ∃ v', (exec c nd db fs req).db.users[j]? = some v' ∧ Kept nd.now v v' ∧
        db.validateUserIdentity req.user.username req.user.email = .ok (j, v) := by
  have hlt : j < db.users.length := (List.getElem?_eq_some_iff.1 hj).1
  rcases exec_users c nd db fs req with h | h
  · left; rw [h]; exact hj
  · cases h with
    | same h _ => left; rw [h]; exact hj
    | appended u _ h => left; rw [h, List.getElem?_append_left hlt]; exact hj
    | modified i u u' hv hk h =>
      by_cases hij : i = j
      · subst hij
        have : u = v := by
          have := validate_users hv
          rw [hj] at this
          exact (Option.some.inj this).symm
        subst this
        right
        exact ⟨u', by rw [h]; simp [hlt], hk, hv⟩
      · left
        rw [h, List.getElem?_set_ne hij]
        exact hj

/-! ## Lookups -/

theorem containsByte_iff (b : UInt8) (s : GoString) : containsByte b s = true ↔ b ∈ s := by
  simp [containsByte]

theorem deref_eq_some {db : Database} {r : Option Nat} {i : Nat} {u : User} :
    db.deref r = some (i, u) ↔ r = some i ∧ db.users[i]? = some u := by
  refine ⟨deref_some, ?_⟩
  rintro ⟨rfl, h⟩
  simp [Database.deref, h]

theorem getUserByUsername_iff {db : Database} (h : Inv db) {s : GoString} {i : Nat} {u : User} :
    db.getUserByUsername s = some (i, u) ↔ db.users[i]? = some u ∧ NamesUser s u := by
  constructor
  · intro hg
    obtain ⟨h1, h2, h3⟩ := getUserByUsername_some hg
    obtain ⟨v, hv, he⟩ := h.name_src _ _ h2
    rw [h3] at hv
    cases hv
    exact ⟨h3, h1, he⟩
  · rintro ⟨h1, h2, h3⟩
    unfold Database.getUserByUsername
    rw [if_neg (by omega), deref_eq_some]
    exact ⟨h3 ▸ h.name_ref i u h1, h1⟩

theorem getUserByEmailAddress_iff {db : Database} (h : Inv db) {s : GoString} {i : Nat} {u : User} :
    db.getUserByEmailAddress s = some (i, u) ↔ db.users[i]? = some u ∧ MailsUser s u := by
  constructor
  · intro hg
    obtain ⟨h1, h2, h3⟩ := getUserByEmailAddress_some hg
    obtain ⟨v, hv, he⟩ := h.email_src _ _ h2
    rw [h3] at hv
    cases hv
    exact ⟨h3, h1, he⟩
  · rintro ⟨h1, h2, e, he, h3⟩
    unfold Database.getUserByEmailAddress
    rw [if_neg (by omega), deref_eq_some]
    exact ⟨h3 ▸ h.email_ref i u e h1 he, h1⟩

theorem getUser_iff {db : Database} (h : Inv db) {s : GoString} {i : Nat} {u : User} :
    db.getUser s = some (i, u) ↔ db.users[i]? = some u ∧ Denotes s u := by
  unfold Database.getUser Denotes
  by_cases hc : (64 : UInt8) ∈ s
  · rw [if_pos ((containsByte_iff _ _).2 hc), if_pos hc]
    exact getUserByEmailAddress_iff h
  · rw [if_neg (fun hh => hc ((containsByte_iff _ _).1 hh)), if_neg hc]
    exact getUserByUsername_iff h

theorem getUser_none_iff {db : Database} (h : Inv db) {s : GoString} :
    db.getUser s = none ↔ ∀ u ∈ db.users, ¬ Denotes s u := by
  constructor
  · intro hn u hu hd
    obtain ⟨i, hi⟩ := List.getElem?_of_mem hu
    have := (getUser_iff h).2 ⟨hi, hd⟩
    rw [hn] at this
    simp at this
  · intro hn
    cases hg : db.getUser s with
    | none => rfl
    | some x =>
      obtain ⟨i, u⟩ := x
      obtain ⟨h1, h2⟩ := (getUser_iff h).1 hg
      exact absurd h2 (hn u (List.mem_of_getElem? h1))

theorem validate_iff {db : Database} (h : Inv db) {un em : GoString} {i : Nat} {u : User} :
    db.validateUserIdentity un em = .ok (i, u) ↔
      db.users[i]? = some u ∧ NamesUser un u ∧ ∃ v ∈ db.users, MailsUser em v ∧ u.id = v.id := by
  constructor
  · intro hv
    obtain ⟨h1, j, v, h2, h3⟩ := validate_ok hv
    obtain ⟨h4, h5⟩ := (getUserByUsername_iff h).1 h1
    obtain ⟨h6, h7⟩ := (getUserByEmailAddress_iff h).1 h2
    exact ⟨h4, h5, v, List.mem_of_getElem? h6, h7, h3⟩
  · rintro ⟨h1, h2, v, hv, h3, h4⟩
    obtain ⟨j, hj⟩ := List.getElem?_of_mem hv
    unfold Database.validateUserIdentity
    rw [(getUserByUsername_iff h).2 ⟨h1, h2⟩, (getUserByEmailAddress_iff h).2 ⟨hj, h3⟩]
    simp [h4]

theorem reach_inv {db : Database} (h : Reach Opened db) : Inv db := by
  induction h with
  | init h => obtain ⟨nd, fs, fp, fs', h⟩ := h; exact newDatabase_inv h
  | step h c nd fs req ih => exact exec_inv ih

theorem Created.opened {db : Database} (h : Created db) : Opened db := by
  obtain ⟨nd, fs, fp, fs', _, h⟩ := h
  exact ⟨nd, fs, fp, fs', h⟩

theorem Reach.mono {P Q : Database → Prop} (hPQ : ∀ db, P db → Q db) {db : Database} (h : Reach P db) : Reach Q db := by
  induction h with
  | init h => exact .init (hPQ _ h)
  | step h c nd fs req ih => exact .step ih c nd fs req

/-! ## No panics in `NewUserWithRoles` -/

theorem splitByte_ne_nil (b : UInt8) (s : GoString) : splitByte b s ≠ [] := by
  induction s with
  | nil => simp [splitByte]
  | cons c s ih =>
    unfold splitByte
    split
    · simp
    · split <;> simp

theorem newRole_ne_panic (s : GoString) : newRole s ≠ .panic := by
  unfold newRole
  dsimp only
  split
  · simp
  · split
    · rename_i h; exact absurd h (splitByte_ne_nil _ _)
    · simp
    · simp

theorem bcryptGenerate_ne_panic (pw : GoString) (cost : Int) (salt : Option GoString) :
    bcryptGenerate pw cost salt ≠ .panic := by
  unfold bcryptGenerate
  dsimp only
  generalize (if cost < 4 then 10 else cost) = k
  by_cases h : 31 < k
  · simp [h]
  · cases salt <;> simp [h]

theorem newPasswordWithOptions_ne_panic (now salt s purpose algo cost) :
    newPasswordWithOptions now salt s purpose algo cost ≠ .panic := by
  unfold newPasswordWithOptions
  dsimp only
  split
  · simp
  · split
    · split
      · simp
      · simp
      · rename_i h; exact absurd h (bcryptGenerate_ne_panic _ _ _)
    · split <;> simp

theorem newPassword_ne_panic (now salt s) : newPassword now salt s ≠ .panic :=
  newPasswordWithOptions_ne_panic _ _ _ _ _ _

theorem parseName_ne_panic (s : GoString) : parseName s ≠ .panic := by
  unfold parseName
  dsimp only
  repeat' split
  all_goals simp

theorem splitByte_cons_of_mem {b : UInt8} {s : GoString} (h : b ∈ s) : ∃ p q r, splitByte b s = p :: q :: r := by
  induction s with
  | nil => simp at h
  | cons c s ih =>
    unfold splitByte
    by_cases hc : c = b
    · rw [if_pos hc]
      cases hs : splitByte b s with
      | nil => exact absurd hs (splitByte_ne_nil _ _)
      | cons q r => exact ⟨[], q, r, rfl⟩
    · rw [if_neg hc]
      have : b ∈ s := by
        rcases List.mem_cons.1 h with rfl | h
        · exact absurd rfl hc
        · exact h
      obtain ⟨p, q, r, hs⟩ := ih this
      rw [hs]
      exact ⟨c :: p, q, r, rfl⟩

theorem mem_of_dropWhile_cons {s : GoString} {x : UInt8} {t : GoString} (h : s.dropWhile (· != 64) = x :: t) :
    (64 : UInt8) ∈ s := by
  induction s with
  | nil => simp at h
  | cons c s ih =>
    by_cases hc : c = 64
    · simp [hc]
    · rw [List.dropWhile_cons_of_pos (by simpa using hc)] at h
      exact List.mem_cons_of_mem _ (ih h)

theorem emailMatch_mem {s : GoString} (h : emailMatch s = true) : (64 : UInt8) ∈ s := by
  unfold emailMatch at h
  dsimp only at h
  split at h
  · simp at h
  · rename_i hd
    exact mem_of_dropWhile_cons hd

theorem newEmailAddress_ne_panic (s : GoString) : newEmailAddress s ≠ .panic := by
  unfold newEmailAddress
  split
  · simp
  · rename_i hm
    obtain ⟨p, q, r, hs⟩ := splitByte_cons_of_mem (emailMatch_mem (by simpa using hm))
    rw [hs]
    simp

namespace User
theorem addPassword_ne_panic (now salt s k) (u : User) : u.addPassword now salt s k ≠ .panic := by
  unfold addPassword
  split
  · simp
  · rename_i h; exact absurd h (by apply newPassword_ne_panic)
  · simp

theorem addEmailAddress_ne_panic (now s) (u : User) : u.addEmailAddress now s ≠ .panic := by
  unfold addEmailAddress
  split
  · simp
  · rename_i h; exact absurd h (by apply newEmailAddress_ne_panic)
  · split
    · simp
    · split <;> simp

theorem addRole_ne_panic (now s) (u : User) : u.addRole now s ≠ .panic := by
  unfold addRole
  split
  · simp
  · rename_i h; exact absurd h (by apply newRole_ne_panic)
  · split
    · simp
    · split <;> simp

theorem addRoles_ne_panic (now ss) (u : User) : u.addRoles now ss ≠ .panic := by
  induction ss generalizing now u with
  | nil => simp [addRoles]
  | cons s ss ih =>
    unfold addRoles
    split
    · simp
    · rename_i h; exact absurd h (by apply addRole_ne_panic)
    · exact ih _ _

theorem addFullName_ne_panic (now s) (u : User) : u.addFullName now s ≠ .panic := by
  unfold addFullName
  dsimp only
  split
  · simp
  · split
    · simp
    · rename_i h; exact absurd h (parseName_ne_panic _)
    · simp

theorem valid_ne_panic (u : User) : u.valid ≠ .panic := by
  unfold valid
  split
  · simp
  · split
    · simp
    · split <;> simp

theorem newWithRoles_ne_panic (nd un pw em fn rs) : newWithRoles nd un pw em fn rs ≠ .panic := by
  unfold newWithRoles
  split
  · simp
  · rename_i h; exact absurd h (by apply addPassword_ne_panic)
  · split
    · simp
    · rename_i h; exact absurd h (by apply addEmailAddress_ne_panic)
    · split
      · simp
      · rename_i h; exact absurd h (by apply addRoles_ne_panic)
      · split
        · simp
        · rename_i h; exact absurd h (by apply addFullName_ne_panic)
        · split
          · simp
          · rename_i h; exact absurd h (by apply valid_ne_panic)
          · simp
end User

/-- `AddUser` always returns. -/
theorem addUser_returns (nd : Nondet) (db : Database) (fs : FS) (req : Request) :
    ∃ e, (exec .addUser nd db fs req).out = .done e := by
  simp only [exec, Database.addUser]
  split
  · exact ⟨_, rfl⟩
  · split
    · exact ⟨_, rfl⟩
    · rename_i h; exact absurd h (by apply User.newWithRoles_ne_panic)
    · split
      · exact ⟨_, rfl⟩
      · split
        · exact ⟨_, rfl⟩
        · unfold Database.finish
          split <;> exact ⟨_, rfl⟩

/-! ## Unique IDs -/

/-- The ID map points every user's ID at that user. -/
def InvID (db : Database) : Prop := ∀ (i : Nat) (u : User), db.users[i]? = some u → db.refID u.id = some i

theorem invID_append {db db' : Database} (h : InvID db) (u : User) (husers : db'.users = db.users ++ [u])
    (hid : db.refID u.id = none) (hid' : db'.refID = upd db.refID u.id (some db.users.length)) : InvID db' := by
  intro i v hv
  rw [hid']
  rw [husers, List.getElem?_append] at hv
  split at hv
  · have := h i v hv
    rw [upd_other]
    · exact this
    · intro hc; rw [hc, hid] at this; simp at this
  · have : i - db.users.length = 0 := by
      rcases Nat.eq_zero_or_pos (i - db.users.length) with h0 | h0
      · exact h0
      · rw [List.getElem?_eq_none (by simp; omega)] at hv; simp at hv
    rw [this] at hv
    simp at hv
    subst hv
    rw [upd_same]
    congr 1
    omega

theorem invID_set {db db' : Database} (h : InvID db) {i : Nat} {u u' : User} (hi : db.users[i]? = some u)
    (hid : u'.id = u.id) (husers : db'.users = db.users.set i u') (href : db'.refID = db.refID) : InvID db' := by
  intro j v hv
  rw [href]
  rw [husers, List.getElem?_set] at hv
  split at hv
  · rename_i hij
    subst hij
    split at hv
    · simp at hv; subst hv; rw [hid]; exact h _ _ hi
    · simp at hv
  · exact h j v hv

/-- A call keeps IDs unique, provided `AddUser` draws an unused identifier. -/
theorem exec_invID {c : Call} {nd : Nondet} {db : Database} {fs : FS} {req : Request} (h : InvID db)
    (hfresh : c = .addUser → ∃ id ∈ nd.ids.take 10, db.refID id = none) : InvID (exec c nd db fs req).db := by
  rcases exec_spec c nd db fs req with h1 | ⟨db', m, h1⟩
  · rw [h1.db_eq]; exact h
  · rw [h1.db_eq]
    show InvID (db'.touch nd.commitTime)
    suffices InvID db' from this
    clear h1
    cases m with
    | save => exact h
    | copy fp => exact h
    | addUser user emails hpol hnew hname hemails =>
      obtain ⟨id, hid, hnone⟩ := hfresh rfl
      refine invID_append h _ rfl ?_ rfl
      show db.refID (db.pickID nd.ids user.id) = none
      unfold Database.pickID
      split
      · rename_i x hx
        simpa using List.find?_some hx
      · rename_i hx
        have := List.find?_eq_none.1 hx id hid
        simp [hnone] at this
    | addPublicKey i u u' hv h1 =>
      obtain ⟨key, _, _, rfl⟩ := User.addPublicKey_ok h1
      exact invID_set h (validate_users hv) (by rfl) rfl rfl
    | deletePublicKey i u u' hv h1 =>
      obtain ⟨_, rfl⟩ := User.deletePublicKey_ok h1
      exact invID_set h (validate_users hv) (by rfl) rfl rfl
    | changeUserPassword i u u' hv _ h1 =>
      obtain ⟨_, h2⟩ := User.changePassword_ok h1
      obtain ⟨p, _, rfl⟩ := User.addPassword_ok h2
      exact invID_set h (validate_users hv) (by rfl) rfl rfl
    | addMfaToken i u u' req' hv h1 =>
      obtain ⟨t, _, _, rfl⟩ := User.addMfaToken_ok h1
      exact invID_set h (validate_users hv) (by rfl) rfl rfl
    | deleteMfaToken i u u' hv h1 =>
      obtain ⟨_, rfl⟩ := User.deleteMfaToken_ok h1
      exact invID_set h (validate_users hv) (by rfl) rfl rfl
    | addAPIKey i u u' s hash hv hs hl h1 =>
      obtain ⟨key, hk, rfl⟩ := User.addAPIKey_ok h1
      exact invID_set h (validate_users hv) (by rfl) rfl rfl
    | deleteAPIKey i u u' key hv h1 =>
      obtain ⟨⟨x, hx, rfl⟩, rfl⟩ := User.deleteAPIKey_ok h1
      exact invID_set h (validate_users hv) (by rfl) rfl rfl

/-! ## Induction over the loader -/

/-- To show a property of every opened database: show it while no user is loaded, and for every loaded user. -/
theorem loadUsers_induct {P : Nat → Database → Prop} {us : List User} {i : Nat} {db db' : Database}
    (hus : db.users.drop i = us) (hi : i ≤ db.users.length) (h : P i db)
    (hstep : ∀ i u db db', db.users[i]? = some u → P i db → Database.loadUser i u db = .ok db' → P (i + 1) db')
    (hl : Database.loadUsers i us db = .ok db') : P db'.users.length db' := by
  induction us generalizing i db with
  | nil =>
    simp only [Database.loadUsers, Res.ok.injEq] at hl
    subst hl
    have hle := List.drop_eq_nil_iff.1 hus
    have : i = db.users.length := by omega
    rwa [this] at h
  | cons u us ih =>
    unfold Database.loadUsers at hl
    split at hl
    · simp at hl
    · simp at hl
    · rename_i db1 h1
      have hget : db.users[i]? = some u := by
        have := congrArg List.head? hus
        simpa [List.head?_drop] using this
      have hlt : i < db.users.length := (List.getElem?_eq_some_iff.1 hget).1
      have husers : db1.users = db.users.set i (loadedUser u) := by
        obtain ⟨_, _, _, _, _, _, _, rfl⟩ := loadUser_ok_iff.1 h1
        rfl
      refine ih ?_ ?_ (hstep i u db db1 hget h h1) hl
      · rw [husers, List.drop_set_of_lt (by omega)]
        have := congrArg List.tail hus
        simpa [List.tail_drop] using this
      · rw [husers]; simp; omega

/-- The database before the user loop has empty maps. -/
theorem openFile_maps {nd : Nondet} {fs fs' : FS} {fp : GoString} {d : Database}
    (hopen : Database.openFile nd fs fp = (.ok d, fs')) :
    d.refUsername = (fun _ => none) ∧ d.refID = (fun _ => none) ∧ d.refEmailAddress = (fun _ => none) ∧
        d.refAPIKey = (fun _ => none) ∧ d.path = fp := by
  unfold Database.openFile at hopen
  split at hopen
  · simp at hopen
  · split at hopen
    · split at hopen
      · simp at hopen
      · simp only [Database.commit, Database.empty] at hopen
        split at hopen
        · simp at hopen
        · rename_i heq
          simp only [Prod.mk.injEq, Res.ok.injEq] at hopen
          split at heq
          · simp only [Prod.mk.injEq] at heq
            obtain ⟨rfl, _⟩ := hopen
            obtain ⟨rfl, _⟩ := heq
            exact ⟨rfl, rfl, rfl, rfl, rfl⟩
          · simp at heq
    · simp at hopen
    · split at hopen
      · simp at hopen
      · simp at hopen
      · split at hopen
        · simp at hopen
        · simp at hopen
        · dsimp only at hopen
          split at hopen
          · simp only [Database.commit, Database.empty] at hopen
            split at hopen
            · simp at hopen
            · rename_i heq
              simp only [Prod.mk.injEq, Res.ok.injEq] at hopen
              split at heq
              · simp only [Prod.mk.injEq] at heq
                obtain ⟨rfl, _⟩ := hopen
                obtain ⟨rfl, _⟩ := heq
                exact ⟨rfl, rfl, rfl, rfl, rfl⟩
              · simp at heq
          · simp only [Prod.mk.injEq, Res.ok.injEq] at hopen
            obtain ⟨rfl, _⟩ := hopen
            exact ⟨rfl, rfl, rfl, rfl, rfl⟩

/-- Induction over everything `NewDatabase` loads. -/
theorem newDatabase_induct {P : Nat → Database → Prop} {nd : Nondet} {fs fs' : FS} {fp : GoString} {db : Database}
    (h : newDatabase nd fs fp = (.ok db, fs'))
    (h0 : ∀ d : Database, d.refUsername = (fun _ => none) → d.refID = (fun _ => none) →
      d.refEmailAddress = (fun _ => none) → d.refAPIKey = (fun _ => none) → P 0 d)
    (hstep : ∀ i u db db', db.users[i]? = some u → P i db → Database.loadUser i u db = .ok db' → P (i + 1) db') :
    P db.users.length db := by
  unfold newDatabase at h
  split at h
  · simp at h
  · simp at h
  · rename_i d fs1 hopen
    simp only [Prod.mk.injEq] at h
    obtain ⟨h1, h2, h3, h4, _⟩ := openFile_maps hopen
    exact loadUsers_induct (i := 0) (us := d.users) (db := { d with version := Ext.appVersion }) (List.drop_zero ..)
      (Nat.zero_le _) (h0 _ h1 h2 h3 h4) hstep h.1

theorem newDatabase_invID {nd : Nondet} {fs fs' : FS} {fp : GoString} {db : Database}
    (h : newDatabase nd fs fp = (.ok db, fs')) : InvID db := by
  have := newDatabase_induct (P := fun n d => InvID (d.firstUsers n)) h ?_ ?_
  · unfold Database.firstUsers at this
    rwa [List.take_length] at this
  · intro d _ _ _ _ i u hu
    simp [Database.firstUsers] at hu
  · intro i u d d' hget hp hl
    obtain ⟨_, h1, h2, h3, h4, h5, h6, rfl⟩ := loadUser_ok_iff.1 hl
    have hlt : i < d.users.length := (List.getElem?_eq_some_iff.1 hget).1
    have hlen : (d.firstUsers i).users.length = i := by
      simp [Database.firstUsers]; omega
    refine invID_append hp (loadedUser u) ?_ h2 ?_
    · simp only [Database.firstUsers]
      rw [List.take_add_one]
      rw [List.take_set, List.set_eq_of_length_le (by simp; omega)]
      simp [hlt]
    · rw [hlen]; rfl

end GoIdentity

namespace GoIdentity
variable [Ext]

theorem Kept.same {now : Clock} {u u' : User} (h : Kept now u u') : SameIdentity u u' := by
  rw [h.eq]; constructor <;> rfl

theorem SameIdentity.refl (u : User) : SameIdentity u u := by constructor <;> rfl

theorem SameIdentity.trans {u v w : User} (h : SameIdentity u v) (h' : SameIdentity v w) : SameIdentity u w :=
  ⟨h'.1.trans h.1, h'.2.trans h.2, h'.3.trans h.3, h'.4.trans h.4, h'.5.trans h.5, h'.6.trans h.6, h'.7.trans h.7,
   h'.8.trans h.8, h'.9.trans h.9, h'.10.trans h.10, h'.11.trans h.11, h'.12.trans h.12, h'.13.trans h.13,
   h'.14.trans h.14, h'.15.trans h.15, h'.16.trans h.16⟩

/-- Users survive every call, with their identity. -/
theorem exec_same {c : Call} {nd : Nondet} {db : Database} {fs : FS} {req : Request} {j : Nat} {v : User}
    (hj : db.users[j]? = some v) : ∃ v', (exec c nd db fs req).db.users[j]? = some v' ∧ SameIdentity v v' := by
  rcases exec_user_at (c := c) (nd := nd) (fs := fs) (req := req) hj with h | ⟨v', h, hk, _⟩
  · exact ⟨v, h, .refl v⟩
  · exact ⟨v', h, hk.same⟩

theorem run_same {db : Database} {fs : FS} {ops : List Op} {j : Nat} {v : User}
    (hj : db.users[j]? = some v) : ∃ v', (run db fs ops).1.users[j]? = some v' ∧ SameIdentity v v' := by
  induction ops generalizing db fs v with
  | nil => exact ⟨v, hj, .refl v⟩
  | cons o ops ih =>
    unfold run
    dsimp only
    obtain ⟨v', h1, h2⟩ := exec_same (c := o.call) (nd := o.nd) (fs := fs) (req := o.req) hj
    split
    · exact ⟨v', h1, h2⟩
    · obtain ⟨v'', h3, h4⟩ := ih (fs := (exec o.call o.nd db fs o.req).fs) h1
      exact ⟨v'', h3, h2.trans h4⟩

theorem SameIdentity.denotes {u u' : User} (h : SameIdentity u u') {s : GoString} (hd : Denotes s u) : Denotes s u' := by
  unfold Denotes at *
  rw [h.emailAddresses, h.username]
  exact hd

theorem SameIdentity.names' {u u' : User} (h : SameIdentity u u') {s : GoString} (hd : NamesUser s u) :
    NamesUser s u' := by
  unfold NamesUser at *
  rw [h.username]
  exact hd

theorem SameIdentity.mails {u u' : User} (h : SameIdentity u u') {s : GoString} (hd : MailsUser s u) :
    MailsUser s u' := by
  unfold MailsUser at *
  rw [h.emailAddresses]
  exact hd

/-- A success is a committed mutation. -/
theorem exec_success {c : Call} {nd : Nondet} {db : Database} {fs : FS} {req : Request} (hm : c.mutates = true)
    (h : (exec c nd db fs req).out = .success) :
    ∃ db', Mutation nd req db c db' ∧ Committed nd fs (c.target db) db' (exec c nd db fs req) := by
  rcases exec_spec c nd db fs req with h1 | h1
  · exact absurd h (h1.out hm)
  · exact h1

theorem exec_validate_error {c : Call} {nd : Nondet} {db : Database} {fs : FS} {req : Request} (hc : c ∈ accountCalls)
    {e : GoErr} (hv : db.validateUserIdentity req.user.username req.user.email = .error e) :
    (exec c nd db fs req).Failed ∧ (exec c nd db fs req).Unchanged db fs := by
  simp only [accountCalls, List.mem_cons, List.not_mem_nil, or_false] at hc
  rcases hc with rfl | rfl | rfl | rfl | rfl | rfl | rfl | rfl | rfl | rfl | rfl | rfl | rfl <;>
  simp only [exec, Database.addPublicKey, Database.getPublicKeys, Database.deletePublicKey, Database.addAPIKey,
    Database.getAPIKeys, Database.deleteAPIKey, Database.changeUserPassword, Database.addMfaToken,
    Database.getMfaTokens, Database.deleteMfaToken, Database.getUserCall, Database.getUsers, Database.deleteUser, hv] <;>
  exact ⟨⟨_, rfl⟩, rfl, rfl⟩

theorem writeFile_none {fs : FS} {path data : GoString} {io : WriteOutcome} (h : (writeFile fs path data io).2 = none) :
    path ≠ [] ∧ fs path ≠ some .dir ∧ io = .ok ∧ (writeFile fs path data io).1 = upd fs path (some (.file data)) := by
  unfold writeFile at h ⊢
  split
  · rename_i hc; simp [hc] at h
  · rename_i hc
    rw [not_or] at hc
    cases io <;> simp [hc] at h ⊢

theorem writeFile_ok {fs : FS} {path data : GoString} (h1 : path ≠ []) (h2 : fs path ≠ some .dir) :
    writeFile fs path data .ok = (upd fs path (some (.file data)), none) := by
  unfold writeFile
  simp [h1, h2]

theorem dedupRoles_eq (held rs : List Role) :
    User.dedupRoles held rs = held ++ (rs.filter (fun r => !held.contains r)).eraseDups := by
  induction rs generalizing held with
  | nil => simp [User.dedupRoles]
  | cons r rs ih =>
    unfold User.dedupRoles
    rw [ih]
    by_cases h : r ∈ held
    · simp [h]
    · simp [h, List.eraseDups_cons, List.filter_filter]
      congr 1
      apply List.filter_congr
      intro x _
      by_cases hx : x = r
      · simp [hx]
      · simp [hx]

theorem parseRoles_map {ss : List GoString} {rs : List Role} (h : User.parseRoles ss = some rs) :
    ss.map newRole = rs.map Res.ok := by
  induction ss generalizing rs with
  | nil => simp [User.parseRoles] at h; subst h; rfl
  | cons s ss ih =>
    unfold User.parseRoles at h
    split at h
    · rename_i r rs' hr hrs
      simp at h
      subst h
      simp [hr, ih hrs]
    · simp at h

/-- The converse of `exec_spec`: a possible mutation is performed and committed. -/
theorem Mutation.committed {nd : Nondet} {req : Request} {db db' : Database} {c : Call} (m : Mutation nd req db c db')
    (fs : FS) : Committed nd fs (c.target db) db' (exec c nd db fs req) := by
  cases m with
  | save => exact finish_committed nd db fs req id (fun _ h => h)
  | copy fp => exact copy_committed nd fp db fs req
  | addUser user emails hpol hnew hname hemails =>
    simp only [exec, Database.addUser, hpol, hnew, hname, hemails]
    exact finish_committed nd (db.withUser { user with id := db.pickID nd.ids user.id } emails) fs req _
      (fun _ h => .inr h)
  | addPublicKey i u u' hv h1 =>
    simp only [exec, Database.addPublicKey, hv, h1]
    exact finish_committed nd (db.setUser i u') fs req _ (fun _ h => .inr h)
  | deletePublicKey i u u' hv h1 =>
    simp only [exec, Database.deletePublicKey, hv, h1]
    exact finish_committed nd (db.setUser i u') fs req _ (fun _ h => .inr h)
  | changeUserPassword i u u' hv hpol h1 =>
    simp only [exec, Database.changeUserPassword, hv, hpol, h1]
    exact finish_committed nd (db.setUser i u') fs req _ (fun _ h => .inr h)
  | addMfaToken i u u' req' hv h1 =>
    simp only [exec, Database.addMfaToken, hv, h1]
    exact finish_committed nd (db.setUser i u') fs req' _ (fun _ h => .inr h)
  | deleteMfaToken i u u' hv h1 =>
    simp only [exec, Database.deleteMfaToken, hv, h1]
    exact finish_committed nd (db.setUser i u') fs req _ (fun _ h => .inr h)
  | addAPIKey i u u' s hash hv hs hl h1 =>
    simp only [exec, Database.addAPIKey, hv, hs, hl, h1]
    exact finish_committed nd { db.setUser i u' with refAPIKey := upd db.refAPIKey (s.take 24) (some i) } fs _ _
      (fun _ h => .inr h)
  | deleteAPIKey i u u' key hv h1 =>
    simp only [exec, Database.deleteAPIKey, hv, h1]
    exact finish_committed nd { db.setUser i u' with refAPIKey := upd db.refAPIKey key.pfx none } fs _ _
      (fun _ h => .inr h)

/-- What a call does in memory does not depend on the outcome of its file write. -/
theorem Mutation.io {nd : Nondet} {req : Request} {db db' : Database} {c : Call} (m : Mutation nd req db c db')
    (w : WriteOutcome) : Mutation { nd with io := w } req db c db' := by
  have hloop : ∀ (s : GoString) (n a f : Nat),
      db.keyLoop { nd with io := w } s n a f = db.keyLoop nd s n a f := by
    intro s n
    induction n with
    | zero => intro a f; rfl
    | succ n ih =>
      intro a f
      unfold Database.keyLoop
      simp only [ih]
  cases m with
  | save => exact .save
  | copy fp => exact .copy fp
  | addUser user emails hpol hnew hname hemails => exact .addUser (nd := { nd with io := w }) user emails hpol hnew hname hemails
  | addPublicKey i u u' hv h1 => exact .addPublicKey i u u' hv h1
  | deletePublicKey i u u' hv h1 => exact .deletePublicKey i u u' hv h1
  | changeUserPassword i u u' hv hpol h1 => exact .changeUserPassword i u u' hv hpol h1
  | addMfaToken i u u' req' hv h1 => exact .addMfaToken i u u' req' hv h1
  | deleteMfaToken i u u' hv h1 => exact .deleteMfaToken i u u' hv h1
  | addAPIKey i u u' s hash hv hs hl h1 => exact .addAPIKey i u u' s hash hv hs ((hloop ..).trans hl) h1
  | deleteAPIKey i u u' key hv h1 => exact .deleteAPIKey i u u' key hv h1

end GoIdentity
