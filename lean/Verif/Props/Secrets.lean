import Verif.Props.ApiKeys
import Verif.Props.Passwords
/-!
# Secrets are kept only as hashes: C64
-/
namespace GoIdentity
open Toy

/-! ## C64 -/

/-- Two passwords for which Blowfish yields the same 23 bytes under the given salt (if there is one), and that are both blank or
both not. -/
def SameHash [Ext] (salt : Option GoString) (p q : GoString) : Prop :=
  (trimSpace p = [] ↔ trimSpace q = []) ∧
  ∀ s, salt = some s → (Ext.bcryptRaw 10 (buffer 16 s) (bcryptKey (trimSpace p))).take 23 =
    (Ext.bcryptRaw 10 (buffer 16 s) (bcryptKey (trimSpace q))).take 23

/-- Then the whole text of the hash is the same. -/
private theorem SameHash.text [Ext] {salt : Option GoString} {p q s : GoString} (h : SameHash salt p q) (hs : salt = some s) :
    bcryptText 10 s (trimSpace p) = bcryptText 10 s (trimSpace q) := by
  have hb : ∀ x : GoString, buffer 23 x = buffer 23 (x.take 23) := by
    intro x
    unfold buffer
    rcases Nat.le_total x.length 23 with hl | hl
    · rw [List.take_of_length_le hl]
    · rw [List.take_append_of_le_length hl, List.take_append_of_le_length (by rw [List.length_take]; omega), List.take_take,
        Nat.min_self]
  unfold bcryptText bcryptDigest
  rw [hb, h.2 s hs, ← hb]

/-- The request with the password replaced. -/
def Request.withPassword (r : Request) (q : GoString) : Request := { r with user := { r.user with password := q } }

/-- The request with the old password replaced. -/
def Request.withOldPassword (r : Request) (q : GoString) : Request := { r with user := { r.user with oldPassword := q } }

private theorem deref_mem {db : Database} {r : Option Nat} {i : Nat} {u : User} (h : db.deref r = some (i, u)) :
    u ∈ db.users := by
  unfold Database.deref at h
  cases r with
  | none => simp at h
  | some j =>
    simp only [Option.map_eq_some_iff, Prod.mk.injEq] at h
    obtain ⟨v, hv, _, rfl⟩ := h
    exact List.mem_of_getElem? hv

private theorem getUser_mem [Ext] {db : Database} {s : GoString} {i : Nat} {u : User} (h : db.getUser s = some (i, u)) :
    u ∈ db.users := by
  unfold Database.getUser Database.getUserByEmailAddress Database.getUserByUsername at h
  split at h <;> split at h <;> first | exact deref_mem h | simp at h

private theorem validate_mem [Ext] {db : Database} {a b : GoString} {i : Nat} {u : User}
    (h : db.validateUserIdentity a b = .ok (i, u)) : u ∈ db.users := by
  unfold Database.validateUserIdentity at h
  cases h1 : db.getUserByUsername a with
  | none => rw [h1] at h; simp at h
  | some x =>
    obtain ⟨j, v⟩ := x
    rw [h1] at h
    have hv : v ∈ db.users := by
      unfold Database.getUserByUsername at h1
      split at h1
      · simp at h1
      · exact deref_mem h1
    dsimp only at h
    split at h
    · simp at h
    · split at h
      · simp at h
      · simp only [Except.ok.injEq, Prod.mk.injEq] at h
        rw [← h.2]; exact hv

private theorem newPassword_same [Ext] {salt : Option GoString} {p q : GoString} (h : SameHash salt p q) (now : Clock) :
    newPassword now salt p = newPassword now salt q := by
  unfold newPassword newPasswordWithOptions
  by_cases hp : trimSpace p = []
  · simp [hp, h.1.1 hp]
  · have hq : trimSpace q ≠ [] := fun e => hp (h.1.2 e)
    simp only [if_neg hp, if_neg hq]
    have : bcryptGenerate (trimSpace p) (if (0 : Int) < 8 then 10 else 0) salt =
        bcryptGenerate (trimSpace q) (if (0 : Int) < 8 then 10 else 0) salt := by
      unfold bcryptGenerate
      cases salt with
      | none => rfl
      | some s => have := h.text (s := s) rfl; simpa using this
    rw [this]

private theorem addPassword_same [Ext] {salt : Option GoString} {p q : GoString} (h : SameHash salt p q) (now : Clock)
    (keep : Int) (u : User) : u.addPassword now salt p keep = u.addPassword now salt q keep := by
  unfold User.addPassword; rw [newPassword_same h]

private theorem policy_same (pol : Policy) {p q : GoString} (h : q.length = p.length) :
    checkPasswordPolicy pol q = checkPasswordPolicy pol p := by
  unfold checkPasswordPolicy; rw [h]

/-- C64: what `AddUser` stores, writes and returns depends on the password only through its length (the policy), whether it
is blank, and its bcrypt hash. -/
theorem C64_add_user_stores_hash [Ext] (nd : Nondet) (db : Database) (fs : FS) (req : Request) (q : GoString)
    (hl : q.length = req.user.password.length) (hh : SameHash (nd.salts 0) req.user.password q) :
    let r := exec .addUser nd db fs req
    let r' := exec .addUser nd db fs (req.withPassword q)
    r'.db = r.db ∧ r'.fs = r.fs ∧ r'.out = r.out ∧ r'.req = r.req.withPassword q := by
  have hc : checkPolicy db.policy req.user.username q = checkPolicy db.policy req.user.username req.user.password := by
    unfold checkPolicy; rw [policy_same _ hl]
  have hn : User.newWithRoles nd req.user.username q req.user.email req.user.fullName req.user.roles =
      User.newWithRoles nd req.user.username req.user.password req.user.email req.user.fullName req.user.roles := by
    unfold User.newWithRoles; rw [addPassword_same hh]
  simp only [exec, Database.addUser, Request.withPassword, hc, hn]
  split
  · exact ⟨rfl, rfl, rfl, rfl⟩
  · split
    · exact ⟨rfl, rfl, rfl, rfl⟩
    · exact ⟨rfl, rfl, rfl, rfl⟩
    · split
      · exact ⟨rfl, rfl, rfl, rfl⟩
      · split
        · exact ⟨rfl, rfl, rfl, rfl⟩
        · unfold Database.finish
          split <;> simp

/-- C64: likewise `ChangeUserPassword` and the new password. -/
theorem C64_change_password_stores_hash [Ext] (nd : Nondet) (db : Database) (fs : FS) (req : Request) (q : GoString)
    (hl : q.length = req.user.password.length) (hh : SameHash (nd.salts 0) req.user.password q) :
    let r := exec .changeUserPassword nd db fs req
    let r' := exec .changeUserPassword nd db fs (req.withPassword q)
    r'.db = r.db ∧ r'.fs = r.fs ∧ r'.out = r.out ∧ r'.req = r.req.withPassword q := by
  have hn : ∀ (u : User) (k : Int), u.changePassword nd req.user.oldPassword q k =
      u.changePassword nd req.user.oldPassword req.user.password k := by
    intro u k
    unfold User.changePassword; rw [addPassword_same hh]
  simp only [exec, Database.changeUserPassword, Request.withPassword, policy_same _ hl, hn]
  split
  · exact ⟨rfl, rfl, rfl, rfl⟩
  · split
    · exact ⟨rfl, rfl, rfl, rfl⟩
    · split
      · exact ⟨rfl, rfl, rfl, rfl⟩
      · exact ⟨rfl, rfl, rfl, rfl⟩
      · unfold Database.finish
        split <;> simp

/-- The live passwords of the user that accept `q` exist. -/
def User.Accepts [Ext] (u : User) (q : GoString) : Prop :=
  ∃ p ∈ u.passwords, p.disabled = false ∧ p.expired = false ∧ bcryptMatch p.hash q = true

private theorem matchAny_accepts [Ext] (u : User) (q : GoString) :
    User.matchAny q u.passwords = true ↔ u.Accepts q := by
  unfold User.Accepts
  induction u.passwords with
  | nil => simp [User.matchAny]
  | cons p ps ih =>
    unfold User.matchAny
    simp only [List.mem_cons, exists_eq_or_imp]
    cases hd : p.disabled <;> cases he : p.expired <;> simp [ih, Password.accepts]
    by_cases hb : bcryptMatch p.hash q = true <;> simp [hb, ih]

private theorem verifyPassword_same [Ext] {u : User} {p q : GoString} (h : u.Accepts p ↔ u.Accepts q) :
    u.verifyPassword p = u.verifyPassword q := by
  unfold User.verifyPassword
  have : User.matchAny p u.passwords = User.matchAny q u.passwords := by
    rw [Bool.eq_iff_iff, matchAny_accepts, matchAny_accepts, h]
  rw [this]

/-- C64: the old password matters to `ChangeUserPassword` only through whether the stored hashes accept it. -/
theorem C64_old_password_only_checked [Ext] (nd : Nondet) (db : Database) (fs : FS) (req : Request) (q : GoString)
    (hh : ∀ u ∈ db.users, u.Accepts req.user.oldPassword ↔ u.Accepts q) :
    let r := exec .changeUserPassword nd db fs req
    let r' := exec .changeUserPassword nd db fs (req.withOldPassword q)
    r'.db = r.db ∧ r'.fs = r.fs ∧ r'.out = r.out ∧ r'.req = r.req.withOldPassword q := by
  have hn : ∀ u ∈ db.users, ∀ k : Int, u.changePassword nd q req.user.password k =
      u.changePassword nd req.user.oldPassword req.user.password k := by
    intro u hu k
    unfold User.changePassword; rw [verifyPassword_same (hh u hu)]
  simp only [exec, Database.changeUserPassword, Request.withOldPassword]
  cases hv : db.validateUserIdentity req.user.username req.user.email with
  | error e => exact ⟨rfl, rfl, rfl, rfl⟩
  | ok iu =>
    obtain ⟨i, u⟩ := iu
    have hu : u ∈ db.users := validate_mem hv
    dsimp only
    split
    · exact ⟨rfl, rfl, rfl, rfl⟩
    · rw [hn u hu]
      split
      · exact ⟨rfl, rfl, rfl, rfl⟩
      · exact ⟨rfl, rfl, rfl, rfl⟩
      · unfold Database.finish
        split <;> simp

/-- C64: the password matters to `AuthenticateUser` only through whether the stored hashes accept it; the error does not tell
two refused passwords apart. -/
theorem C64_authentication_only_checks [Ext] (nd : Nondet) (db : Database) (fs : FS) (req : Request) (q : GoString)
    (hp : req.user.password ≠ []) (hq : q ≠ []) (hh : ∀ u ∈ db.users, u.Accepts req.user.password ↔ u.Accepts q) :
    let r := exec .authenticateUser nd db fs req
    let r' := exec .authenticateUser nd db fs (req.withPassword q)
    r'.db = r.db ∧ r'.fs = r.fs ∧ r'.out = r.out ∧ r'.req = r.req.withPassword q := by
  have key : ∀ rq : Request, rq.user.password ≠ [] → exec .authenticateUser nd db fs rq =
      match db.getUser rq.user.username with
      | none => db.failWith fs (Database.setCode rq 400) (.withE .authFailed [] (.std .databaseUserNotFound))
      | some (_, u) =>
        match u.verifyPassword rq.user.password with
        | some e => db.failWith fs (Database.setCode rq 400) (.withE .authFailed [] e)
        | none => ⟨db, fs, Database.setCode rq 200, .success⟩ := by
    intro rq h
    simp only [exec, Database.authenticateUser, if_pos h]
    rfl
  rw [key req hp, key (req.withPassword q) hq]
  simp only [Request.withPassword]
  cases hg : db.getUser req.user.username with
  | none => exact ⟨rfl, rfl, rfl, rfl⟩
  | some iu =>
    obtain ⟨i, u⟩ := iu
    have hu : u ∈ db.users := getUser_mem hg
    dsimp only
    rw [verifyPassword_same (hh u hu)]
    split <;> exact ⟨rfl, rfl, rfl, rfl⟩

/-- `r'` is what `r` is, but for the request, which differs by `f`. -/
private def Same (f : Request → Request) (r r' : Result) : Prop :=
  r'.db = r.db ∧ r'.fs = r.fs ∧ r'.out = r.out ∧ r'.req = f r.req

private theorem finish_same [Ext] (f : Request → Request) (nd : Nondet) (db : Database) (fs : FS) (req : Request)
    (w : GoErr → GoErr) : Same f (db.finish nd fs req w) (db.finish nd fs (f req) w) := by
  unfold Database.finish
  split <;> exact ⟨rfl, rfl, rfl, rfl⟩

/-- A change of the two passwords of a request. -/
private def twist (p o : GoString → GoString) (r : Request) : Request :=
  { r with user := { r.user with password := p r.user.password, oldPassword := o r.user.oldPassword } }

private theorem newMfaToken_twist [Ext] (p o : GoString → GoString) (nd : Nondet) (req : Request) :
    newMfaToken nd (twist p o req) = ((newMfaToken nd req).1, twist p o (newMfaToken nd req).2) := by
  unfold newMfaToken
  dsimp only [twist]
  split
  · rfl
  · split
    · rfl
    · split <;> rfl

private theorem addMfaToken_twist [Ext] (p o : GoString → GoString) (nd : Nondet) (req : Request) (u : User) :
    u.addMfaToken nd (twist p o req) = ((u.addMfaToken nd req).1, twist p o (u.addMfaToken nd req).2) := by
  unfold User.addMfaToken
  rw [newMfaToken_twist]
  cases h : newMfaToken nd req with
  | mk a b =>
    cases a with
    | err e => rfl
    | panic => rfl
    | ok t =>
      dsimp only
      split <;> rfl

private theorem twist_same [Ext] (p o : GoString → GoString) (c : Call)
    (hc : c ∉ [Call.addUser, .changeUserPassword, .authenticateUser]) (nd : Nondet) (db : Database) (fs : FS)
    (req : Request) : Same (twist p o) (exec c nd db fs req) (exec c nd db fs (twist p o req)) := by
  have hv : (twist p o req).user.username = req.user.username := rfl
  have he : (twist p o req).user.email = req.user.email := rfl
  have hk : (twist p o req).key = req.key := rfl
  have hm : (twist p o req).mfaToken = req.mfaToken := rfl
  have hfl : (twist p o req).flags = req.flags := rfl
  cases c with
  | addUser => simp at hc
  | changeUserPassword => simp at hc
  | authenticateUser => simp at hc
  | getUsers =>
    simp only [exec, Database.getUsers, hv, he]; split <;> exact ⟨rfl, rfl, rfl, rfl⟩
  | getUser =>
    simp only [exec, Database.getUserCall, hv, he]; split <;> exact ⟨rfl, rfl, rfl, rfl⟩
  | deleteUser =>
    simp only [exec, Database.deleteUser, hv, he]; split <;> exact ⟨rfl, rfl, rfl, rfl⟩
  | save => exact finish_same _ ..
  | copy fp =>
    simp only [exec, Database.copy]; split <;> exact ⟨rfl, rfl, rfl, rfl⟩
  | addPublicKey =>
    simp only [exec, Database.addPublicKey, hv, he, hk]
    split
    · exact ⟨rfl, rfl, rfl, rfl⟩
    · split
      · exact ⟨rfl, rfl, rfl, rfl⟩
      · exact ⟨rfl, rfl, rfl, rfl⟩
      · exact finish_same _ ..
  | getPublicKeys =>
    simp only [exec, Database.getPublicKeys, hv, he, hk]; split <;> exact ⟨rfl, rfl, rfl, rfl⟩
  | deletePublicKey =>
    simp only [exec, Database.deletePublicKey, hv, he, hk]
    split
    · exact ⟨rfl, rfl, rfl, rfl⟩
    · split
      · exact ⟨rfl, rfl, rfl, rfl⟩
      · exact ⟨rfl, rfl, rfl, rfl⟩
      · exact finish_same _ ..
  | addAPIKey =>
    simp only [exec, Database.addAPIKey, hv, he, hk]
    split
    · exact ⟨rfl, rfl, rfl, rfl⟩
    · split
      · exact ⟨rfl, rfl, rfl, rfl⟩
      · exact ⟨rfl, rfl, rfl, rfl⟩
      · split
        · exact ⟨rfl, rfl, rfl, rfl⟩
        · exact ⟨rfl, rfl, rfl, rfl⟩
        · split
          · exact ⟨rfl, rfl, rfl, rfl⟩
          · exact ⟨rfl, rfl, rfl, rfl⟩
          · exact finish_same (twist p o) ..
  | deleteAPIKey =>
    simp only [exec, Database.deleteAPIKey, hv, he, hk]
    split
    · exact ⟨rfl, rfl, rfl, rfl⟩
    · split
      · exact ⟨rfl, rfl, rfl, rfl⟩
      · exact ⟨rfl, rfl, rfl, rfl⟩
      · exact finish_same (twist p o) ..
  | getAPIKeys =>
    simp only [exec, Database.getAPIKeys, hv, he, hk]; split <;> exact ⟨rfl, rfl, rfl, rfl⟩
  | identifyUser =>
    simp only [exec, Database.identifyUser, hv, hfl]
    split
    · exact ⟨rfl, rfl, rfl, rfl⟩
    · split <;> exact ⟨rfl, rfl, rfl, rfl⟩
  | lookupAPIKey =>
    simp only [exec, Database.lookupAPIKey, hk]
    split
    · exact ⟨rfl, rfl, rfl, rfl⟩
    · split
      · exact ⟨rfl, rfl, rfl, rfl⟩
      · split
        · exact ⟨rfl, rfl, rfl, rfl⟩
        · split <;> exact ⟨rfl, rfl, rfl, rfl⟩
  | addMfaToken =>
    simp only [exec, Database.addMfaToken, hv, he]
    split
    · exact ⟨rfl, rfl, rfl, rfl⟩
    · rw [addMfaToken_twist]
      split
      · rename_i h; rw [h]; exact ⟨rfl, rfl, rfl, rfl⟩
      · rename_i h; rw [h]; exact ⟨rfl, rfl, rfl, rfl⟩
      · rename_i h; rw [h]; exact finish_same _ ..
  | getMfaTokens =>
    simp only [exec, Database.getMfaTokens, hv, he]; split <;> exact ⟨rfl, rfl, rfl, rfl⟩
  | deleteMfaToken =>
    simp only [exec, Database.deleteMfaToken, hv, he, hm]
    split
    · exact ⟨rfl, rfl, rfl, rfl⟩
    · split
      · exact ⟨rfl, rfl, rfl, rfl⟩
      · exact ⟨rfl, rfl, rfl, rfl⟩
      · exact finish_same _ ..

/-- C64: no other call reads the password, and none but `ChangeUserPassword` the old one. -/
theorem C64_no_other_call_reads_password [Ext] (c : Call) (nd : Nondet) (db : Database) (fs : FS) (req : Request)
    (q : GoString) :
    (c ∉ [Call.addUser, .changeUserPassword, .authenticateUser] →
      let r := exec c nd db fs req
      let r' := exec c nd db fs (req.withPassword q)
      r'.db = r.db ∧ r'.fs = r.fs ∧ r'.out = r.out ∧ r'.req = r.req.withPassword q) ∧
    (c ≠ Call.changeUserPassword →
      let r := exec c nd db fs req
      let r' := exec c nd db fs (req.withOldPassword q)
      r'.db = r.db ∧ r'.fs = r.fs ∧ r'.out = r.out ∧ r'.req = r.req.withOldPassword q) := by
  refine ⟨fun hc => twist_same (fun _ => q) id c hc nd db fs req, fun hc => ?_⟩
  by_cases h : c ∈ [Call.addUser, .changeUserPassword, .authenticateUser]
  · simp only [List.mem_cons, List.not_mem_nil, or_false] at h
    rcases h with rfl | rfl | rfl
    · simp only [exec, Database.addUser, Request.withOldPassword]
      split
      · exact ⟨rfl, rfl, rfl, rfl⟩
      · split
        · exact ⟨rfl, rfl, rfl, rfl⟩
        · exact ⟨rfl, rfl, rfl, rfl⟩
        · split
          · exact ⟨rfl, rfl, rfl, rfl⟩
          · split
            · exact ⟨rfl, rfl, rfl, rfl⟩
            · exact finish_same (fun r => r.withOldPassword q) ..
    · exact absurd rfl hc
    · have h1 : (req.withOldPassword q).user.password = req.user.password := rfl
      have h2 : (req.withOldPassword q).user.username = req.user.username := rfl
      have h3 : (req.withOldPassword q).webAuthn = req.webAuthn := rfl
      simp only [exec, Database.authenticateUser, h1, h2, h3]
      split
      · exact ⟨rfl, rfl, rfl, rfl⟩
      · split
        · split <;> exact ⟨rfl, rfl, rfl, rfl⟩
        · split
          · split <;> exact ⟨rfl, rfl, rfl, rfl⟩
          · exact ⟨rfl, rfl, rfl, rfl⟩
  · exact twist_same id (fun _ => q) c h nd db fs req

/-- The secret that `AddAPIKey` draws. -/
def drawnSecret (nd : Nondet) : GoString := gen nd.seedRand 0 (nd.globalRand 0 % 24 + 72) charset

/-- C64: what `AddAPIKey` stores, writes and returns depends on the secret only through its first 24 bytes (the stored prefix)
and its bcrypt hashes; the secret itself appears in the response and nowhere else.  (`id` is what the generator yields after
the secret.) -/
theorem C64_api_key_stores_prefix_and_hash [Ext] (nd : Nondet) (g : Nat → Nat) (db : Database) (fs : FS) (req : Request) :
    let nd' := { nd with seedRand := g }
    (drawnSecret nd').take 24 = (drawnSecret nd).take 24 →
    (∀ n, SameHash (nd.salts n) (drawnSecret nd) (drawnSecret nd')) →
    (∀ i < 40, g ((drawnSecret nd).length + i) = nd.seedRand ((drawnSecret nd).length + i)) →
    let r := exec .addAPIKey nd db fs req
    let r' := exec .addAPIKey nd' db fs req
    r'.db = r.db ∧ r'.fs = r.fs ∧ r'.out = r.out ∧
      (r.out = .success → r.req.response.payload = .secret (drawnSecret nd) ∧
        r'.req = { r.req with response := { r.req.response with payload := .secret (drawnSecret nd') } }) := by
  intro nd' hp hh hi
  have e1 : getRandomStringFromRange nd.globalRand nd.seedRand 72 96 = .ok (drawnSecret nd) := rfl
  have e2 : getRandomStringFromRange nd'.globalRand nd'.seedRand 72 96 = .ok (drawnSecret nd') := rfl
  have hl : (drawnSecret nd').length = (drawnSecret nd).length := by simp [drawnSecret, gen, nd']
  have hid : getRandomString nd'.seedRand (drawnSecret nd').length 40 =
      getRandomString nd.seedRand (drawnSecret nd).length 40 := by
    rw [hl]
    simp only [getRandomString, gen]
    refine List.map_congr_left fun i hi' => ?_
    have : i < 40 := by simpa using hi'
    show charset.getD (g _ % _) 0 = _
    rw [hi i this]
  have hloop : ∀ fuel a f, Database.keyLoop nd' db (drawnSecret nd') fuel a f =
      Database.keyLoop nd db (drawnSecret nd) fuel a f := by
    intro fuel
    induction fuel with
    | zero => intros; rfl
    | succ n ih =>
      intro a f
      unfold Database.keyLoop
      have : newPassword nd'.now (nd'.salts a) (drawnSecret nd') = newPassword nd.now (nd.salts a) (drawnSecret nd) :=
        (newPassword_same (hh a) _).symm
      rw [this, hp]
      simp only [ih]
  simp only [exec, Database.addAPIKey, e1, e2, hid, hp]
  have hfuel : nd'.fuel = nd.fuel := rfl
  rw [hfuel, hloop]
  split
  · exact ⟨rfl, rfl, rfl, fun h => by simp [Database.failWith] at h⟩
  · split
    · exact ⟨rfl, rfl, rfl, fun h => by simp at h⟩
    · exact ⟨rfl, rfl, rfl, fun h => by simp [Database.failWith] at h⟩
    · have hnow : nd'.now = nd.now := rfl
      rw [hnow]
      split
      · exact ⟨rfl, rfl, rfl, fun h => by simp [Database.failWith] at h⟩
      · exact ⟨rfl, rfl, rfl, fun h => by simp at h⟩
      · unfold Database.finish
        have : ∀ d : Database, d.commit nd' fs = d.commit nd fs := fun _ => rfl
        simp only [this]
        split <;> exact ⟨rfl, rfl, rfl, fun _ => ⟨rfl, rfl⟩⟩

/-! A world in which bcrypt forgets its key shows the hypotheses at work: the database then says nothing about the password. -/

/-- bcrypt replaced by a constant. -/
@[reducible] def blindExt : Ext := { Toy.toyExt with bcryptRaw := fun _ _ _ => [36] }

example : @SameHash blindExt (some [1]) (gs! "password1") (gs! "hunter222") := ⟨by decide, fun _ _ => rfl⟩
example : (@exec blindExt .addUser nd db0 fs1 reqJoe).out = .success := by decide +kernel
-- In the toy world two passwords hash alike if bcrypt's key schedule does not tell them apart.
example : SameHash (some [1]) [97, 0, 97] [97] ∧ ¬ SameHash (some [1]) [97] [98] := by
  refine ⟨⟨by decide, fun s _ => by rw [show bcryptKey (trimSpace [97, 0, 97]) = bcryptKey (trimSpace [97]) by decide]⟩, fun h => ?_⟩
  have := h.2 [1] rfl
  revert this; decide +kernel

-- Two different API secrets with the same prefix and the same identifier after them.
example :
    let nd' := { nd with seedRand := fun i => if i = 30 then 5 else i }
    (drawnSecret nd').take 24 = (drawnSecret nd).take 24 ∧ drawnSecret nd' ≠ drawnSecret nd ∧
      ∀ i < 40, nd'.seedRand ((drawnSecret nd).length + i) = nd.seedRand ((drawnSecret nd).length + i) := by
  decide +kernel

end GoIdentity
