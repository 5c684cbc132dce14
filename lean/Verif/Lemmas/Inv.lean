import Verif.Lemmas.Exec
import Verif.Lemmas.UserOps
/-!
# The invariant relating the lookup maps and the stored users
-/
set_option linter.unusedSectionVars false
namespace GoIdentity
variable [Ext]

/-- The lookup maps describe exactly the stored users (for API keys: at least the stored keys). -/
structure Inv (db : Database) : Prop where
  name_ref : ∀ i u, db.users[i]? = some u → db.refUsername (toLower u.username) = some i
  name_src : ∀ s i, db.refUsername s = some i → ∃ u, db.users[i]? = some u ∧ toLower u.username = s
  email_ref : ∀ i u e, db.users[i]? = some u → e ∈ u.emailAddresses → db.refEmailAddress (toLower e.address) = some i
  email_src : ∀ s i, db.refEmailAddress s = some i →
    ∃ u, db.users[i]? = some u ∧ ∃ e ∈ u.emailAddresses, toLower e.address = s
  email_nodup : ∀ u ∈ db.users, (u.emailAddresses.map fun e => toLower e.address).Nodup
  id_ref : ∀ (i : Nat) (u : User), db.users[i]? = some u → (db.refID u.id).isSome = true
  id_src : ∀ s i, db.refID s = some i → ∃ u, db.users[i]? = some u ∧ u.id = s
  api_ref : ∀ i u k, db.users[i]? = some u → k ∈ u.apiKeys → db.refAPIKey k.pfx = some i
  api_bound : ∀ p i, db.refAPIKey p = some i → i < db.users.length
  api_nodup : ∀ u ∈ db.users, (u.apiKeys.map (·.pfx)).Nodup

theorem upd_same {α β : Type} [DecidableEq α] (f : α → β) (k : α) (v : β) : upd f k v k = v := by simp [upd]
theorem upd_other {α β : Type} [DecidableEq α] (f : α → β) {k x : α} (v : β) (h : x ≠ k) : upd f k v x = f x := by
  simp [upd, h]

theorem inj_of_nodup_map {α β : Type} {f : α → β} {l : List α} (h : (l.map f).Nodup) {x y : α} (hx : x ∈ l)
    (hy : y ∈ l) (hxy : f x = f y) : x = y := by
  induction l with
  | nil => simp at hx
  | cons a l ih =>
    rw [List.map_cons, List.nodup_cons] at h
    rcases List.mem_cons.1 hx with rfl | hx' <;> rcases List.mem_cons.1 hy with rfl | hy'
    · rfl
    · exact absurd (List.mem_map.2 ⟨y, hy', hxy.symm⟩) h.1
    · exact absurd (List.mem_map.2 ⟨x, hx', hxy⟩) h.1
    · exact ih h.2 hx' hy'

theorem Inv.touch {db : Database} (h : Inv db) (now : GoTime) : Inv (db.touch now) :=
  ⟨h.name_ref, h.name_src, h.email_ref, h.email_src, h.email_nodup, h.id_ref, h.id_src, h.api_ref, h.api_bound,
    h.api_nodup⟩

theorem inv_empty (fp : GoString) : Inv (Database.empty fp) := by
  constructor <;> simp [Database.empty, DBData.zero]

/-- Appending a user whose names, addresses and prefixes are all new. -/
theorem inv_append {db db' : Database} (h : Inv db) (u : User)
    (husers : db'.users = db.users ++ [u])
    (hname : db.refUsername (toLower u.username) = none)
    (hname' : db'.refUsername = upd db.refUsername (toLower u.username) (some db.users.length))
    (hid' : db'.refID = upd db.refID u.id (some db.users.length))
    (hem : ∀ e ∈ u.emailAddresses, db.refEmailAddress (toLower e.address) = none)
    (hemn : (u.emailAddresses.map fun e => toLower e.address).Nodup)
    (hem' : ∀ s, db'.refEmailAddress s =
      if s ∈ u.emailAddresses.map (fun e => toLower e.address) then some db.users.length else db.refEmailAddress s)
    (hapi : ∀ k ∈ u.apiKeys, db.refAPIKey k.pfx = none)
    (hapin : (u.apiKeys.map (·.pfx)).Nodup)
    (hapi' : ∀ p, db'.refAPIKey p =
      if p ∈ u.apiKeys.map (·.pfx) then some db.users.length else db.refAPIKey p) : Inv db' := by
  have hget : ∀ i v, db'.users[i]? = some v → db.users[i]? = some v ∨ (i = db.users.length ∧ v = u) := by
    intro i v hv
    rw [husers, List.getElem?_append] at hv
    split at hv
    · exact .inl hv
    · rename_i hlt
      have : i - db.users.length = 0 := by
        rcases Nat.eq_zero_or_pos (i - db.users.length) with h0 | h0
        · exact h0
        · rw [List.getElem?_eq_none (by simp; omega)] at hv; simp at hv
      rw [this] at hv
      simp at hv
      exact .inr ⟨by omega, hv.symm⟩
  have hold : ∀ {i : Nat} {v : User}, db.users[i]? = some v → db'.users[i]? = some v := by
    intro i v hv
    obtain ⟨hlt, _⟩ := List.getElem?_eq_some_iff.1 hv
    rw [husers, List.getElem?_append_left hlt]
    exact hv
  have hnew : db'.users[db.users.length]? = some u := by rw [husers]; simp
  constructor
  · intro i v hv
    rw [hname']
    rcases hget i v hv with h1 | ⟨rfl, rfl⟩
    · have := h.name_ref i v h1
      rw [upd_other]
      · exact this
      · intro hc; rw [hc, hname] at this; simp at this
    · exact upd_same ..
  · intro s i hs
    rw [hname'] at hs
    by_cases hc : s = toLower u.username
    · subst hc
      rw [upd_same] at hs
      simp at hs
      subst hs
      exact ⟨u, hnew, rfl⟩
    · rw [upd_other _ _ hc] at hs
      obtain ⟨v, hv, he⟩ := h.name_src s i hs
      exact ⟨v, hold hv, he⟩
  · intro i v e hv he
    rw [hem']
    rcases hget i v hv with h1 | ⟨rfl, rfl⟩
    · have hr := h.email_ref i v e h1 he
      rw [if_neg]
      · exact hr
      · intro hc
        obtain ⟨e', he', heq⟩ := List.mem_map.1 hc
        have := hem e' he'
        rw [heq, hr] at this
        simp at this
    · rw [if_pos (List.mem_map.2 ⟨e, he, rfl⟩)]
  · intro s i hs
    rw [hem'] at hs
    split at hs
    · rename_i hc
      obtain ⟨e, he, heq⟩ := List.mem_map.1 hc
      simp at hs
      subst hs
      exact ⟨u, hnew, e, he, heq⟩
    · obtain ⟨v, hv, e, he, heq⟩ := h.email_src s i hs
      exact ⟨v, hold hv, e, he, heq⟩
  · intro v hv
    rw [husers, List.mem_append] at hv
    rcases hv with hv | hv
    · exact h.email_nodup v hv
    · simp at hv; exact hv ▸ hemn
  · intro i v hv
    rw [hid']
    by_cases hc : v.id = u.id
    · rw [hc, upd_same]; rfl
    · rw [upd_other _ _ hc]
      rcases hget i v hv with h1 | ⟨rfl, rfl⟩
      · exact h.id_ref i v h1
      · exact absurd rfl hc
  · intro s i hs
    rw [hid'] at hs
    by_cases hc : s = u.id
    · subst hc
      rw [upd_same] at hs
      simp at hs
      subst hs
      exact ⟨u, hnew, rfl⟩
    · rw [upd_other _ _ hc] at hs
      obtain ⟨v, hv, he⟩ := h.id_src s i hs
      exact ⟨v, hold hv, he⟩
  · intro i v k hv hk
    rw [hapi']
    rcases hget i v hv with h1 | ⟨rfl, rfl⟩
    · have hr := h.api_ref i v k h1 hk
      rw [if_neg]
      · exact hr
      · intro hc
        obtain ⟨k', hk', heq⟩ := List.mem_map.1 hc
        have := hapi k' hk'
        rw [heq, hr] at this
        simp at this
    · rw [if_pos (List.mem_map.2 ⟨k, hk, rfl⟩)]
  · intro p i hp
    rw [hapi'] at hp
    rw [husers]
    split at hp
    · simp at hp; simp; omega
    · have := h.api_bound p i hp
      simp; omega
  · intro v hv
    rw [husers, List.mem_append] at hv
    rcases hv with hv | hv
    · exact h.api_nodup v hv
    · simp at hv; exact hv ▸ hapin

/-- Replacing a user's record by one with the same ID, username and addresses, with a matching API-key map. -/
theorem inv_setUser {db db' : Database} {i : Nat} {u u' : User} {ref' : GoString → Option Nat}
    (hdb' : db' = { db.setUser i u' with refAPIKey := ref' }) (h : Inv db) (hi : db.users[i]? = some u)
    (hid : u'.id = u.id) (hun : u'.username = u.username) (hem : u'.emailAddresses = u.emailAddresses)
    (hown : ∀ k ∈ u'.apiKeys, ref' k.pfx = some i)
    (hother : ∀ j v k, j ≠ i → db.users[j]? = some v → k ∈ v.apiKeys → ref' k.pfx = some j)
    (hbound : ∀ p j, ref' p = some j → j < db.users.length)
    (hnodup : (u'.apiKeys.map (·.pfx)).Nodup) :
    Inv db' := by
  subst hdb'
  have hlt : i < db.users.length := (List.getElem?_eq_some_iff.1 hi).1
  have hget : ∀ j v, (db.users.set i u')[j]? = some v → (j = i ∧ v = u') ∨ (j ≠ i ∧ db.users[j]? = some v) := by
    intro j v hv
    rw [List.getElem?_set] at hv
    split at hv
    · rename_i hij
      subst hij
      simp at hv
      exact .inl ⟨rfl, hv.symm⟩
    · rename_i hij
      exact .inr ⟨fun hc => hij hc.symm, hv⟩
  have hset : (db.users.set i u')[i]? = some u' := by simp [hlt]
  have hkeep : ∀ {j : Nat} {v : User}, j ≠ i → db.users[j]? = some v → (db.users.set i u')[j]? = some v := by
    intro j v hj hv
    rw [List.getElem?_set_ne (fun hc => hj hc.symm)]
    exact hv
  have hmem : ∀ v ∈ db.users.set i u', v = u' ∨ v ∈ db.users := by
    intro v hv
    exact (List.mem_or_eq_of_mem_set hv).symm
  have humem : u ∈ db.users := List.mem_of_getElem? hi
  constructor
  · intro j v hv
    rcases hget j v hv with ⟨rfl, rfl⟩ | ⟨_, h1⟩
    · show db.refUsername _ = _
      rw [hun]; exact h.name_ref j u hi
    · exact h.name_ref j v h1
  · intro s j hs
    obtain ⟨v, hv, he⟩ := h.name_src s j hs
    by_cases hj : j = i
    · subst hj
      rw [hi] at hv
      simp at hv
      exact ⟨u', hset, by rw [hun, hv]; exact he⟩
    · exact ⟨v, hkeep hj hv, he⟩
  · intro j v e hv he
    rcases hget j v hv with ⟨rfl, rfl⟩ | ⟨_, h1⟩
    · exact h.email_ref j u e hi (hem ▸ he)
    · exact h.email_ref j v e h1 he
  · intro s j hs
    obtain ⟨v, hv, e, he, heq⟩ := h.email_src s j hs
    by_cases hj : j = i
    · subst hj
      rw [hi] at hv
      simp at hv
      exact ⟨u', hset, e, by rw [hem, hv]; exact he, heq⟩
    · exact ⟨v, hkeep hj hv, e, he, heq⟩
  · intro v hv
    rcases hmem v hv with rfl | h1
    · rw [hem]; exact h.email_nodup u humem
    · exact h.email_nodup v h1
  · intro j v hv
    rcases hget j v hv with ⟨rfl, rfl⟩ | ⟨_, h1⟩
    · show (db.refID _).isSome = _
      rw [hid]; exact h.id_ref j u hi
    · exact h.id_ref j v h1
  · intro s j hs
    obtain ⟨v, hv, he⟩ := h.id_src s j hs
    by_cases hj : j = i
    · subst hj
      rw [hi] at hv
      simp at hv
      exact ⟨u', hset, by rw [hid, hv]; exact he⟩
    · exact ⟨v, hkeep hj hv, he⟩
  · intro j v k hv hk
    rcases hget j v hv with ⟨rfl, rfl⟩ | ⟨hj, h1⟩
    · exact hown k hk
    · exact hother j v k hj h1 hk
  · intro p j hp
    show j < (db.users.set i u').length
    rw [List.length_set]
    exact hbound p j hp
  · intro v hv
    rcases hmem v hv with rfl | h1
    · exact hnodup
    · exact h.api_nodup v h1

/-- The same without touching API keys. -/
theorem inv_setUser' {db : Database} (h : Inv db) {i : Nat} {u u' : User} (hi : db.users[i]? = some u)
    (hid : u'.id = u.id) (hun : u'.username = u.username) (hem : u'.emailAddresses = u.emailAddresses)
    (hapi : u'.apiKeys = u.apiKeys) : Inv (db.setUser i u') := by
  have := inv_setUser (db' := db.setUser i u') (ref' := db.refAPIKey) rfl h hi hid hun hem
    (fun k hk => h.api_ref i u k hi (hapi ▸ hk)) (fun j v k _ hv hk => h.api_ref j v k hv hk) h.api_bound
    (by rw [hapi]; exact h.api_nodup u (List.mem_of_getElem? hi))
  exact this

theorem deref_some {db : Database} {r : Option Nat} {i : Nat} {u : User} (h : db.deref r = some (i, u)) :
    r = some i ∧ db.users[i]? = some u := by
  unfold Database.deref at h
  split at h
  · simp at h
  · rename_i j
    simp only [Option.map_eq_some_iff, Prod.mk.injEq] at h
    obtain ⟨v, hv, rfl, rfl⟩ := h
    exact ⟨rfl, hv⟩

theorem getUserByUsername_some {db : Database} {s : GoString} {i : Nat} {u : User}
    (h : db.getUserByUsername s = some (i, u)) :
    2 ≤ s.length ∧ db.refUsername (toLower s) = some i ∧ db.users[i]? = some u := by
  unfold Database.getUserByUsername at h
  split at h
  · simp at h
  · obtain ⟨h1, h2⟩ := deref_some h
    exact ⟨by omega, h1, h2⟩

theorem getUserByEmailAddress_some {db : Database} {s : GoString} {i : Nat} {u : User}
    (h : db.getUserByEmailAddress s = some (i, u)) :
    6 ≤ s.length ∧ db.refEmailAddress (toLower s) = some i ∧ db.users[i]? = some u := by
  unfold Database.getUserByEmailAddress at h
  split at h
  · simp at h
  · obtain ⟨h1, h2⟩ := deref_some h
    exact ⟨by omega, h1, h2⟩

theorem validate_ok {db : Database} {un em : GoString} {i : Nat} {u : User}
    (h : db.validateUserIdentity un em = .ok (i, u)) :
    db.getUserByUsername un = some (i, u) ∧
      ∃ j v, db.getUserByEmailAddress em = some (j, v) ∧ u.id = v.id := by
  unfold Database.validateUserIdentity at h
  split at h
  · simp at h
  · rename_i i1 u1 h1
    split at h
    · simp at h
    · rename_i j v h2
      split at h
      · simp at h
      · rename_i hne
        simp only [Except.ok.injEq, Prod.mk.injEq] at h
        obtain ⟨rfl, rfl⟩ := h
        exact ⟨h1, j, v, h2, by simpa using hne⟩

theorem validate_users {db : Database} {un em : GoString} {i : Nat} {u : User}
    (h : db.validateUserIdentity un em = .ok (i, u)) : db.users[i]? = some u :=
  (getUserByUsername_some (validate_ok h).1).2.2

theorem checkEmails_ok {db : Database} {es : List EmailAddress} {as : List GoString} (h : db.checkEmails es = .ok as) :
    as = es.map (fun e => toLower e.address) ∧ ∀ e ∈ es, db.refEmailAddress (toLower e.address) = none := by
  induction es generalizing as with
  | nil => simp [Database.checkEmails] at h; simp [h]
  | cons e es ih =>
    simp only [Database.checkEmails] at h
    split at h
    · simp at h
    · rename_i hn
      split at h
      · simp at h
      · rename_i as' h'
        simp only [Except.ok.injEq] at h
        obtain ⟨h1, h2⟩ := ih h'
        subst h
        refine ⟨by rw [h1]; rfl, ?_⟩
        intro x hx
        rcases List.mem_cons.1 hx with rfl | hx
        · exact hn
        · exact h2 x hx

theorem keyLoop_found {nd : Nondet} {db : Database} {s hash : GoString} {fuel a f : Nat}
    (h : db.keyLoop nd s fuel a f = .found hash) :
    db.refAPIKey (s.take 24) = none ∧
      ∃ n hk, newPassword nd.now (nd.salts n) s = .ok hk ∧ hk.hash = hash := by
  induction fuel generalizing a f with
  | zero => simp [Database.keyLoop] at h
  | succ n ih =>
    unfold Database.keyLoop at h
    split at h
    · split at h
      · simp at h
      · exact ih h
    · simp at h
    · rename_i hk hhk
      split at h
      · exact ih h
      · rename_i hnone
        simp only [Database.KeyLoop.found.injEq] at h
        exact ⟨hnone, a, hk, hhk, h⟩

/-- A mutation preserves the invariant. -/
theorem Mutation.inv {nd : Nondet} {req : Request} {db db' : Database} {c : Call} (h : Inv db)
    (m : Mutation nd req db c db') : Inv db' := by
  cases m with
  | save => exact h
  | copy fp => exact h
  | addUser user emails hpol hnew hname hemails =>
    obtain ⟨p, e, roles, name, _, _, _, _, _, _, hu⟩ := User.newWithRoles_ok hnew
    obtain ⟨h1, h2⟩ := checkEmails_ok hemails
    refine inv_append h { user with id := db.pickID nd.ids user.id } rfl hname rfl rfl h2 ?_ ?_ ?_ ?_ ?_
    · subst hu; simp
    · intro s
      subst hu
      simp at h1
      subst h1
      simp only [Database.withUser, List.foldl_cons, List.foldl_nil, upd, List.map_cons, List.map_nil,
        List.mem_singleton]
    · subst hu; simp [User.zero]
    · subst hu; simp [User.zero]
    · subst hu; simp [User.zero, Database.withUser]
  | addPublicKey i u u' hv h1 =>
    obtain ⟨key, _, _, rfl⟩ := User.addPublicKey_ok h1
    exact inv_setUser' h (validate_users hv) rfl rfl rfl rfl
  | deletePublicKey i u u' hv h1 =>
    obtain ⟨_, rfl⟩ := User.deletePublicKey_ok h1
    exact inv_setUser' h (validate_users hv) rfl rfl rfl rfl
  | changeUserPassword i u u' hv _ h1 =>
    obtain ⟨_, h2⟩ := User.changePassword_ok h1
    obtain ⟨p, _, rfl⟩ := User.addPassword_ok h2
    exact inv_setUser' h (validate_users hv) rfl rfl rfl rfl
  | addMfaToken i u u' req' hv h1 =>
    obtain ⟨t, _, _, rfl⟩ := User.addMfaToken_ok h1
    exact inv_setUser' h (validate_users hv) rfl rfl rfl rfl
  | deleteMfaToken i u u' hv h1 =>
    obtain ⟨_, rfl⟩ := User.deleteMfaToken_ok h1
    exact inv_setUser' h (validate_users hv) rfl rfl rfl rfl
  | addAPIKey i u u' s hash hv hs hl h1 =>
    obtain ⟨key, hk, rfl⟩ := User.addAPIKey_ok h1
    obtain ⟨_, _, _, rfl⟩ := User.newAPIKey_ok hk
    have hnone := (keyLoop_found hl).1
    have hi := validate_users hv
    refine inv_setUser rfl h hi rfl rfl rfl ?_ ?_ ?_ ?_
    · intro k hk
      rcases List.mem_append.1 hk with hk | hk
      · by_cases hc : k.pfx = s.take 24
        · rw [hc, upd_same]
        · rw [upd_other _ _ hc]; exact h.api_ref i u k hi hk
      · simp at hk; subst hk; exact upd_same ..
    · intro j v k hj hv' hk
      have := h.api_ref j v k hv' hk
      rw [upd_other]
      · exact this
      · intro hc; rw [hc, hnone] at this; simp at this
    · intro p j hp
      by_cases hc : p = s.take 24
      · subst hc
        rw [upd_same] at hp
        simp at hp
        subst hp
        exact (List.getElem?_eq_some_iff.1 hi).1
      · rw [upd_other _ _ hc] at hp
        exact h.api_bound p j hp
    · simp only [User.revise, List.map_append, List.map_cons, List.map_nil]
      rw [List.nodup_append]
      refine ⟨h.api_nodup u (List.mem_of_getElem? hi), by simp, ?_⟩
      intro a ha b hb hab
      simp at hb
      subst hb
      obtain ⟨k, hk, hke⟩ := List.mem_map.1 ha
      have := h.api_ref i u k hi hk
      rw [hke, hab, hnone] at this
      simp at this
  | deleteAPIKey i u u' key hv h1 =>
    obtain ⟨⟨x, hx, rfl⟩, rfl⟩ := User.deleteAPIKey_ok h1
    have hi := validate_users hv
    have hxm : x ∈ u.apiKeys ∧ x.id = req.key.id := by
      have := List.mem_of_getLast? hx
      simpa using List.mem_filter.1 this
    refine inv_setUser rfl h hi rfl rfl rfl ?_ ?_ ?_ ?_
    · intro k hk
      obtain ⟨hk, hne⟩ := List.mem_filter.1 hk
      rw [upd_other]
      · exact h.api_ref i u k hi hk
      · intro hc
        have : k = x := by
          have hn := h.api_nodup u (List.mem_of_getElem? hi)
          exact inj_of_nodup_map hn hk hxm.1 hc
        rw [this] at hne
        simp [hxm.2] at hne
    · intro j v k hj hv' hk
      have := h.api_ref j v k hv' hk
      rw [upd_other]
      · exact this
      · intro hc
        have h2 := h.api_ref i u x hi hxm.1
        have hc' : k.pfx = x.pfx := hc
        rw [hc', h2] at this
        simp at this
        exact hj this.symm
    · intro p j hp
      by_cases hc : p = x.pfx
      · subst hc
        have : upd db.refAPIKey x.pfx none x.pfx = some j := hp
        rw [upd_same] at this
        simp at this
      · rw [upd_other _ _ hc] at hp
        exact h.api_bound p j hp
    · exact (List.Sublist.map _ List.filter_sublist).nodup (h.api_nodup u (List.mem_of_getElem? hi))

/-- Every call preserves the invariant. -/
theorem exec_inv {c : Call} {nd : Nondet} {db : Database} {fs : FS} {req : Request} (h : Inv db) :
    Inv (exec c nd db fs req).db := by
  rcases exec_spec c nd db fs req with h1 | ⟨db', m, h1⟩
  · rw [h1.db_eq]; exact h
  · rw [h1.db_eq]; exact (m.inv h).touch _

theorem run_inv {db : Database} {fs : FS} (os : List Op) (h : Inv db) : Inv (run db fs os).1 := by
  induction os generalizing db fs with
  | nil => exact h
  | cons o os ih =>
    unfold run
    dsimp only
    split
    · exact exec_inv h
    · exact ih (exec_inv h)

/-! ## The loader -/

theorem loadEmails_ok_iff {i : Nat} {es : List EmailAddress} {m m' : GoString → Option Nat} :
    Database.loadEmails i es m = .ok m' ↔
      (∀ e ∈ es, m (toLower e.address) = none) ∧ (es.map fun e => toLower e.address).Nodup ∧
        m' = fun s => if s ∈ es.map (fun e => toLower e.address) then some i else m s := by
  induction es generalizing m with
  | nil =>
    simp [Database.loadEmails]
    exact eq_comm
  | cons e es ih =>
    unfold Database.loadEmails
    dsimp only
    split
    · rename_i j hj
      simp [hj]
    · rename_i hn
      rw [ih]
      constructor
      · rintro ⟨h1, h2, h3⟩
        have hnot : toLower e.address ∉ es.map fun e => toLower e.address := by
          intro hc
          obtain ⟨x, hx, he⟩ := List.mem_map.1 hc
          have := h1 x hx
          rw [he, upd_same] at this
          simp at this
        refine ⟨?_, ?_, ?_⟩
        · intro x hx
          rcases List.mem_cons.1 hx with rfl | hx
          · exact hn
          · have := h1 x hx
            rwa [upd_other] at this
            intro hc
            exact hnot (List.mem_map.2 ⟨x, hx, hc⟩)
        · rw [List.map_cons, List.nodup_cons]; exact ⟨hnot, h2⟩
        · rw [h3]
          funext s
          by_cases hs : s ∈ es.map fun e => toLower e.address
          · rw [if_pos hs, if_pos (by rw [List.map_cons]; exact List.mem_cons_of_mem _ hs)]
          · rw [if_neg hs]
            by_cases hc : s = toLower e.address
            · subst hc
              rw [upd_same, if_pos (by simp)]
            · rw [upd_other _ _ hc, if_neg]
              rw [List.map_cons, List.mem_cons]
              rintro (h | h)
              · exact hc h
              · exact hs h
      · rintro ⟨h1, h2, h3⟩
        rw [List.map_cons, List.nodup_cons] at h2
        refine ⟨?_, h2.2, ?_⟩
        · intro x hx
          rw [upd_other]
          · exact h1 x (List.mem_cons_of_mem _ hx)
          · intro hc
            exact h2.1 (List.mem_map.2 ⟨x, hx, hc⟩)
        · rw [h3]
          funext s
          by_cases hs : s ∈ es.map fun e => toLower e.address
          · rw [if_pos hs, if_pos (by rw [List.map_cons]; exact List.mem_cons_of_mem _ hs)]
          · rw [if_neg hs]
            by_cases hc : s = toLower e.address
            · subst hc
              rw [upd_same, if_pos (by simp)]
            · rw [upd_other _ _ hc, if_neg]
              rw [List.map_cons, List.mem_cons]
              rintro (h | h)
              · exact hc h
              · exact hs h

theorem loadAPIKeys_ok_iff {i : Nat} {ks : List APIKey} {m m' : GoString → Option Nat} :
    Database.loadAPIKeys i ks m = .ok m' ↔
      (∀ k ∈ ks, m k.pfx = none) ∧ (ks.map (·.pfx)).Nodup ∧
        m' = fun s => if s ∈ ks.map (·.pfx) then some i else m s := by
  induction ks generalizing m with
  | nil =>
    simp [Database.loadAPIKeys]
    exact eq_comm
  | cons k ks ih =>
    unfold Database.loadAPIKeys
    split
    · rename_i j hj
      simp [hj]
    · rename_i hn
      rw [ih]
      have key : ∀ s, k.pfx ∉ ks.map (·.pfx) ∨ True →
          (if s ∈ ks.map (·.pfx) then some i else upd m k.pfx (some i) s) =
            if s ∈ (k :: ks).map (·.pfx) then some i else m s := by
        intro s _
        by_cases hs : s ∈ ks.map (·.pfx)
        · rw [if_pos hs, if_pos (by rw [List.map_cons]; exact List.mem_cons_of_mem _ hs)]
        · rw [if_neg hs]
          by_cases hc : s = k.pfx
          · subst hc
            rw [upd_same, if_pos (by simp)]
          · rw [upd_other _ _ hc, if_neg]
            rw [List.map_cons, List.mem_cons]
            rintro (h | h)
            · exact hc h
            · exact hs h
      constructor
      · rintro ⟨h1, h2, h3⟩
        have hnot : k.pfx ∉ ks.map (·.pfx) := by
          intro hc
          obtain ⟨x, hx, he⟩ := List.mem_map.1 hc
          have := h1 x hx
          rw [he, upd_same] at this
          simp at this
        refine ⟨?_, ?_, ?_⟩
        · intro x hx
          rcases List.mem_cons.1 hx with rfl | hx
          · exact hn
          · have := h1 x hx
            rwa [upd_other] at this
            intro hc
            exact hnot (List.mem_map.2 ⟨x, hx, hc⟩)
        · rw [List.map_cons, List.nodup_cons]; exact ⟨hnot, h2⟩
        · rw [h3]; funext s; exact key s (.inr trivial)
      · rintro ⟨h1, h2, h3⟩
        rw [List.map_cons, List.nodup_cons] at h2
        refine ⟨?_, h2.2, ?_⟩
        · intro x hx
          rw [upd_other]
          · exact h1 x (List.mem_cons_of_mem _ hx)
          · intro hc
            exact h2.1 (List.mem_map.2 ⟨x, hx, hc⟩)
        · rw [h3]; funext s; exact (key s (.inr trivial)).symm

/-- The stored form of a loaded user (database.go:178-182). -/
def loadedUser (u : User) : User := { u with passwords := u.passwords.map Database.fixAlgorithm }

/-- What one round of the loader requires and does. -/
theorem loadUser_ok_iff {i : Nat} {u : User} {db db' : Database} :
    Database.loadUser i u db = .ok db' ↔
      u.valid = .ok () ∧ db.refUsername (toLower u.username) = none ∧ db.refID u.id = none ∧
        (∀ e ∈ u.emailAddresses, db.refEmailAddress (toLower e.address) = none) ∧
        (u.emailAddresses.map fun e => toLower e.address).Nodup ∧
        (∀ k ∈ u.apiKeys, db.refAPIKey k.pfx = none) ∧ (u.apiKeys.map (·.pfx)).Nodup ∧
        db' = { db with
          refUsername := upd db.refUsername (toLower u.username) (some i)
          refID := upd db.refID u.id (some i)
          refEmailAddress := fun s =>
            if s ∈ u.emailAddresses.map (fun e => toLower e.address) then some i else db.refEmailAddress s
          refAPIKey := fun s => if s ∈ u.apiKeys.map (·.pfx) then some i else db.refAPIKey s
          users := db.users.set i (loadedUser u) } := by
  unfold Database.loadUser
  rcases hv : u.valid with ⟨⟩ | e | _
  · dsimp only
    rcases hn : db.refUsername (toLower u.username) with _ | j
    · rcases hid : db.refID u.id with _ | j
      · dsimp only
        rcases he : Database.loadEmails i u.emailAddresses db.refEmailAddress with em | e | _
        · have he' := loadEmails_ok_iff.1 he
          dsimp only
          rcases ha : Database.loadAPIKeys i u.apiKeys db.refAPIKey with ak | e | _
          · have ha' := loadAPIKeys_ok_iff.1 ha
            dsimp only
            rw [Res.ok.injEq, he'.2.2, ha'.2.2]
            constructor
            · intro h
              exact ⟨rfl, rfl, rfl, he'.1, he'.2.1, ha'.1, ha'.2.1, h.symm⟩
            · rintro ⟨_, _, _, _, _, _, _, h⟩
              exact h.symm
          · simp
            intro _ _ h1 h2
            have := (loadAPIKeys_ok_iff (i := i) (m' := _)).2 ⟨h1, h2, rfl⟩
            rw [ha] at this
            simp at this
          · simp
            intro _ _ h1 h2
            have := (loadAPIKeys_ok_iff (i := i) (m' := _)).2 ⟨h1, h2, rfl⟩
            rw [ha] at this
            simp at this
        · simp
          intro h1 h2
          have := (loadEmails_ok_iff (i := i) (m' := _)).2 ⟨h1, h2, rfl⟩
          rw [he] at this
          simp at this
        · simp
          intro h1 h2
          have := (loadEmails_ok_iff (i := i) (m' := _)).2 ⟨h1, h2, rfl⟩
          rw [he] at this
          simp at this
      · simp
    · simp
  · simp
  · simp

/-- The part of the database whose first `i` users are indexed. -/
def Database.firstUsers (db : Database) (i : Nat) : Database := { db with users := db.users.take i }

theorem loadUser_inv {i : Nat} {u : User} {db db' : Database} (hi : db.users[i]? = some u)
    (h : Inv (db.firstUsers i)) (hl : Database.loadUser i u db = .ok db') :
    Inv (db'.firstUsers (i + 1)) ∧ db'.users = db.users.set i (loadedUser u) := by
  obtain ⟨_, h1, h2, h3, h4, h5, h6, rfl⟩ := loadUser_ok_iff.1 hl
  have hlt : i < db.users.length := (List.getElem?_eq_some_iff.1 hi).1
  have hlen : (db.firstUsers i).users.length = i := by
    simp [Database.firstUsers]; omega
  refine ⟨?_, rfl⟩
  refine inv_append h (loadedUser u) ?_ h1 ?_ ?_ h3 h4 ?_ h5 h6 ?_
  · simp only [Database.firstUsers]
    rw [List.take_add_one]
    rw [List.take_set, List.set_eq_of_length_le (by simp; omega)]
    simp [hlt]
  · rw [hlen]; rfl
  · rw [hlen]; rfl
  · rw [hlen]; intro s; rfl
  · rw [hlen]; intro s; rfl

theorem loadUsers_inv {us : List User} {i : Nat} {db db' : Database} (hus : db.users.drop i = us)
    (hi : i ≤ db.users.length)
    (h : Inv (db.firstUsers i)) (hl : Database.loadUsers i us db = .ok db') : Inv db' := by
  induction us generalizing i db with
  | nil =>
    simp only [Database.loadUsers, Res.ok.injEq] at hl
    subst hl
    have hle := List.drop_eq_nil_iff.1 hus
    have : db.firstUsers i = db := by
      unfold Database.firstUsers
      rw [List.take_of_length_le hle]
    rwa [this] at h
  | cons u us ih =>
    unfold Database.loadUsers at hl
    split at hl
    · simp at hl
    · simp at hl
    · rename_i db1 h1
      have hget : db.users[i]? = some u := by
        have := congrArg List.head? hus
        simpa [List.head?_drop] using this
      obtain ⟨hinv, husers⟩ := loadUser_inv hget h h1
      have hlt : i < db.users.length := (List.getElem?_eq_some_iff.1 hget).1
      refine ih ?_ ?_ hinv hl
      · rw [husers, List.drop_set_of_lt (by omega)]
        have := congrArg List.tail hus
        simpa [List.tail_drop] using this
      · rw [husers]; simp; omega

theorem newDatabase_inv {nd : Nondet} {fs fs' : FS} {fp : GoString} {db : Database}
    (h : newDatabase nd fs fp = (.ok db, fs')) : Inv db := by
  unfold newDatabase at h
  split at h
  · simp at h
  · simp at h
  · rename_i d fs1 hopen
    simp only [Prod.mk.injEq] at h
    have hempty : d.refUsername = (fun _ => none) ∧ d.refID = (fun _ => none) ∧ d.refEmailAddress = (fun _ => none) ∧
        d.refAPIKey = (fun _ => none) := by
      unfold Database.openFile at hopen
      split at hopen
      · simp at hopen
      · split at hopen
        · split at hopen
          · simp at hopen
          · simp only [Database.commit, Database.empty] at hopen
            split at hopen
            · simp at hopen
            · rename_i heq
              simp only [Prod.mk.injEq, Res.ok.injEq] at hopen
              split at heq
              · simp only [Prod.mk.injEq] at heq
                obtain ⟨rfl, _⟩ := hopen
                obtain ⟨rfl, _⟩ := heq
                exact ⟨rfl, rfl, rfl, rfl⟩
              · simp at heq
        · simp at hopen
        · split at hopen
          · simp at hopen
          · simp at hopen
          · split at hopen
            · simp at hopen
            · simp at hopen
            · dsimp only at hopen
              split at hopen
              · simp only [Database.commit, Database.empty] at hopen
                split at hopen
                · simp at hopen
                · rename_i heq
                  simp only [Prod.mk.injEq, Res.ok.injEq] at hopen
                  split at heq
                  · simp only [Prod.mk.injEq] at heq
                    obtain ⟨rfl, _⟩ := hopen
                    obtain ⟨rfl, _⟩ := heq
                    exact ⟨rfl, rfl, rfl, rfl⟩
                  · simp at heq
              · simp only [Prod.mk.injEq, Res.ok.injEq] at hopen
                obtain ⟨rfl, _⟩ := hopen
                exact ⟨rfl, rfl, rfl, rfl⟩
    refine loadUsers_inv (i := 0) (us := d.users) (db := { d with version := Ext.appVersion }) (List.drop_zero ..)
      (Nat.zero_le _) ?_ h.1
    constructor <;> simp [Database.firstUsers, hempty.1, hempty.2.1, hempty.2.2.1, hempty.2.2.2]

end GoIdentity
