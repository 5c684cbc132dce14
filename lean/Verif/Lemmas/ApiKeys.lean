import Verif.Lemmas.Passwords
import Verif.Lemmas.Trim
/-!
# API keys and random strings
-/
set_option linter.unusedSectionVars false
namespace GoIdentity
variable [Ext]

theorem gen_length (draw : Nat → Nat) (start n : Nat) (cs : GoString) : (gen draw start n cs).length = n := by simp [gen]

theorem gen_mem {draw : Nat → Nat} {start n : Nat} {cs : GoString} (hcs : cs ≠ []) {b : UInt8}
    (h : b ∈ gen draw start n cs) : b ∈ cs := by
  unfold gen at h
  obtain ⟨i, _, rfl⟩ := List.mem_map.1 h
  have hlt : draw (start + i) % cs.length < cs.length := Nat.mod_lt _ (List.length_pos_iff.2 hcs)
  rw [List.getD_eq_getElem?_getD, List.getElem?_eq_getElem hlt]
  exact List.getElem_mem _

theorem charset_alnum : ∀ b ∈ charset, isAlnum b = true := by decide

theorem alnum_graph {b : UInt8} (h : isAlnum b = true) : 33 ≤ b.toNat ∧ b.toNat < 128 := by
  simp only [isAlnum, isUpper, isLower, isDigit, Bool.or_eq_true, decide_eq_true_eq] at h
  omega

/-- The secrets `AddAPIKey` draws. -/
theorem secret_shape {g d : Nat → Nat} {s : GoString} (h : getRandomStringFromRange g d 72 96 = .ok s) :
    72 ≤ s.length ∧ s.length < 96 ∧ (∀ b ∈ s, isAlnum b = true) ∧ trimSpace s = s := by
  unfold getRandomStringFromRange at h
  rw [if_neg (by omega), if_neg (by omega)] at h
  simp only [Res.ok.injEq] at h
  subst h
  have hal : ∀ b ∈ gen d 0 (g 0 % (96 - 72) + 72) charset, isAlnum b = true :=
    fun b hb => charset_alnum b (gen_mem (by decide) hb)
  refine ⟨?_, ?_, hal, trimSpace_of_graph fun b hb => alnum_graph (hal b hb)⟩
  · rw [gen_length]; omega
  · rw [gen_length]
    have := Nat.mod_lt (g 0) (show 0 < 96 - 72 by omega)
    omega

/-- Whatever the draws are, there is a secret. -/
theorem secret_exists (g d : Nat → Nat) : ∃ s, getRandomStringFromRange g d 72 96 = .ok s := ⟨_, rfl⟩

theorem lookupKeys_none_iff {pfx payload : GoString} {ks : List APIKey} (hnd : (ks.map (·.pfx)).Nodup) :
    User.lookupAPIKey pfx payload ks = none ↔ ∃ k ∈ ks, k.pfx = pfx ∧ k.accepts payload = true := by
  induction ks with
  | nil => simp [User.lookupAPIKey]
  | cons k ks ih =>
    rw [List.map_cons, List.nodup_cons] at hnd
    unfold User.lookupAPIKey
    by_cases h1 : k.pfx = pfx
    · rw [if_pos h1]
      by_cases h2 : k.accepts payload = true
      · simp [h1, h2]
      · rw [if_neg h2]
        simp only [reduceCtorEq, List.mem_cons, exists_eq_or_imp, h2, Bool.false_eq_true, and_false, false_or, false_iff]
        rintro ⟨x, hx, hx1, _⟩
        exact hnd.1 (List.mem_map.2 ⟨x, hx, by rw [hx1, h1]⟩)
    · rw [if_neg h1, ih hnd.2]
      simp [h1]

/-- What `NewAPIKey` checks and makes. -/
theorem newAPIKey_ok {now : Clock} {id : GoString} {k : ReqKey} {key : APIKey} (h : newAPIKey now id k = .ok key) :
    k.usage = gs! "api" ∧ k.comment ≠ [] ∧
    key = { id := id, pfx := k.pfx, usage := k.usage, comment := k.comment, payload := k.payload, expired := false,
            expiredAt := .zero, createdAt := now 0, disabled := k.disabled,
            disabledAt := if k.disabled then now 1 else .zero } := by
  unfold newAPIKey at h
  split at h
  · simp at h
  · split at h
    · simp at h
    · split at h
      · simp at h
      · split at h
        · simp at h
        · rename_i h1 h2
          simp only [Res.ok.injEq] at h
          exact ⟨Classical.not_not.1 h1, h2, h.symm⟩

theorem newAPIKey_pfx {now : Clock} {id : GoString} {k : ReqKey} {key : APIKey} (h : newAPIKey now id k = .ok key) :
    key.pfx = k.pfx := by rw [(newAPIKey_ok h).2.2]

/-- The stored API keys and their owners. -/
def Owns (db : Database) (u : User) (k : APIKey) : Prop := u ∈ db.users ∧ k ∈ u.apiKeys

/-- What `LookupAPIKey` does. -/
theorem lookup_spec {db : Database} (h : Inv db) (nd : Nondet) (fs : FS) (req : Request) :
    ((exec .lookupAPIKey nd db fs req).Succeeded ↔
      72 ≤ req.key.payload.length ∧ ∃ u k, Owns db u k ∧ k.pfx = req.key.payload.take 24 ∧
        k.accepts req.key.payload = true) ∧
    ((exec .lookupAPIKey nd db fs req).Succeeded →
      ∃ u k, Owns db u k ∧ k.pfx = req.key.payload.take 24 ∧ k.accepts req.key.payload = true ∧
        (exec .lookupAPIKey nd db fs req).req.user.username = u.username ∧
        (exec .lookupAPIKey nd db fs req).req.user.email = u.mailClaim ∧
        (exec .lookupAPIKey nd db fs req).req.response.code = 200) ∧
    (¬ (exec .lookupAPIKey nd db fs req).Succeeded → (exec .lookupAPIKey nd db fs req).Failed ∧
      (exec .lookupAPIKey nd db fs req).req.user = req.user ∧
      (exec .lookupAPIKey nd db fs req).req.response = req.response) := by
  simp only [exec, Database.lookupAPIKey, Result.Succeeded, Result.Failed]
  by_cases h1 : req.key.payload = []
  · simp [h1, Database.failWith]
  · by_cases h2 : req.key.payload.length < 72
    · rw [if_neg h1, if_pos h2]
      simp [Database.failWith]
      intro h3; omega
    · rw [if_neg h1, if_neg h2]
      cases hd : db.deref (db.refAPIKey (req.key.payload.take 24)) with
      | none =>
        refine ⟨⟨fun hx => by simp [Database.failWith] at hx, ?_⟩, fun hx => by simp [Database.failWith] at hx,
          fun _ => ⟨⟨_, rfl⟩, rfl, rfl⟩⟩
        rintro ⟨_, u, k, ⟨hu, hk⟩, hp, _⟩
        exfalso
        obtain ⟨i, hi⟩ := List.getElem?_of_mem hu
        have := h.api_ref i u k hi hk
        rw [hp] at this
        rw [this] at hd
        simp [Database.deref, hi] at hd
      | some iu =>
        obtain ⟨i, u⟩ := iu
        have hr : db.refAPIKey (req.key.payload.take 24) = some i ∧ db.users[i]? = some u := by
          unfold Database.deref at hd
          split at hd
          · simp at hd
          · rename_i j hj
            cases hg : db.users[j]? with
            | none => simp [hg] at hd
            | some w => simp [hg] at hd; obtain ⟨rfl, rfl⟩ := hd; exact ⟨hj, hg⟩
        have hmem := List.mem_of_getElem? hr.2
        have hlk := lookupKeys_none_iff (pfx := req.key.payload.take 24) (payload := req.key.payload)
          (h.api_nodup u hmem)
        have huniq : (∃ u k, Owns db u k ∧ k.pfx = req.key.payload.take 24 ∧ k.accepts req.key.payload = true) ↔
            ∃ k ∈ u.apiKeys, k.pfx = req.key.payload.take 24 ∧ k.accepts req.key.payload = true := by
          constructor
          · rintro ⟨w, k, ⟨hw, hk⟩, hp, ha⟩
            obtain ⟨j, hj⟩ := List.getElem?_of_mem hw
            have := h.api_ref j w k hj hk
            rw [hp, hr.1] at this
            cases this
            rw [hr.2] at hj
            cases hj
            exact ⟨k, hk, hp, ha⟩
          · rintro ⟨k, hk, hp, ha⟩
            exact ⟨u, k, ⟨hmem, hk⟩, hp, ha⟩
        dsimp only
        cases hq : User.lookupAPIKey (req.key.payload.take 24) req.key.payload u.apiKeys with
        | none =>
          have hex := hlk.1 hq
          refine ⟨?_, ?_, ?_⟩
          · simp only [true_iff]
            exact ⟨by omega, huniq.2 hex⟩
          · intro _
            obtain ⟨k, hk, hp, ha⟩ := hex
            exact ⟨u, k, ⟨hmem, hk⟩, hp, ha, rfl, rfl, rfl⟩
          · simp
        | some e =>
          have hex : ¬ ∃ k ∈ u.apiKeys, k.pfx = req.key.payload.take 24 ∧ k.accepts req.key.payload = true := by
            rw [← hlk, hq]; simp
          refine ⟨?_, ?_, ?_⟩
          · refine ⟨fun hx => by simp [Database.failWith] at hx, fun hx => absurd (huniq.1 hx.2) hex⟩
          · simp [Database.failWith]
          · exact fun _ => ⟨⟨_, rfl⟩, rfl, rfl⟩

/-- The prefix index holds nothing but stored keys. -/
def ApiExact (db : Database) : Prop :=
  ∀ p i, db.refAPIKey p = some i → ∃ u, db.users[i]? = some u ∧ ∃ k ∈ u.apiKeys, k.pfx = p

/-- Every user's API keys have distinct IDs. -/
def KeyIDsDistinct (db : Database) : Prop := ∀ u ∈ db.users, (u.apiKeys.map (·.id)).Nodup

theorem getLast?_filter_unique {α : Type} {l : List α} {p : α → Bool} {x : α} (hx : (l.filter p).getLast? = some x)
    (huniq : ∀ a ∈ l, ∀ b ∈ l, p a = true → p b = true → a = b) : ∀ a ∈ l, p a = true → a = x := by
  intro a ha hpa
  have := List.mem_filter.1 (List.mem_of_getLast? hx)
  exact huniq a ha x this.1 hpa this.2

theorem opened_apiExact {db : Database} (h : Opened db) : ApiExact db := by
  obtain ⟨nd, fs, fp, fs', h⟩ := h
  have := newDatabase_induct (P := fun n d => ∀ p i, d.refAPIKey p = some i → i < n ∧
    ∃ u, d.users[i]? = some u ∧ ∃ k ∈ u.apiKeys, k.pfx = p) h
    (fun d _ _ _ h4 p i hp => by rw [h4] at hp; simp at hp) ?_
  · exact fun p i hp => (this p i hp).2
  · intro i u db db' hu ih hl p j hp
    obtain ⟨_, _, _, _, _, _, _, rfl⟩ := loadUser_ok_iff.1 hl
    have hlt := (List.getElem?_eq_some_iff.1 hu).1
    dsimp only at hp
    split at hp
    · rename_i hm
      cases hp
      obtain ⟨k, hk, rfl⟩ := List.mem_map.1 hm
      exact ⟨Nat.lt_succ_self _, loadedUser u, by simp [hlt], k, hk, rfl⟩
    · obtain ⟨h1, w, hw, hk⟩ := ih p j hp
      refine ⟨Nat.lt_succ_of_lt h1, w, ?_, hk⟩
      rw [← hw]
      exact List.getElem?_set_ne (by omega)

theorem apiExact_set {db db' : Database} (h : ApiExact db) {i : Nat} {u u' : User} (hi : db.users[i]? = some u)
    (husers : db'.users = db.users.set i u')
    (href : ∀ p j, db'.refAPIKey p = some j →
      (db.refAPIKey p = some j ∧ (j = i → ∀ k ∈ u.apiKeys, k.pfx = p → k ∈ u'.apiKeys)) ∨
      (j = i ∧ ∃ k ∈ u'.apiKeys, k.pfx = p)) : ApiExact db' := by
  have hlt := (List.getElem?_eq_some_iff.1 hi).1
  intro p j hp
  rw [husers]
  rcases href p j hp with ⟨h1, h2⟩ | ⟨rfl, h2⟩
  · obtain ⟨w, hw, k, hk, hkp⟩ := h p j h1
    by_cases hij : j = i
    · subst hij
      rw [hi] at hw
      cases hw
      exact ⟨u', by simp [hlt], k, h2 rfl k hk hkp, hkp⟩
    · exact ⟨w, by rw [List.getElem?_set_ne (by omega)]; exact hw, k, hk, hkp⟩
  · exact ⟨u', by simp [hlt], h2⟩

theorem Mutation.apiExact {nd : Nondet} {req : Request} {db db' : Database} {c : Call} (hm : Mutation nd req db c db')
    (h : ApiExact db) (hids : KeyIDsDistinct db) : ApiExact db' := by
  cases hm with
  | save => exact h
  | copy fp => exact h
  | addUser user emails hpol hnew hname hemails =>
    intro p i hp
    obtain ⟨u, hu, hk⟩ := h p i hp
    refine ⟨u, ?_, hk⟩
    show (db.users ++ _)[i]? = some u
    rw [List.getElem?_append_left (List.getElem?_eq_some_iff.1 hu).1]
    exact hu
  | addPublicKey i u u' hv h1 =>
    obtain ⟨key, h2, h3, rfl⟩ := User.addPublicKey_ok h1
    exact apiExact_set h (validate_users hv) rfl fun p j hp => .inl ⟨hp, fun _ k hk _ => hk⟩
  | deletePublicKey i u u' hv h1 =>
    obtain ⟨h2, rfl⟩ := User.deletePublicKey_ok h1
    exact apiExact_set h (validate_users hv) rfl fun p j hp => .inl ⟨hp, fun _ k hk _ => hk⟩
  | changeUserPassword i u u' hv hpol h1 =>
    obtain ⟨h2, h3⟩ := User.changePassword_ok h1
    obtain ⟨p, h4, rfl⟩ := User.addPassword_ok h3
    exact apiExact_set h (validate_users hv) rfl fun p j hp => .inl ⟨hp, fun _ k hk _ => hk⟩
  | addMfaToken i u u' req' hv h1 =>
    obtain ⟨t, h2, h3, rfl⟩ := User.addMfaToken_ok h1
    exact apiExact_set h (validate_users hv) rfl fun p j hp => .inl ⟨hp, fun _ k hk _ => hk⟩
  | deleteMfaToken i u u' hv h1 =>
    obtain ⟨h2, rfl⟩ := User.deleteMfaToken_ok h1
    exact apiExact_set h (validate_users hv) rfl fun p j hp => .inl ⟨hp, fun _ k hk _ => hk⟩
  | addAPIKey i u u' s hash hv hs hl h1 =>
    obtain ⟨key, hk, rfl⟩ := User.addAPIKey_ok h1
    have hpfx : key.pfx = s.take 24 := newAPIKey_pfx hk
    refine apiExact_set h (validate_users hv) rfl fun p j hp => ?_
    by_cases hc : p = s.take 24
    · right
      subst hc
      simp only [upd_same, Option.some.injEq] at hp
      exact ⟨hp.symm, key, by simp [User.revise], hpfx⟩
    · left
      simp only [upd_other _ _ hc] at hp
      exact ⟨hp, fun _ k hk _ => by simp [User.revise, hk]⟩
  | deleteAPIKey i u u' key hv h1 =>
    obtain ⟨⟨x, hx, hkey⟩, rfl⟩ := User.deleteAPIKey_ok h1
    have hi := validate_users hv
    refine apiExact_set h hi rfl fun p j hp => ?_
    by_cases hc : p = key.pfx
    · rw [hc] at hp
      simp [upd_same] at hp
    · left
      simp only [upd_other _ _ hc] at hp
      refine ⟨hp, fun _ k hk hkp => ?_⟩
      simp only [User.revise, List.mem_filter, hk, true_and]
      cases hb : (k.id == req.key.id) with
      | false => rfl
      | true =>
        exfalso
        apply hc
        have := getLast?_filter_unique hx (fun a ha b hb' h1 h2 => by
          simp only [beq_iff_eq] at h1 h2
          exact inj_of_nodup_map (hids u (List.mem_of_getElem? hi)) ha hb' (by rw [h1, h2])) k hk hb
        rw [← hkp, this, hkey]

end GoIdentity

namespace GoIdentity
variable [Ext]

theorem finish_req (nd : Nondet) (db : Database) (fs : FS) (req : Request) (wrap : GoErr → GoErr) :
    (db.finish nd fs req wrap).req = req ∧ (db.finish nd fs req wrap).db = db.touch nd.commitTime := by
  have h : db.commit nd fs =
      match writeFile fs db.path (marshalDB (db.touch nd.commitTime).toDBData) nd.io with
      | (fs, none) => (db.touch nd.commitTime, fs, none)
      | (fs, some e) => (db.touch nd.commitTime, fs, some (.withE .databaseCommit [db.path] e)) := rfl
  unfold Database.finish
  rw [h]
  rcases hw : writeFile fs db.path (marshalDB (db.touch nd.commitTime).toDBData) nd.io with ⟨fs', _ | e⟩ <;> exact ⟨rfl, rfl⟩

/-- Everything about a successful `AddAPIKey`. -/
theorem addAPIKey_success {nd : Nondet} {db : Database} {fs : FS} {req : Request}
    (hs : (exec .addAPIKey nd db fs req).Succeeded) :
    ∃ (i : Nat) (u : User) (s : GoString) (n : Nat) (hk : Password) (key : APIKey),
      db.validateUserIdentity req.user.username req.user.email = .ok (i, u) ∧
      getRandomStringFromRange nd.globalRand nd.seedRand 72 96 = .ok s ∧ db.refAPIKey (s.take 24) = none ∧
      newPassword nd.now (nd.salts n) s = .ok hk ∧
      newAPIKey nd.now (getRandomString nd.seedRand s.length 40)
        { req.key with payload := hk.hash, pfx := s.take 24 } = .ok key ∧
      (exec .addAPIKey nd db fs req).db.users =
        db.users.set i (User.revise (nd.now.skip 2) { u with apiKeys := u.apiKeys ++ [key] }) ∧
      (exec .addAPIKey nd db fs req).req.response.payload = .secret s := by
  simp only [exec, Database.addAPIKey, Result.Succeeded] at hs ⊢
  split at hs
  · simp [Database.failWith] at hs
  · rename_i i u hv
    obtain ⟨s, hsec⟩ := secret_exists nd.globalRand nd.seedRand
    rw [hsec] at hs ⊢
    dsimp only at hs ⊢
    split at hs
    · simp at hs
    · simp [Database.failWith] at hs
    · rename_i hash hl
      split at hs
      · simp [Database.failWith] at hs
      · simp at hs
      · rename_i u' hu
        obtain ⟨key, hk, rfl⟩ := User.addAPIKey_ok hu
        obtain ⟨hn, n, p, hp, rfl⟩ := keyLoop_found hl
        refine ⟨i, u, s, n, p, key, hv, rfl, hn, hp, hk, ?_, ?_⟩
        · rw [(finish_req ..).2]; rfl
        · rw [(finish_req ..).1]

end GoIdentity
