import Verif.Lemmas.UserSteps
import Verif.Lemmas.Passwords
import Verif.Lemmas.ApiKeys
import Verif.Lemmas.Reopen
import Verif.Lemmas.Shape
import Verif.Spec.Times
/-!
# How a call changes the recorded times
-/
set_option linter.unusedSectionVars false
namespace GoIdentity

theorem newMfaToken_times [Ext] {nd : Nondet} {req req' : Request} {t : MfaToken} (h : newMfaToken nd req = (.ok t, req')) :
    t.createdAt = nd.now 0 ∧ (t.disabled = true → t.disabledAt = nd.now 1) := by
  have hu : ∀ (p : MfaToken) r, u2fFromRegister p r = .ok t →
      t.createdAt = p.createdAt ∧ t.disabled = p.disabled ∧ t.disabledAt = p.disabledAt := by
    intro p r h
    unfold u2fFromRegister at h
    revert h
    repeat' split
    all_goals first | (intro h; simp at h; done) | (intro h; injection h with h; subst h; exact ⟨rfl, rfl, rfl⟩)
  unfold newMfaToken at h
  dsimp only at h
  split at h
  · injection h with h _
    unfold newTotp at h
    dsimp only at h
    split at h
    · simp at h
    · split at h
      · simp at h
      · generalize (if req.mfaToken.digits = 0 then (6 : Int) else req.mfaToken.digits) = dg at h
        split at h
        · simp at h
        · split at h
          · simp only [Res.ok.injEq] at h
            subst h
            exact ⟨rfl, fun h => by dsimp only at h ⊢; rw [if_pos h]⟩
          · simp at h
          · simp at h
  · split at h
    · injection h with h _
      unfold newU2F at h
      split at h
      · simp at h
      split at h
      · simp at h
      split at h
      · simp at h
      split at h
      · simp at h
      · simp at h
      obtain ⟨h1, h2, h3⟩ := hu _ _ h
      refine ⟨h1, fun hd => ?_⟩
      rw [h3]
      exact if_pos (h2.symm.trans hd)
    · split at h <;> simp at h

/-- Parsing a key leaves its status alone. -/
theorem parsePublicKey_status [Ext] {p q : PublicKey} (h : parsePublicKey p = .ok q) : q.disabled = p.disabled := by
  unfold parsePublicKey at h
  split at h
  · simp at h
  · split at h
    · simp at h
    · split at h
      · unfold parsePublicKeyRSA at h
        repeat' (first | split at h)
        all_goals first
          | (simp only [Res.ok.injEq] at h; subst h; rfl)
          | simp at h
      · split at h
        · unfold parsePublicKeyOpenSSH at h
          dsimp only at h
          repeat' (first | split at h)
          all_goals first
            | (simp only [Res.ok.injEq] at h; subst h; rfl)
            | simp at h
        · split at h
          · unfold parsePublicKeyPGP at h
            dsimp only at h
            repeat' (first | split at h)
            all_goals first
              | (simp only [Res.ok.injEq] at h; subst h; rfl)
              | simp at h
          · simp at h

theorem newPublicKey_times [Ext] {now : Clock} {id : GoString} {k : ReqKey} {key : PublicKey} (h : newPublicKey now id k = .ok key) :
    key.createdAt = now 0 ∧ (key.disabled = true → key.disabledAt = now 1) := by
  unfold newPublicKey at h
  split at h
  · rename_i p hp
    injection h with h
    have h1 := (parsePublicKey_times hp).2.1
    have h2 := parsePublicKey_status hp
    subst h
    split
    · exact ⟨h1, fun _ => rfl⟩
    · exact ⟨h1, fun hd => by rw [h2] at hd; simp at hd⟩
  · simp at h
  · simp at h

theorem newAPIKey_times [Ext] {now : Clock} {id : GoString} {k : ReqKey} {key : APIKey} (h : newAPIKey now id k = .ok key) :
    key.createdAt = now 0 ∧ (key.disabled = true → key.disabledAt = now 1) := by
  unfold newAPIKey at h
  split at h
  · simp at h
  split at h
  · simp at h
  split at h
  · simp at h
  split at h
  · simp at h
  simp only [Res.ok.injEq] at h
  subst h
  exact ⟨rfl, fun h => by dsimp only at h ⊢; rw [if_pos h]⟩

theorem InLife.mono {le : GoTime → GoTime → Prop} (ho : TimeOrder le) {u u' : User} {m o : GoTime} {d : Bool}
    (h : InLife le u m d o) (hc : u'.created = u.created) (hl : le u.lastModified u'.lastModified) : InLife le u' m d o :=
  ⟨hc ▸ h.1, ho.trans h.2.1 hl, fun hd => ⟨(h.2.2 hd).1, ho.trans (h.2.2 hd).2 hl⟩⟩

/-- `l` with something of time `now` at the end. -/
theorem pairwise_snoc {α : Type} {R : α → α → Prop} {l : List α} {x : α} (h : l.Pairwise R) (hx : ∀ y ∈ l, R y x) :
    (l ++ [x]).Pairwise R :=
  List.pairwise_append.2 ⟨h, List.pairwise_singleton _ _, fun y hy z hz => by rw [List.mem_singleton.1 hz]; exact hx y hy⟩

/-- One call on one user keeps its times in order. -/
theorem UserOp.times [Ext] {le : GoTime → GoTime → Prop} (ho : TimeOrder le) {nd : Nondet} {req : Request} {db : Database}
    {u u' : User} {c : Call} (h : UserOp nd req db u c u') (hu : UserTimes le u) (hf : Forward le nd)
    (hn : le u.lastModified (nd.now 0)) : UserTimes le u' := by
  have hk : ∀ k, le u.lastModified (nd.now k) := fun k => ho.trans hn (hf.now (Nat.zero_le k))
  have hc : ∀ k, le u.created (nd.now k) := fun k => ho.trans hu.modified (hk k)
  have fresh : ∀ {v : User} {m o : GoTime} {d : Bool}, v.created = u.created → v.lastModified = nd.now 2 → m = nd.now 0 →
      (d = true → o = nd.now 1) → InLife le v m d o := fun h1 h2 h3 h4 =>
    ⟨by rw [h1, h3]; exact hc 0, by rw [h2, h3]; exact hf.now (by omega), fun hd => by
      rw [h2, h3, h4 hd]; exact ⟨hf.now (by omega), hf.now (by omega)⟩⟩
  have mono : ∀ {v : User} {m o : GoTime} {d : Bool}, v.created = u.created → (∃ k, v.lastModified = nd.now k) →
      InLife le u m d o → InLife le v m d o := fun h1 h2 h3 => h3.mono ho h1 (by obtain ⟨k, h2⟩ := h2; rw [h2]; exact hk k)
  cases h with
  | addPublicKey key hk hnew =>
    obtain ⟨k1, k2⟩ := newPublicKey_times hk
    exact {
      modified := hc _
      passwords := fun p hp => mono rfl ⟨_, rfl⟩ (hu.passwords p hp)
      publicKeys := fun p hp => by
        rcases List.mem_append.1 hp with hp | hp
        · exact mono rfl ⟨_, rfl⟩ (hu.publicKeys p hp)
        · rw [List.mem_singleton.1 hp]; exact fresh rfl rfl k1 k2
      apiKeys := fun p hp => mono rfl ⟨_, rfl⟩ (hu.apiKeys p hp)
      mfaTokens := fun p hp => mono rfl ⟨_, rfl⟩ (hu.mfaTokens p hp)
      expiry := hu.expiry
      newestFirst := hu.newestFirst
      publicKeysInOrder := pairwise_snoc hu.publicKeysInOrder fun y hy => by
        rw [k1]; exact ho.trans (hu.publicKeys y hy).2.1 hn
      apiKeysInOrder := hu.apiKeysInOrder
      mfaTokensInOrder := hu.mfaTokensInOrder }
  | deletePublicKey hex =>
    exact {
      modified := hc _
      passwords := fun p hp => mono rfl ⟨_, rfl⟩ (hu.passwords p hp)
      publicKeys := fun p hp => mono rfl ⟨_, rfl⟩ (hu.publicKeys p (List.mem_filter.1 hp).1)
      apiKeys := fun p hp => mono rfl ⟨_, rfl⟩ (hu.apiKeys p hp)
      mfaTokens := fun p hp => mono rfl ⟨_, rfl⟩ (hu.mfaTokens p hp)
      expiry := hu.expiry
      newestFirst := hu.newestFirst
      publicKeysInOrder := hu.publicKeysInOrder.sublist List.filter_sublist
      apiKeysInOrder := hu.apiKeysInOrder
      mfaTokensInOrder := hu.mfaTokensInOrder }
  | addAPIKey s n hk key hs hnone hhash hkey =>
    obtain ⟨k1, k2⟩ := newAPIKey_times hkey
    exact {
      modified := hc _
      passwords := fun p hp => mono rfl ⟨_, rfl⟩ (hu.passwords p hp)
      publicKeys := fun p hp => mono rfl ⟨_, rfl⟩ (hu.publicKeys p hp)
      apiKeys := fun p hp => by
        rcases List.mem_append.1 hp with hp | hp
        · exact mono rfl ⟨_, rfl⟩ (hu.apiKeys p hp)
        · rw [List.mem_singleton.1 hp]; exact fresh rfl rfl k1 k2
      mfaTokens := fun p hp => mono rfl ⟨_, rfl⟩ (hu.mfaTokens p hp)
      expiry := hu.expiry
      newestFirst := hu.newestFirst
      publicKeysInOrder := hu.publicKeysInOrder
      apiKeysInOrder := pairwise_snoc hu.apiKeysInOrder fun y hy => by
        rw [k1]; exact ho.trans (hu.apiKeys y hy).2.1 hn
      mfaTokensInOrder := hu.mfaTokensInOrder }
  | deleteAPIKey hex =>
    exact {
      modified := hc _
      passwords := fun p hp => mono rfl ⟨_, rfl⟩ (hu.passwords p hp)
      publicKeys := fun p hp => mono rfl ⟨_, rfl⟩ (hu.publicKeys p hp)
      apiKeys := fun p hp => mono rfl ⟨_, rfl⟩ (hu.apiKeys p (List.mem_filter.1 hp).1)
      mfaTokens := fun p hp => mono rfl ⟨_, rfl⟩ (hu.mfaTokens p hp)
      expiry := hu.expiry
      newestFirst := hu.newestFirst
      publicKeysInOrder := hu.publicKeysInOrder
      apiKeysInOrder := hu.apiKeysInOrder.sublist List.filter_sublist
      mfaTokensInOrder := hu.mfaTokensInOrder }
  | addMfaToken t req' ht hnew =>
    obtain ⟨k1, k2⟩ := newMfaToken_times ht
    exact {
      modified := hc _
      passwords := fun p hp => mono rfl ⟨_, rfl⟩ (hu.passwords p hp)
      publicKeys := fun p hp => mono rfl ⟨_, rfl⟩ (hu.publicKeys p hp)
      apiKeys := fun p hp => mono rfl ⟨_, rfl⟩ (hu.apiKeys p hp)
      mfaTokens := fun p hp => by
        rcases List.mem_append.1 hp with hp | hp
        · exact mono rfl ⟨_, rfl⟩ (hu.mfaTokens p hp)
        · rw [List.mem_singleton.1 hp]; exact fresh rfl rfl k1 k2
      expiry := hu.expiry
      newestFirst := hu.newestFirst
      publicKeysInOrder := hu.publicKeysInOrder
      apiKeysInOrder := hu.apiKeysInOrder
      mfaTokensInOrder := pairwise_snoc hu.mfaTokensInOrder fun y hy => by
        rw [k1]; exact ho.trans (hu.mfaTokens y hy).2.1 hn }
  | deleteMfaToken hex =>
    exact {
      modified := hc _
      passwords := fun p hp => mono rfl ⟨_, rfl⟩ (hu.passwords p hp)
      publicKeys := fun p hp => mono rfl ⟨_, rfl⟩ (hu.publicKeys p hp)
      apiKeys := fun p hp => mono rfl ⟨_, rfl⟩ (hu.apiKeys p hp)
      mfaTokens := fun p hp => mono rfl ⟨_, rfl⟩ (hu.mfaTokens p (List.mem_filter.1 hp).1)
      expiry := hu.expiry
      newestFirst := hu.newestFirst
      publicKeysInOrder := hu.publicKeysInOrder
      apiKeysInOrder := hu.apiKeysInOrder
      mfaTokensInOrder := hu.mfaTokensInOrder.sublist List.filter_sublist }
  | changeUserPassword p hpol hold hp =>
    have k1 : p.createdAt = nd.now 0 := by obtain ⟨_, _, _, rfl⟩ := newPassword_ok hp; rfl
    have k2 : p.disabled = false := by obtain ⟨_, _, _, rfl⟩ := newPassword_ok hp; rfl
    have k3 : ∀ (keep : Int) (i : Nat) (ps : List Password), ps.Pairwise (fun p q => le q.createdAt p.createdAt) →
        (User.keepLoop (nd.now.skip 1) keep i ps).Pairwise fun p q => le q.createdAt p.createdAt := by
      intro keep i ps
      induction ps generalizing i with
      | nil => intro _; exact List.Pairwise.nil
      | cons q ps ih =>
        intro hps
        rw [List.pairwise_cons] at hps
        unfold User.keepLoop
        have e : (if q.disabled then q else q.disable ((nd.now.skip 1).skip (2 * i))).createdAt = q.createdAt := by split <;> rfl
        refine List.pairwise_cons.2 ⟨fun r hr => ?_, ?_⟩
        · split at hr
          · simp at hr
          · rw [e]
            obtain ⟨r', hr', rfl | ⟨_, _, rfl⟩⟩ := keepLoop_mem hr
            · exact hps.1 _ hr'
            · exact hps.1 r' hr'
        · split
          · exact List.Pairwise.nil
          · exact ih _ hps.2
    exact {
      modified := hc _
      passwords := fun q hq => by
        rcases List.mem_cons.1 hq with rfl | hq
        · refine ⟨by rw [k1]; exact hc 0, by rw [k1]; exact hf.now (Nat.zero_le _), fun h => by rw [k2] at h; simp at h⟩
        · obtain ⟨r, hr, rfl | ⟨j, hj, rfl⟩⟩ := keepLoop_mem hq
          · exact mono rfl ⟨_, rfl⟩ (hu.passwords _ hr)
          · have := hu.passwords r hr
            exact ⟨this.1, ho.trans this.2.1 (hk _), fun _ => ⟨ho.trans this.2.1 (hk _), hf.now (by omega)⟩⟩
      publicKeys := fun p hp => mono rfl ⟨_, rfl⟩ (hu.publicKeys p hp)
      apiKeys := fun p hp => mono rfl ⟨_, rfl⟩ (hu.apiKeys p hp)
      mfaTokens := fun p hp => mono rfl ⟨_, rfl⟩ (hu.mfaTokens p hp)
      expiry := fun q hq hd => by
        rcases List.mem_cons.1 hq with rfl | hq
        · rw [k2] at hd; simp at hd
        · obtain ⟨r, hr, rfl | ⟨j, hj, rfl⟩⟩ := keepLoop_mem hq
          · exact hu.expiry _ hr hd
          · exact ⟨ho.trans (hu.passwords r hr).2.1 (hk _), hf.now (by omega)⟩
      newestFirst := List.pairwise_cons.2 ⟨fun r hr => by
        rw [k1]
        obtain ⟨r', hr', rfl | ⟨_, _, rfl⟩⟩ := keepLoop_mem hr
        · exact ho.trans (hu.passwords _ hr').2.1 hn
        · exact ho.trans (hu.passwords r' hr').2.1 hn, k3 _ _ _ hu.newestFirst⟩
      publicKeysInOrder := hu.publicKeysInOrder
      apiKeysInOrder := hu.apiKeysInOrder
      mfaTokensInOrder := hu.mfaTokensInOrder }

/-- The new user's times. -/
theorem newUserOf_times [Ext] {le : GoTime → GoTime → Prop} {nd : Nondet} {req : Request} {db : Database}
    {p : Password} {e : EmailAddress} {roles : List Role} {name : Option Name} (hf : Forward le nd)
    (hp : newPassword (nd.now.skip 2) (nd.salts 0) req.user.password = .ok p) :
    UserTimes le (newUserOf nd req db p e roles name) where
  modified := hf.now (Nat.zero_le _)
  passwords q hq := by
    rw [List.mem_singleton.1 hq]
    obtain ⟨_, _, _, rfl⟩ := newPassword_ok hp
    refine ⟨hf.now (Nat.zero_le _), hf.now ?_, fun h => by simp at h⟩
    have := User.le_lastReading [] 4 5 roles (by omega)
    omega
  publicKeys q hq := by simp [newUserOf, User.zero] at hq
  apiKeys q hq := by simp [newUserOf, User.zero] at hq
  mfaTokens q hq := by simp [newUserOf, User.zero] at hq
  expiry q hq hd := by
    rw [List.mem_singleton.1 hq] at hd
    obtain ⟨_, _, _, rfl⟩ := newPassword_ok hp
    simp at hd
  newestFirst := List.pairwise_singleton _ _
  publicKeysInOrder := List.Pairwise.nil
  apiKeysInOrder := List.Pairwise.nil
  mfaTokensInOrder := List.Pairwise.nil

/-- A database created at some time was last modified then. -/
theorem created_lastModified [Ext] {nd : Nondet} {fs : FS} {fp : GoString} {db : Database} {fs' : FS} (hnone : fs fp = none)
    (h : newDatabase nd fs fp = (.ok db, fs')) : db.lastModified = nd.commitTime := by
  have key : ∀ (d : Database) (fs'' : FS), Database.openFile nd fs fp = (.ok d, fs'') → d.lastModified = nd.commitTime ∧ d.users = [] := by
    intro d fs'' hd
    unfold Database.openFile at hd
    split at hd
    · simp at hd
    · rw [hnone] at hd
      simp only at hd
      split at hd
      · simp at hd
      · split at hd
        · simp at hd
        · rename_i heq
          simp only [Prod.mk.injEq, Res.ok.injEq] at hd
          obtain ⟨rfl, rfl⟩ := hd
          unfold Database.commit at heq
          dsimp only at heq
          split at heq <;> simp at heq
          obtain ⟨rfl, _⟩ := heq
          exact ⟨rfl, rfl⟩
  unfold newDatabase at h
  split at h
  · simp at h
  · simp at h
  · rename_i d fs'' hd
    obtain ⟨h0, h1⟩ := key d fs'' hd
    simp only [h1, Database.loadUsers, Prod.mk.injEq, Res.ok.injEq] at h
    rw [← h.1]
    exact h0

end GoIdentity
