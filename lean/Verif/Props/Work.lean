import Verif.Model.Work
import Verif.Props.Passwords
import Verif.Props.ApiKeys
import Verif.Lemmas.Split
/-!
# Telling users apart by the work done: C71
-/
namespace GoIdentity
open Toy

/-! ## C71 -/

theorem matchAnyW_fst [Ext] (s : GoString) (ps : List Password) : (matchAnyW s ps).1 = User.matchAny s ps := by
  induction ps with
  | nil => rfl
  | cons p ps ih =>
    unfold matchAnyW User.matchAny
    split
    · exact ih
    · split
      · rfl
      · exact ih

theorem verifyPasswordW_fst [Ext] (s : GoString) (u : User) : (verifyPasswordW s u).1 = u.verifyPassword s := by
  unfold verifyPasswordW User.verifyPassword
  split
  · rfl
  · rw [← matchAnyW_fst]
    rcases matchAnyW s u.passwords with ⟨b, w⟩
    cases b <;> simp

/-- C71: listing the bcrypt computations does not change what `NewPassword`, `AuthenticateUser` and `LookupAPIKey` do. -/
theorem C71_same_behaviour [Ext] (nd : Nondet) (db : Database) (fs : FS) (req : Request) (s : GoString) :
    (newPasswordW nd.now (nd.salts 0) s).1 = newPassword nd.now (nd.salts 0) s ∧
    (authenticateUserW nd db fs req).1 = exec .authenticateUser nd db fs req ∧
    (lookupAPIKeyW db fs req).1 = exec .lookupAPIKey nd db fs req := by
  refine ⟨?_, ?_, ?_⟩
  · unfold newPasswordW newPassword newPasswordWithOptions
    dsimp only
    split
    · rfl
    · simp only [if_pos (show (0 : Int) < 8 by omega), if_true]
      cases bcryptGenerate (trimSpace s) 10 (nd.salts 0) <;> rfl
  · show _ = Database.authenticateUser db fs req
    unfold authenticateUserW Database.authenticateUser
    rcases db.getUser req.user.username with _ | ⟨i, u⟩
    · rfl
    · dsimp only
      by_cases h1 : req.user.password ≠ []
      · rw [if_pos h1, if_pos h1, ← verifyPasswordW_fst]
        rcases verifyPasswordW req.user.password u with ⟨r, w⟩
        cases r <;> rfl
      · rw [if_neg h1, if_neg h1]
        by_cases h2 : req.webAuthn.request ≠ []
        · rw [if_pos h2, if_pos h2]
          cases User.verifyWebAuthnRequest req.webAuthn u <;> rfl
        · rw [if_neg h2, if_neg h2]
  · have hl : ∀ (pfx payload : GoString) (ks : List APIKey),
        (userLookupAPIKeyW pfx payload ks).1 = User.lookupAPIKey pfx payload ks := by
      intro pfx payload ks
      induction ks with
      | nil => rfl
      | cons k ks ih =>
        unfold userLookupAPIKeyW User.lookupAPIKey
        split
        · rfl
        · exact ih
    show _ = Database.lookupAPIKey db fs req
    unfold lookupAPIKeyW Database.lookupAPIKey
    by_cases h1 : req.key.payload = []
    · rw [if_pos h1, if_pos h1]
    rw [if_neg h1, if_neg h1]
    by_cases h2 : req.key.payload.length < 72
    · rw [if_pos h2, if_pos h2]
    rw [if_neg h2, if_neg h2]
    dsimp only
    rcases db.deref (db.refAPIKey (req.key.payload.take 24)) with _ | ⟨i, u⟩
    · rfl
    · dsimp only
      rw [← hl]
      rcases userLookupAPIKeyW (List.take 24 req.key.payload) req.key.payload u.apiKeys with ⟨r, w⟩
      cases r <;> rfl

/-- C71: in a history of a created database every stored password hash was made by bcrypt at cost 10. -/
theorem C71_stored_cost [Ext] {db : Database} (h : Reach Created db) :
    ∀ u ∈ db.users, ∀ p ∈ u.passwords, ∃ salt pw, p.hash = bcryptText 10 salt pw := by
  refine reach_forall_users (start := Created)
    (P := fun u => ∀ p ∈ u.passwords, ∃ salt pw, p.hash = bcryptText 10 salt pw) ?_ ?_ ?_ h
  · intro db hdb u hu
    rw [created_users hdb] at hu
    simp at hu
  · intro nd req db p e roles name hp he q hq
    obtain ⟨_, s, _, rfl⟩ := newPassword_ok hp
    rw [List.mem_singleton.1 hq]
    exact ⟨_, _, rfl⟩
  · intro nd req db c u u' _ hP hop
    by_cases hc : c = .changeUserPassword
    · subst hc
      cases hop with
      | changeUserPassword p hpol hold hp =>
        obtain ⟨_, s, _, rfl⟩ := newPassword_ok hp
        intro q hq
        rcases List.mem_cons.1 hq with rfl | hq
        · exact ⟨_, _, rfl⟩
        · change q ∈ User.keepLoop (nd.now.skip 1) (keepOf db.policy.password.keepVersions) 0 u.passwords at hq
          rw [keepLoop_eq _ _ (keepOf_pos _) 0 (by have := keepOf_pos db.policy.password.keepVersions; omega)] at hq
          obtain ⟨q', hq', _, rfl⟩ := mem_off hq
          have := hP q' (List.mem_of_mem_take hq')
          unfold Password.off
          split <;> exact this
    · rw [hop.parts.1 hc]
      exact hP

theorem matchAnyW_disabled [Ext] (s : GoString) (ps : List Password) (h : ∀ q ∈ ps, q.disabled = true ∧ q.expired = true) :
    matchAnyW s ps = (false, []) := by
  induction ps with
  | nil => rfl
  | cons p ps ih =>
    unfold matchAnyW
    rw [if_pos (by simp [(h p List.mem_cons_self).1])]
    exact ih fun q hq => h q (List.mem_cons_of_mem _ hq)

theorem getUser_known [Ext] {db : Database} (h : Inv db) {s : GoString} {u : User} (hu : u ∈ db.users) (hd : Denotes s u) :
    ∃ i, db.getUser s = some (i, u) := by
  obtain ⟨i, hi⟩ := List.getElem?_of_mem hu
  exact ⟨i, (getUser_iff h).2 ⟨hi, hd⟩⟩

theorem Reach.opened [Ext] {db : Database} (h : Reach Created db) : Reach Opened db := by
  induction h with
  | init h => exact .init h.opened
  | step _ c nd fs req ih => exact .step ih c nd fs req

/-- C71: a login with a non-empty password for a stored user makes exactly one bcrypt computation, a comparison with the
user's current hash, which has cost 10. -/
theorem C71_known_user [Ext] {db : Database} (h : Reach Created db) (nd : Nondet) (fs : FS) (req : Request)
    (hpw : req.user.password ≠ []) {u : User} (hu : u ∈ db.users) (hd : Denotes req.user.username u) :
    ∃ p ps salt pw, u.passwords = p :: ps ∧ p.hash = bcryptText 10 salt pw ∧
      (authenticateUserW nd db fs req).2 = [.compare p.hash] := by
  obtain ⟨i, hi⟩ := getUser_known (reach_inv h.opened) hu hd
  obtain ⟨p, ps, h1, h2, h3, h4⟩ := C14_one_active_password h u hu
  obtain ⟨salt, key, hk⟩ := C71_stored_cost h u hu p (by rw [h1]; exact List.mem_cons_self)
  refine ⟨p, ps, salt, key, h1, hk, ?_⟩
  have hm : (matchAnyW req.user.password u.passwords).2 = [.compare p.hash] := by
    rw [h1]
    unfold matchAnyW
    rw [if_neg (by simp [h2, h3]), matchAnyW_disabled _ ps h4]
    split <;> rfl
  unfold authenticateUserW
  rw [hi]
  dsimp only
  rw [if_pos hpw]
  have hv : (verifyPasswordW req.user.password u).2 = [.compare p.hash] := by
    unfold verifyPasswordW
    rw [if_neg (by simp [h1])]
    rcases hx : matchAnyW req.user.password u.passwords with ⟨b, w⟩
    rw [hx] at hm
    cases b <;> exact hm
  rcases hx : verifyPasswordW req.user.password u with ⟨r, w⟩
  rw [hx] at hv
  cases r <;> exact hv

/-- C71: a login for an unknown user makes exactly one bcrypt computation, at cost 10, if the password is not blank and there
is entropy, and none otherwise. -/
theorem C71_unknown_user [Ext] {db : Database} (h : Reach Opened db) (nd : Nondet) (fs : FS) (req : Request)
    (hn : ∀ u ∈ db.users, ¬ Denotes req.user.username u) :
    (¬ Blank req.user.password ∧ nd.salts 0 ≠ none → (authenticateUserW nd db fs req).2 = [.generate 10]) ∧
    (Blank req.user.password ∨ nd.salts 0 = none → (authenticateUserW nd db fs req).2 = []) := by
  have hg := (getUser_none_iff (reach_inv h)).2 hn
  unfold authenticateUserW
  rw [hg]
  dsimp only
  unfold newPasswordW bcryptGenerate
  dsimp only
  rw [← trimSpace_nil_iff]
  by_cases hb : trimSpace req.user.password = []
  · rw [if_pos hb]
    exact ⟨fun hc => absurd hb hc.1, fun _ => rfl⟩
  · rw [if_neg hb]
    cases hs : nd.salts 0 with
    | none => exact ⟨fun hc => absurd rfl hc.2, fun _ => rfl⟩
    | some s => exact ⟨fun _ => rfl, fun hc => by rcases hc with hc | hc; exact absurd hc hb; cases hc⟩

/-- C71: so a login with a blank, non-empty password makes one bcrypt computation if the user exists and none otherwise. -/
theorem C71_blank_password_reveals_user [Ext] {db : Database} (h : Reach Created db) (nd : Nondet) (fs : FS) (req : Request)
    (hpw : req.user.password ≠ []) (hb : Blank req.user.password) :
    (authenticateUserW nd db fs req).2 ≠ [] ↔ ∃ u ∈ db.users, Denotes req.user.username u := by
  constructor
  · intro hw
    refine Classical.byContradiction fun hc => hw ((C71_unknown_user h.opened nd fs req ?_).2 (.inl hb))
    exact fun u hu hd => hc ⟨u, hu, hd⟩
  · rintro ⟨u, hu, hd⟩
    obtain ⟨p, ps, _, _, _, _, hw⟩ := C71_known_user h nd fs req hpw hu hd
    rw [hw]; simp

/-- C71: with any other password and with entropy, the number of computations is one either way. -/
theorem C71_other_password_hides_user [Ext] {db : Database} (h : Reach Created db) (nd : Nondet) (fs : FS) (req : Request)
    (hb : ¬ Blank req.user.password) (hs : nd.salts 0 ≠ none) : (authenticateUserW nd db fs req).2.length = 1 := by
  have hpw : req.user.password ≠ [] := by
    intro hc; rw [hc] at hb; exact hb (trimSpace_nil_iff.1 rfl)
  by_cases hu : ∃ u ∈ db.users, Denotes req.user.username u
  · obtain ⟨u, hu, hd⟩ := hu
    obtain ⟨p, ps, _, _, _, _, hw⟩ := C71_known_user h nd fs req hpw hu hd
    rw [hw]; rfl
  · rw [(C71_unknown_user h.opened nd fs req (fun u hu' hd => hu ⟨u, hu', hd⟩)).1 ⟨hb, hs⟩]; rfl

/-- C71: the returned errors tell as well: a failed password login names the user as not found exactly if there is none. -/
theorem C71_error_reveals_user [Ext] {db : Database} (h : Reach Created db) (nd : Nondet) (fs : FS) (req : Request)
    (hpw : req.user.password ≠ []) {e : GoErr} (hf : (exec .authenticateUser nd db fs req).out = .fail e) :
    e = .withE .authFailed [] (.std .databaseUserNotFound) ∧ (∀ u ∈ db.users, ¬ Denotes req.user.username u) ∨
    e = .withE .authFailed [] (.std .userPasswordInvalid) ∧ ∃ u ∈ db.users, Denotes req.user.username u := by
  have hinv := reach_inv h.opened
  simp only [exec, Database.authenticateUser] at hf
  cases hg : db.getUser req.user.username with
  | none =>
    rw [hg] at hf
    simp only [Database.failWith] at hf
    injection hf with hf
    injection hf with hf
    exact .inl ⟨hf.symm, (getUser_none_iff hinv).1 hg⟩
  | some iu =>
    obtain ⟨i, u⟩ := iu
    obtain ⟨hi, hd⟩ := (getUser_iff hinv).1 hg
    have hu := List.mem_of_getElem? hi
    obtain ⟨p, ps, h1, _⟩ := C14_one_active_password h u hu
    rw [hg] at hf
    dsimp only at hf
    rw [if_pos hpw] at hf
    have hv : u.verifyPassword req.user.password = none ∨
        u.verifyPassword req.user.password = some (.std .userPasswordInvalid) := by
      unfold User.verifyPassword
      rw [if_neg (by simp [h1])]
      split <;> simp
    rcases hv with hv | hv
    · rw [hv] at hf; simp at hf
    · rw [hv] at hf
      simp only [Database.failWith] at hf
      injection hf with hf
      injection hf with hf
      exact .inr ⟨hf.symm, u, hu, hd⟩

theorem lookupKeysW [Ext] (pfx payload : GoString) (ks : List APIKey) :
    (∃ k ∈ ks, k.pfx = pfx ∧ (userLookupAPIKeyW pfx payload ks).2 = [.compare k.payload]) ∨
    (∀ k ∈ ks, k.pfx ≠ pfx) ∧ (userLookupAPIKeyW pfx payload ks).2 = [] := by
  induction ks with
  | nil => exact .inr ⟨by simp, rfl⟩
  | cons k ks ih =>
    unfold userLookupAPIKeyW
    by_cases hk : k.pfx = pfx
    · rw [if_pos hk]
      exact .inl ⟨k, List.mem_cons_self, hk, rfl⟩
    · rw [if_neg hk]
      rcases ih with ⟨k', h1, h2, h3⟩ | ⟨h1, h2⟩
      · exact .inl ⟨k', List.mem_cons_of_mem _ h1, h2, h3⟩
      · refine .inr ⟨?_, h2⟩
        intro k' hk'
        rcases List.mem_cons.1 hk' with rfl | hk'
        · exact hk
        · exact h1 k' hk'

/-- C71: looking up an API key makes one bcrypt computation if it has at least 72 bytes and a stored key has its 24-byte
prefix, and none otherwise. -/
theorem C71_lookup_reveals_prefix [Ext] {db : Database} (h : Reach Opened db) (fs : FS) (req : Request) :
    (∃ u ∈ db.users, ∃ k ∈ u.apiKeys, 72 ≤ req.key.payload.length ∧ k.pfx = req.key.payload.take 24 ∧
      (lookupAPIKeyW db fs req).2 = [.compare k.payload]) ∨
    ¬ (72 ≤ req.key.payload.length ∧ ∃ u ∈ db.users, ∃ k ∈ u.apiKeys, k.pfx = req.key.payload.take 24) ∧
      (lookupAPIKeyW db fs req).2 = [] := by
  have hinv := reach_inv h
  unfold lookupAPIKeyW
  by_cases h1 : req.key.payload = []
  · rw [if_pos h1]
    exact .inr ⟨by rw [h1]; simp, rfl⟩
  rw [if_neg h1]
  by_cases h2 : req.key.payload.length < 72
  · rw [if_pos h2]
    exact .inr ⟨fun hc => by omega, rfl⟩
  rw [if_neg h2]
  dsimp only
  cases hd : db.deref (db.refAPIKey (req.key.payload.take 24)) with
  | none =>
    refine .inr ⟨?_, rfl⟩
    rintro ⟨_, u, hu, k, hk, hp⟩
    obtain ⟨i, hi⟩ := List.getElem?_of_mem hu
    have := hinv.api_ref i u k hi hk
    rw [hp] at this
    rw [this] at hd
    simp [Database.deref, hi] at hd
  | some iu =>
    obtain ⟨i, u⟩ := iu
    have hr : db.refAPIKey (req.key.payload.take 24) = some i ∧ db.users[i]? = some u := by
      unfold Database.deref at hd
      split at hd
      · simp at hd
      · rename_i j hj
        cases hg : db.users[j]? with
        | none => simp [hg] at hd
        | some w => simp [hg] at hd; obtain ⟨rfl, rfl⟩ := hd; exact ⟨hj, hg⟩
    have hmem := List.mem_of_getElem? hr.2
    dsimp only
    rcases lookupKeysW (req.key.payload.take 24) req.key.payload u.apiKeys with ⟨k, hk, hp, hw⟩ | ⟨hn, hw⟩
    · refine .inl ⟨u, hmem, k, hk, by omega, hp, ?_⟩
      rcases hx : userLookupAPIKeyW (req.key.payload.take 24) req.key.payload u.apiKeys with ⟨r, w⟩
      rw [hx] at hw
      cases r <;> exact hw
    · refine .inr ⟨?_, ?_⟩
      · rintro ⟨_, v, hv, k, hk, hp⟩
        obtain ⟨j, hj⟩ := List.getElem?_of_mem hv
        have := hinv.api_ref j v k hj hk
        rw [hp, hr.1, Option.some.injEq] at this
        subst this
        rw [hr.2, Option.some.injEq] at hj
        subst hj
        exact hn k hk hp
      · rcases hx : userLookupAPIKeyW (req.key.payload.take 24) req.key.payload u.apiKeys with ⟨r, w⟩
        rw [hx] at hw
        cases r <;> exact hw

-- Joe exists, Zoe does not: a wrong password costs one computation either way, a blank one tells them apart.
example : (authenticateUserW nd db2 fs3 (reqLogin (gs! "joe") (gs! "nonsense"))).2.length = 1 ∧
    (authenticateUserW nd db2 fs3 (reqLogin (gs! "zoe") (gs! "nonsense"))).2 = [.generate 10] ∧
    (authenticateUserW nd db2 fs3 (reqLogin (gs! "joe") (gs! " "))).2.length = 1 ∧
    (authenticateUserW nd db2 fs3 (reqLogin (gs! "zoe") (gs! " "))).2 = [] := by decide +kernel

end GoIdentity
