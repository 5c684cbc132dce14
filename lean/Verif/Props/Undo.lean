import Verif.Lemmas.Undo
import Verif.Props.Success
import Verif.Props.Keys
/-!
# Adding and deleting cancel out: C98
-/
namespace GoIdentity
open Toy

/-- `db'` is `db`, except that the account `u` at position `i` and the database as a whole have been revised twice, and carry
the times of their last change. -/
structure BackTo [Ext] (db db' : Database) (i : Nat) (u : User) : Prop where
  users : ∃ r t, db'.users = db.users.set i { u with revision := r, lastModified := t } ∧
    (r = u.revision + 2 ∨ r = u.revision + 2 - 2 ^ 64)
  usernames : db'.refUsername = db.refUsername
  emails : db'.refEmailAddress = db.refEmailAddress
  ids : db'.refID = db.refID
  keys : db'.refAPIKey = db.refAPIKey
  policy : db'.policy = db.policy
  version : db'.version = db.version
  path : db'.path = db.path
  revision : db'.revision = (db.revision + 2) % 2 ^ 64

/-- C98: an API key that was just issued can be deleted by anyone naming the account, provided the account has no other key
with the same ID.  The database is then what it was: the same accounts, keys and lookups. -/
theorem C98_api_key [Ext] {db : Database} (h : Reach Opened db) {nd : Nondet} {fs : FS} {req : Request}
    (hs : (exec .addAPIKey nd db fs req).Succeeded) :
    ∃ (i : Nat) (u u' : User) (key : APIKey), db.users[i]? = some u ∧ Addressed db req u ∧
      (exec .addAPIKey nd db fs req).db.users[i]? = some u' ∧ u'.apiKeys = u.apiKeys ++ [key] ∧
      ∀ (nd' : Nondet) (fs' : FS) (req' : Request), Addressed db req' u → req'.key.id = key.id →
        (∀ k ∈ u.apiKeys, k.id ≠ key.id) → CanWrite nd' fs' db.path →
        (exec .deleteAPIKey nd' (exec .addAPIKey nd db fs req).db fs' req').Succeeded ∧
        BackTo db (exec .deleteAPIKey nd' (exec .addAPIKey nd db fs req).db fs' req').db i u := by
  have hinv := reach_inv h
  obtain ⟨db', m, hc⟩ := exec_success (c := .addAPIKey) rfl hs
  cases m with
  | addAPIKey i u u' s hash hv hsec hl hadd =>
    obtain ⟨key, hkey, hu'⟩ := User.addAPIKey_ok hadd
    have hkeq := (User.newAPIKey_ok hkey).2.2.2
    have hi := ((validate_iff hinv).1 hv).1
    have hlt := (List.getElem?_eq_some_iff.1 hi).1
    have husers : (exec .addAPIKey nd db fs req).db.users = db.users.set i u' := by rw [hc.db_eq]; rfl
    refine ⟨i, u, u', key, hi, (addressed_iff hinv).1 ⟨i, hv⟩, by rw [husers, List.getElem?_set_self hlt], by rw [hu']; rfl, ?_⟩
    intro nd' fs' req' ha hid hfresh hw
    have hv' := validate_set hinv (exec_inv (c := .addAPIKey) (nd := nd) (fs := fs) (req := req) hinv) (addressed_same hinv hv ha) husers
      (by rw [hu']; rfl) (by rw [hu']; rfl) (by rw [hu']; rfl)
    have hex : ∃ x ∈ u'.apiKeys, x.id = req'.key.id := ⟨key, by rw [hu']; exact List.mem_append_right _ (by simp), hid.symm⟩
    obtain ⟨u2, key2, hd⟩ := deleteAPIKey_of (now := nd'.now) (k := req'.key) hex
    obtain ⟨⟨x, hx, hk2⟩, hu2⟩ := User.deleteAPIKey_ok hd
    have hm := Mutation.deleteAPIKey i u' u2 key2 hv' hd
    have hcom := hm.exec (fs := fs')
    have hf : u'.apiKeys.filter (fun x => !(x.id == req'.key.id)) = u.apiKeys := by
      rw [hu']
      exact filter_last (fun x hx => by simpa [hid] using hfresh x hx) (by simp [hid])
    have hxk : x = key := by
      have hxm := List.mem_of_getLast? hx
      rw [List.mem_filter, hu'] at hxm
      obtain ⟨hxm, hxid⟩ := hxm
      simp only [User.revise, List.mem_append, List.mem_singleton] at hxm
      rcases hxm with hxm | hxm
      · exact absurd (by simpa [hid] using hxid) (hfresh x hxm)
      · exact hxm
    have hpath : (exec .addAPIKey nd db fs req).db.path = db.path := by rw [hc.db_eq]; rfl
    refine ⟨?_, ?_⟩
    · refine (success_iff rfl).2 ⟨⟨_, hm⟩, ?_⟩
      show (exec .addAPIKey nd db fs req).db.path ≠ [] ∧ fs' (exec .addAPIKey nd db fs req).db.path ≠ some .dir ∧ nd'.io = .ok
      rw [hpath]
      exact hw
    · refine ⟨⟨_, nd'.now 0, ?_, incr64_twice u.revision⟩, ?_, ?_, ?_, ?_, ?_, ?_, ?_, ?_⟩
      · rw [hcom.db_eq]
        show ((exec .addAPIKey nd db fs req).db.users.set i u2) = _
        rw [husers, List.set_set, hu2, hf, hu']
        rfl
      · rw [hcom.db_eq]; show (exec .addAPIKey nd db fs req).db.refUsername = _; rw [hc.db_eq]; rfl
      · rw [hcom.db_eq]; show (exec .addAPIKey nd db fs req).db.refEmailAddress = _; rw [hc.db_eq]; rfl
      · rw [hcom.db_eq]; show (exec .addAPIKey nd db fs req).db.refID = _; rw [hc.db_eq]; rfl
      · rw [hcom.db_eq]
        show upd (exec .addAPIKey nd db fs req).db.refAPIKey key2.pfx none = _
        have : key2.pfx = s.take 24 := by rw [hk2, hxk, hkeq]
        rw [hc.db_eq, this]
        exact upd_undo _ _ _ (keyLoop_found hl).1
      · rw [hcom.db_eq]; show (exec .addAPIKey nd db fs req).db.policy = _; rw [hc.db_eq]; rfl
      · rw [hcom.db_eq]; show (exec .addAPIKey nd db fs req).db.version = _; rw [hc.db_eq]; rfl
      · rw [hcom.db_eq]; show (exec .addAPIKey nd db fs req).db.path = _; rw [hc.db_eq]; rfl
      · rw [hcom.db_eq]
        show ((exec .addAPIKey nd db fs req).db.revision + 1) % 2 ^ 64 = _
        rw [hc.db_eq]
        exact incr_twice _

/-- C98: the same for public keys. -/
theorem C98_public_key [Ext] {db : Database} (h : Reach Opened db) {nd : Nondet} {fs : FS} {req : Request}
    (hs : (exec .addPublicKey nd db fs req).Succeeded) :
    ∃ (i : Nat) (u u' : User) (key : PublicKey), db.users[i]? = some u ∧ Addressed db req u ∧
      (exec .addPublicKey nd db fs req).db.users[i]? = some u' ∧ u'.publicKeys = u.publicKeys ++ [key] ∧
      ∀ (nd' : Nondet) (fs' : FS) (req' : Request), Addressed db req' u → req'.key.id = key.id →
        (∀ k ∈ u.publicKeys, k.id ≠ key.id) → CanWrite nd' fs' db.path →
        (exec .deletePublicKey nd' (exec .addPublicKey nd db fs req).db fs' req').Succeeded ∧
        BackTo db (exec .deletePublicKey nd' (exec .addPublicKey nd db fs req).db fs' req').db i u := by
  have hinv := reach_inv h
  obtain ⟨db', m, hc⟩ := exec_success (c := .addPublicKey) rfl hs
  cases m with
  | addPublicKey i u u' hv hadd =>
    obtain ⟨key, hkey, _, hu'⟩ := User.addPublicKey_ok hadd
    have hi := ((validate_iff hinv).1 hv).1
    have hlt := (List.getElem?_eq_some_iff.1 hi).1
    have husers : (exec .addPublicKey nd db fs req).db.users = db.users.set i u' := by rw [hc.db_eq]; rfl
    refine ⟨i, u, u', key, hi, (addressed_iff hinv).1 ⟨i, hv⟩, by rw [husers, List.getElem?_set_self hlt], by rw [hu']; rfl, ?_⟩
    intro nd' fs' req' ha hid hfresh hw
    have hv' := validate_set hinv (exec_inv (c := .addPublicKey) (nd := nd) (fs := fs) (req := req) hinv) (addressed_same hinv hv ha) husers
      (by rw [hu']; rfl) (by rw [hu']; rfl) (by rw [hu']; rfl)
    have hex : ∃ x ∈ u'.publicKeys, x.id = req'.key.id := ⟨key, by rw [hu']; exact List.mem_append_right _ (by simp), hid.symm⟩
    obtain ⟨u2, hd⟩ := deletePublicKey_of (now := nd'.now) hex
    obtain ⟨_, hu2⟩ := User.deletePublicKey_ok hd
    have hm := Mutation.deletePublicKey i u' u2 hv' hd
    have hcom := hm.exec (fs := fs')
    have hf : u'.publicKeys.filter (fun x => !(x.id == req'.key.id)) = u.publicKeys := by
      rw [hu']
      exact filter_last (fun x hx => by simpa [hid] using hfresh x hx) (by simp [hid])
    have hpath : (exec .addPublicKey nd db fs req).db.path = db.path := by rw [hc.db_eq]; rfl
    refine ⟨?_, ?_⟩
    · refine (success_iff rfl).2 ⟨⟨_, hm⟩, ?_⟩
      show (exec .addPublicKey nd db fs req).db.path ≠ [] ∧ fs' (exec .addPublicKey nd db fs req).db.path ≠ some .dir ∧ nd'.io = .ok
      rw [hpath]
      exact hw
    · refine ⟨⟨_, nd'.now 0, ?_, incr64_twice u.revision⟩, ?_, ?_, ?_, ?_, ?_, ?_, ?_, ?_⟩
      · rw [hcom.db_eq]
        show ((exec .addPublicKey nd db fs req).db.users.set i u2) = _
        rw [husers, List.set_set, hu2, hf, hu']
        rfl
      · rw [hcom.db_eq]; show (exec .addPublicKey nd db fs req).db.refUsername = _; rw [hc.db_eq]; rfl
      · rw [hcom.db_eq]; show (exec .addPublicKey nd db fs req).db.refEmailAddress = _; rw [hc.db_eq]; rfl
      · rw [hcom.db_eq]; show (exec .addPublicKey nd db fs req).db.refID = _; rw [hc.db_eq]; rfl
      · rw [hcom.db_eq]; show (exec .addPublicKey nd db fs req).db.refAPIKey = _; rw [hc.db_eq]; rfl
      · rw [hcom.db_eq]; show (exec .addPublicKey nd db fs req).db.policy = _; rw [hc.db_eq]; rfl
      · rw [hcom.db_eq]; show (exec .addPublicKey nd db fs req).db.version = _; rw [hc.db_eq]; rfl
      · rw [hcom.db_eq]; show (exec .addPublicKey nd db fs req).db.path = _; rw [hc.db_eq]; rfl
      · rw [hcom.db_eq]
        show ((exec .addPublicKey nd db fs req).db.revision + 1) % 2 ^ 64 = _
        rw [hc.db_eq]
        exact incr_twice _

/-- C98: the same for MFA tokens. -/
theorem C98_mfa_token [Ext] {db : Database} (h : Reach Opened db) {nd : Nondet} {fs : FS} {req : Request}
    (hs : (exec .addMfaToken nd db fs req).Succeeded) :
    ∃ (i : Nat) (u u' : User) (key : MfaToken), db.users[i]? = some u ∧ Addressed db req u ∧
      (exec .addMfaToken nd db fs req).db.users[i]? = some u' ∧ u'.mfaTokens = u.mfaTokens ++ [key] ∧
      ∀ (nd' : Nondet) (fs' : FS) (req' : Request), Addressed db req' u → req'.mfaToken.id = key.id →
        (∀ k ∈ u.mfaTokens, k.id ≠ key.id) → CanWrite nd' fs' db.path →
        (exec .deleteMfaToken nd' (exec .addMfaToken nd db fs req).db fs' req').Succeeded ∧
        BackTo db (exec .deleteMfaToken nd' (exec .addMfaToken nd db fs req).db fs' req').db i u := by
  have hinv := reach_inv h
  obtain ⟨db', m, hc⟩ := exec_success (c := .addMfaToken) rfl hs
  cases m with
  | addMfaToken i u u' req1 hv hadd =>
    obtain ⟨key, hkey, _, hu'⟩ := User.addMfaToken_ok hadd
    have hi := ((validate_iff hinv).1 hv).1
    have hlt := (List.getElem?_eq_some_iff.1 hi).1
    have husers : (exec .addMfaToken nd db fs req).db.users = db.users.set i u' := by rw [hc.db_eq]; rfl
    refine ⟨i, u, u', key, hi, (addressed_iff hinv).1 ⟨i, hv⟩, by rw [husers, List.getElem?_set_self hlt], by rw [hu']; rfl, ?_⟩
    intro nd' fs' req' ha hid hfresh hw
    have hv' := validate_set hinv (exec_inv (c := .addMfaToken) (nd := nd) (fs := fs) (req := req) hinv) (addressed_same hinv hv ha) husers
      (by rw [hu']; rfl) (by rw [hu']; rfl) (by rw [hu']; rfl)
    have hex : ∃ x ∈ u'.mfaTokens, x.id = req'.mfaToken.id := ⟨key, by rw [hu']; exact List.mem_append_right _ (by simp), hid.symm⟩
    obtain ⟨u2, hd⟩ := deleteMfaToken_of (now := nd'.now) hex
    obtain ⟨_, hu2⟩ := User.deleteMfaToken_ok hd
    have hm := Mutation.deleteMfaToken i u' u2 hv' hd
    have hcom := hm.exec (fs := fs')
    have hf : u'.mfaTokens.filter (fun x => !(x.id == req'.mfaToken.id)) = u.mfaTokens := by
      rw [hu']
      exact filter_last (fun x hx => by simpa [hid] using hfresh x hx) (by simp [hid])
    have hpath : (exec .addMfaToken nd db fs req).db.path = db.path := by rw [hc.db_eq]; rfl
    refine ⟨?_, ?_⟩
    · refine (success_iff rfl).2 ⟨⟨_, hm⟩, ?_⟩
      show (exec .addMfaToken nd db fs req).db.path ≠ [] ∧ fs' (exec .addMfaToken nd db fs req).db.path ≠ some .dir ∧ nd'.io = .ok
      rw [hpath]
      exact hw
    · refine ⟨⟨_, nd'.now 0, ?_, incr64_twice u.revision⟩, ?_, ?_, ?_, ?_, ?_, ?_, ?_, ?_⟩
      · rw [hcom.db_eq]
        show ((exec .addMfaToken nd db fs req).db.users.set i u2) = _
        rw [husers, List.set_set, hu2, hf, hu']
        rfl
      · rw [hcom.db_eq]; show (exec .addMfaToken nd db fs req).db.refUsername = _; rw [hc.db_eq]; rfl
      · rw [hcom.db_eq]; show (exec .addMfaToken nd db fs req).db.refEmailAddress = _; rw [hc.db_eq]; rfl
      · rw [hcom.db_eq]; show (exec .addMfaToken nd db fs req).db.refID = _; rw [hc.db_eq]; rfl
      · rw [hcom.db_eq]; show (exec .addMfaToken nd db fs req).db.refAPIKey = _; rw [hc.db_eq]; rfl
      · rw [hcom.db_eq]; show (exec .addMfaToken nd db fs req).db.policy = _; rw [hc.db_eq]; rfl
      · rw [hcom.db_eq]; show (exec .addMfaToken nd db fs req).db.version = _; rw [hc.db_eq]; rfl
      · rw [hcom.db_eq]; show (exec .addMfaToken nd db fs req).db.path = _; rw [hc.db_eq]; rfl
      · rw [hcom.db_eq]
        show ((exec .addMfaToken nd db fs req).db.revision + 1) % 2 ^ 64 = _
        rw [hc.db_eq]
        exact incr_twice _

/-- C98: the proviso is needed.  Joe has a key, gets a second one with the same ID and deletes it: the first one is gone
too. -/
theorem C98_needs_distinct_ids :
    Reach Opened dbKey ∧ (exec .addAPIKey ndB dbKey fs3 reqApi).Succeeded ∧ (exec .deleteAPIKey nd dbTwin fs3 reqDel).Succeeded ∧
    ∀ i u, dbKey.users[i]? = some u → ¬ BackTo dbKey (exec .deleteAPIKey nd dbTwin fs3 reqDel).db i u := by
  refine ⟨dbKey_reach, by unfold Result.Succeeded; decide +kernel, by unfold Result.Succeeded; decide +kernel, ?_⟩
  intro i u hi hb
  obtain ⟨r, t, hu, _⟩ := hb.users
  have h1 : (exec .deleteAPIKey nd dbTwin fs3 reqDel).db.users.map (·.apiKeys.length) = [0, 0] := by decide +kernel
  have h2 : dbKey.users.map (·.apiKeys.length) = [1, 0] := by decide +kernel
  have h3 : (dbKey.users.set i { u with revision := r, lastModified := t }).map (·.apiKeys.length) =
      dbKey.users.map (·.apiKeys.length) := by
    rw [List.map_set]
    refine List.ext_getElem? fun j => ?_
    by_cases hj : i = j
    · subst hj
      have hlt := (List.getElem?_eq_some_iff.1 hi).1
      rw [List.getElem?_set_self (by simpa using hlt), List.getElem?_map, hi]
      rfl
    · rw [List.getElem?_set_ne hj]
  rw [hu, h3, h2] at h1
  simp at h1

example : (exec .addAPIKey ndA db2 fs3 reqApi).Succeeded ∧ (exec .deleteAPIKey nd dbKey fs3 reqDel).Succeeded ∧
    dbKey.users.map (·.apiKeys.length) = [1, 0] ∧
    (exec .deleteAPIKey nd dbKey fs3 reqDel).db.users.map (·.apiKeys) = [[], []] ∧
    (exec .deleteAPIKey nd dbKey fs3 reqDel).db.refAPIKey (joeSecret.take 24) = none ∧
    (exec .deleteAPIKey nd dbKey fs3 reqDel).db.users.map (·.revision) ≠ db2.users.map (·.revision) := by
  unfold Result.Succeeded; decide +kernel

-- Joe's public key and Joe's token come and go.
example : (exec .addPublicKey nd dbP1 fs0 reqPem).Succeeded ∧ dbP2.users.map (·.publicKeys.length) = [1] ∧
    (exec .deletePublicKey nd dbP2 fs0 { reqPem with key := { id := getRandomString nd.seedRand 0 40 } }).Succeeded ∧
    (exec .deletePublicKey nd dbP2 fs0 { reqPem with key := { id := getRandomString nd.seedRand 0 40 } }).db.users.map
      (·.publicKeys) = [[]] := by
  unfold Result.Succeeded; decide +kernel
example : (exec .addMfaToken nd db2 fs3 reqTotp).Succeeded ∧ dbTok.users.map (·.mfaTokens.length) = [1, 0] ∧
    (exec .deleteMfaToken nd dbTok fs3 { reqTotp with mfaToken := { id := getRandomString nd.seedRand 0 40 } }).Succeeded ∧
    (exec .deleteMfaToken nd dbTok fs3 { reqTotp with mfaToken := { id := getRandomString nd.seedRand 0 40 } }).db.users.map
      (·.mfaTokens) = [[], []] := by
  unfold Result.Succeeded; decide +kernel

end GoIdentity
