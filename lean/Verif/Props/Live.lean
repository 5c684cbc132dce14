import Verif.Model.Live
import Verif.Props.Opening
import Verif.Props.Storage
import Verif.Props.Success
import Verif.Props.Identity
/-!
# The record that GetUser hands out: C103
-/
set_option linter.unusedSectionVars false
namespace GoIdentity
open Toy

/-! ## C103 -/

/-- C103: `GetUser` hands out the record of the user that the request names. -/
theorem C103_hands_out [Ext] {db : Database} (h : Reach Opened db) {nd : Nondet} {fs : FS} {req : Request}
    (hs : (exec .getUser nd db fs req).Succeeded) :
    ∃ i u, (exec .getUser nd db fs req).req.response.payload = .userPtr i ∧ db.shown i = some u ∧ Addressed db req u := by
  have hinv := reach_inv h
  simp only [exec, Database.getUserCall, Result.Succeeded] at hs ⊢
  split at hs
  · simp [Database.failWith] at hs
  · rename_i i u hv
    exact ⟨i, u, rfl, ((validate_iff hinv).1 hv).1, (addressed_iff hinv).1 ⟨i, hv⟩⟩

/-- C103: the answer stays as it was as long as no later call names that user. -/
theorem C103_unchanged_by_others [Ext] {db : Database} (h : Reach Opened db) {i : Nat} {u : User} (hu : db.shown i = some u)
    (fs : FS) (ops : List Op) (ho : ∀ o ∈ ops, toLower o.req.user.username ≠ toLower u.username) :
    (run db fs ops).1.shown i = some u := by
  obtain ⟨v, h1, h2, _⟩ := run_user (R := fun a b => a = b) (Q := fun o => toLower o.req.user.username ≠ toLower u.username)
    (fun _ => rfl) (fun _ _ _ h1 h2 => h1.trans h2) h (fs := fs) ho
    (fun o d w w' hq _ _ hsw hn _ => absurd (by rw [← hn.2, hsw.username]) hq) hu
  rw [h2]
  exact h1

/-- C103: but it is not a copy: every later call that modifies that user changes what the earlier answer shows. -/
theorem C103_not_a_copy [Ext] {db : Database} (h : Reach Opened db) {c : Call} (hc : c ∈ modifyingCalls)
    {nd : Nondet} {fs : FS} {req : Request} (hs : (exec c nd db fs req).Succeeded) {i : Nat} {u : User} (hu : db.shown i = some u)
    (hn : NamesUser req.user.username u) :
    ∃ u', (exec c nd db fs req).db.shown i = some u' ∧ u'.revision ≠ u.revision := by
  obtain ⟨j, w, w', hj, hnw, husers, hrev, _⟩ := C56_revision_counts h hc hs
  have hinv := reach_inv h
  have hij : i = j ∧ u = w := by
    have e1 := (getUserByUsername_iff hinv).2 ⟨hu, hn⟩
    have e2 := (getUserByUsername_iff hinv).2 ⟨hj, hnw⟩
    rw [e1] at e2
    simpa using e2
  obtain ⟨rfl, rfl⟩ := hij
  have hlt := (List.getElem?_eq_some_iff.1 hj).1
  refine ⟨w', ?_, ?_⟩
  · show (exec c nd db fs req).db.users[i]? = _
    rw [husers]; simp [hlt]
  · rw [hrev]; split <;> omega

/-- C103: what the caller writes through the answer goes to disk with the next successful call that writes, whoever makes it (unless that
call is for the same user), although no revision was counted for it.  The records of the other users whom that call is not for stay as
they were. -/
theorem C103_write_is_saved [Ext] {db : Database} {i : Nat} {u : User} (hu : db.shown i = some u) (f : User → User)
    {c : Call} (hm : c.mutates = true) {nd : Nondet} {fs : FS} {req : Request}
    (hs : (exec c nd (db.poke i f) fs req).Succeeded)
    (hother : ∀ v, (db.poke i f).validateUserIdentity req.user.username req.user.email ≠ .ok (i, v)) :
    (exec c nd (db.poke i f) fs req).db.shown i = some (f u) ∧
    (exec c nd (db.poke i f) fs req).fs (c.target db) =
      some (.file (marshalDB (exec c nd (db.poke i f) fs req).db.toDBData)) ∧
    (exec c nd (db.poke i f) fs req).db.revision = (db.revision + 1) % 2 ^ 64 ∧
    ∀ j v, j ≠ i → db.shown j = some v → (∀ w, (db.poke i f).validateUserIdentity req.user.username req.user.email ≠ .ok (j, w)) →
      (exec c nd (db.poke i f) fs req).db.shown j = some v := by
  have hget : (db.poke i f).users[i]? = some (f u) := by
    have hu : db.users[i]? = some u := hu
    simp [Database.poke, hu]
  obtain ⟨h1, _, h2, _⟩ := C44_commit_reaches_disk hm hs
  have ht : c.target (db.poke i f) = c.target db := by cases c <;> rfl
  rw [ht] at h2
  refine ⟨?_, h2, h1, fun j v hj hv hoj => ?_⟩
  · rcases exec_user_at (c := c) (nd := nd) (fs := fs) (req := req) hget with h3 | ⟨_, _, _, hv⟩
    · exact h3
    · exact absurd hv (hother _)
  · have hgj : (db.poke i f).users[j]? = some v := by
      have hv : db.users[j]? = some v := hv
      simp [Database.poke, Ne.symm hj, hv]
    rcases exec_user_at (c := c) (nd := nd) (fs := fs) (req := req) hgj with h3 | ⟨_, _, _, hv'⟩
    · exact h3
    · exact absurd hv' (hoj _)

/-- C103: and it can make the file unusable: if the caller gives one user the name of another, then after the next successful call
that writes, whatever it is, the file cannot be opened any more. -/
theorem C103_write_can_brick [Ext] {db : Database} {i j : Nat} {u v : User} (hij : i ≠ j) (hu : db.shown i = some u)
    (hv : db.shown j = some v) {c : Call} (hm : c.mutates = true) {nd : Nondet} {fs : FS} {req : Request}
    (hs : (exec c nd (db.poke i fun u => { u with username := v.username }) fs req).Succeeded)
    (hok : (exec c nd (db.poke i fun u => { u with username := v.username }) fs req).db.toDBData.Ok)
    (hp : (c.target db).head? ≠ some 126) {nd' : Nondet} (hst : nd'.statErr = false)
    (hrd : nd'.readErr = false) :
    ¬ ∃ db' fs', newDatabase nd' (exec c nd (db.poke i fun u => { u with username := v.username }) fs req).fs (c.target db) = (.ok db', fs') := by
  have hu : db.users[i]? = some u := hu
  have hv : db.users[j]? = some v := hv
  have hi : (db.poke i fun u => { u with username := v.username }).users[i]? = some { u with username := v.username } := by
    simp [Database.poke, hu]
  have hj : (db.poke i fun u => { u with username := v.username }).users[j]? = some v := by
    simp [Database.poke, hij, hv]
  have ht : c.target (db.poke i fun u => { u with username := v.username }) = c.target db := by cases c <;> rfl
  generalize db.poke i (fun u => { u with username := v.username }) = d at *
  have key : ∀ (k : Nat) (w : User), d.users[k]? = some w →
      ∃ w', (exec c nd d fs req).db.users[k]? = some w' ∧ w'.username = w.username := by
    intro k w hk
    rcases exec_user_at (c := c) (nd := nd) (fs := fs) (req := req) hk with h3 | ⟨w', h3, hkp, _⟩
    · exact ⟨w, h3, rfl⟩
    · exact ⟨w', h3, by rw [hkp.eq]⟩
  obtain ⟨u', hu', eu⟩ := key i _ hi
  obtain ⟨v', hv', ev⟩ := key j _ hj
  obtain ⟨_, _, hf, _⟩ := C44_commit_reaches_disk hm hs
  rw [ht] at hf
  have hne : c.target db ≠ [] := by
    intro hc
    exact C44_failed_write_reported hm (.inr (.inl (ht.trans hc))) hs
  intro hopen
  have hcons := ((C50_opened_iff_consistent hf hp hne hst hrd (C46_decode_encode hok)).1.1 hopen).1
  have hnd := hcons.usernames
  have e1 : ((exec c nd d fs req).db.users.map fun u => toLower u.username)[i]? = some (toLower v.username) := by
    rw [List.getElem?_map, hu', Option.map_some, eu]
  have e2 : ((exec c nd d fs req).db.users.map fun u => toLower u.username)[j]? = some (toLower v.username) := by
    rw [List.getElem?_map, hv', Option.map_some, ev]
  have hlt := (List.getElem?_eq_some_iff.1 e1).1
  exact hij ((List.getElem?_inj hlt hnd).1 (e1.trans e2.symm))

/-- Joe's record is handed out; then Ann changes nothing of it, and Joe's new key does. -/
example : (exec .getUser nd db2 fs3 reqApi).Succeeded ∧ NamesUser reqApi.user.username (db2.users.head (by decide +kernel)) ∧
    toLower reqAnn.user.username ≠ toLower (db2.users.head (by decide +kernel)).username := by
  refine ⟨by unfold Result.Succeeded; decide +kernel, ?_, by decide +kernel⟩
  unfold NamesUser
  decide +kernel

/-- Somebody who was handed Ann's record calls her Joe. -/
def dbPoked : Database := db2.poke 1 fun u => { u with username := gs! "Joe" }

/-- The database is saved: all hypotheses of the last theorem hold. -/
example : (db2.users.map (·.username) == [gs! "Joe", gs! "ann"]) = true ∧ (exec .save nd dbPoked fs3 {}).Succeeded ∧
    (exec .save nd dbPoked fs3 {}).db.toDBData.Ok := by
  refine ⟨by decide +kernel, by unfold Result.Succeeded; decide +kernel, ?_⟩
  exact unmarshal_ok (b := marshalDB (exec .save nd dbPoked fs3 {}).db.toDBData) (by decide +kernel)

end GoIdentity
