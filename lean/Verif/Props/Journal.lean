import Verif.Lemmas.Journal
import Verif.Spec.Toy
import Verif.Props.ApiKeys
import Verif.Props.Passwords
/-!
# The journal decides: C108, and when a call changes the database (C07)
-/
namespace GoIdentity
open Toy

/-! ## C07 -/

/-- C07, exactly: a call has changed the database if and only if it is one of the ten mutating calls and returned nil or an
error that says that the file could not be written. -/
theorem C07_changed_iff [Ext] (c : Call) (nd : Nondet) (db : Database) (fs : FS) (req : Request) :
    ((exec c nd db fs req).db ≠ db ↔ c.mutates = true ∧ (exec c nd db fs req).Kept) ∧
      ((exec c nd db fs req).db.revision ≠ db.revision ↔ c.mutates = true ∧ (exec c nd db fs req).Kept) := by
  rcases exec_kept c nd db fs req with ⟨h, hn⟩ | ⟨hk, hm, db', m, hc⟩
  · exact ⟨⟨fun h' => absurd h.db_eq h', fun h' => absurd h' hn⟩, ⟨fun h' => absurd (by rw [h.db_eq]) h', fun h' => absurd h' hn⟩⟩
  · have : (exec c nd db fs req).db.revision ≠ db.revision := by
      rw [hc.db_eq]
      have hr : db'.revision = db.revision := by cases m <;> rfl
      show _ ≠ _
      rw [← hr]
      show (db'.revision + 1) % 2 ^ 64 ≠ db'.revision
      omega
    exact ⟨⟨fun _ => ⟨hm, hk⟩, fun _ h' => this (by rw [h'])⟩, ⟨fun _ => ⟨hm, hk⟩, fun _ => this⟩⟩

example : (exec .addUser nd2 db1 fs2 reqAnn).Kept ∧ (exec .addUser nd2 db1 fs2 reqAnn).db.revision = db1.revision + 1 ∧
    ¬ (exec .addUser nd db1 fs2 reqJoe).Kept ∧ (exec .addUser nd db1 fs2 reqJoe).db.revision = db1.revision := by
  refine ⟨.inl (by decide +kernel), by decide +kernel, fun hk => ?_, by decide +kernel⟩
  exact ((C07_changed_iff .addUser nd db1 fs2 reqJoe).2.2 ⟨rfl, hk⟩) (by decide +kernel)

/-! ## C108 -/

/-- C108 (logging in): in a database that was created and then used, a password is accepted for a login name if and only if
the journal contains an accepted registration that the name means, and the last accepted line that set a password for that
account set one with the same digest. -/
theorem C108_login [Ext] {db : Database} (h : Created db) (fs : FS) (ops : List Op) (nd : Nondet) (fs' : FS) (req : Request)
    (hpw : req.user.password ≠ []) :
    (exec .authenticateUser nd (run db fs ops).1 fs' req).Succeeded ↔
      ∃ r ∈ journal db fs ops, r.Registers ∧ r.Means req.user.username ∧
        ∃ e salt, LastOf (Line.SetsPassword r.name) (journal db fs ops) e ∧ e.op.nd.salts 0 = some salt ∧
          SameDigest salt (trimSpace e.op.req.user.password) req.user.password := by
  have hc := chronicle h fs ops
  rw [(authenticate_password (reach_inv (reach_run (.init h.opened) fs ops)) nd fs' req hpw).1]
  constructor
  · rintro ⟨u, hu, hd, hp⟩
    obtain ⟨⟨r, hr, hr1, hr2, a, ha, _, ha2⟩, ⟨e, salt, he, hs, hq⟩, _, _⟩ := hc.acc u hu
    refine ⟨r, hr, hr1, ?_, e, salt, by rw [hr2]; exact he, hs, (hq _).1 hp⟩
    unfold Denotes at hd
    unfold Line.Means
    rw [ha] at hd
    simp only [List.mem_singleton, exists_eq_left, ha2] at hd
    rw [hr2]
    exact hd
  · rintro ⟨r, hr, hr1, hm, e, salt, he, hs, hq⟩
    obtain ⟨u, hu, hr2, a, ha, ha2⟩ := hc.reg r hr hr1
    obtain ⟨_, ⟨e', salt', he', hs', hq'⟩, _, _⟩ := hc.acc u hu
    rw [hr2] at he'
    have := last_unique he he'
    subst this
    rw [hs] at hs'
    cases hs'
    refine ⟨u, hu, ?_, (hq' _).2 hq⟩
    unfold Line.Means at hm
    unfold Denotes
    rw [ha, hr2]
    simp only [List.mem_singleton, exists_eq_left, ha2]
    exact hm

/-- C108 (API keys): in such a database a presented string is accepted as an API key if and only if it has at least 72 bytes and
some accepted line of the journal issued a secret with the same first 24 bytes and the same digest, and no later accepted line withdrew the
identifier drawn for that secret from the account. -/
theorem C108_lookup [Ext] {db : Database} (h : Created db) (fs : FS) (ops : List Op) (nd : Nondet) (fs' : FS) (req : Request) :
    ((exec .lookupAPIKey nd (run db fs ops).1 fs' req).Succeeded ↔
      72 ≤ req.key.payload.length ∧ ∃ e s salt, LiveKey (journal db fs ops) e s ∧ s.take 24 = req.key.payload.take 24 ∧
        FirstSalt e.op.nd salt ∧ SameDigest salt s req.key.payload) ∧
    ((exec .lookupAPIKey nd (run db fs ops).1 fs' req).Succeeded →
      ∃ e s salt r, LiveKey (journal db fs ops) e s ∧ s.take 24 = req.key.payload.take 24 ∧
        FirstSalt e.op.nd salt ∧ SameDigest salt s req.key.payload ∧
        r ∈ journal db fs ops ∧ r.Registers ∧ toLower r.name = toLower e.name ∧
        (exec .lookupAPIKey nd (run db fs ops).1 fs' req).req.user.username = r.op.req.user.username ∧
        (exec .lookupAPIKey nd (run db fs ops).1 fs' req).req.user.email = r.op.req.user.email) := by
  have hc := chronicle h fs ops
  obtain ⟨h1, h2, _⟩ := lookup_spec (reach_inv (reach_run (.init h.opened) fs ops)) nd fs' req
  constructor
  · rw [h1]
    refine and_congr_right fun _ => ?_
    constructor
    · rintro ⟨u, k, ⟨hu, hk⟩, hp, ha⟩
      obtain ⟨e, s, hl, _, hko⟩ := (hc.acc u hu).keys k hk
      obtain ⟨salt, hs, hq⟩ := hko.accepts
      exact ⟨e, s, salt, hl, by rw [← hko.pfx]; exact hp, hs, (hq _).1 ha⟩
    · rintro ⟨e, s, salt, hl, hp, hs, hq⟩
      have hl' := hl
      obtain ⟨b, a, hj, hi, _⟩ := hl'
      obtain ⟨u, hu, hn⟩ := hc.known e (by rw [hj]; simp) hi.1 (.inr hi.2.1)
      obtain ⟨k, hk, hko⟩ := (hc.acc u hu).live e s hl hn.symm
      obtain ⟨salt', hs', hq'⟩ := hko.accepts
      have := firstSalt_unique hs hs'
      subst this
      exact ⟨u, k, ⟨hu, hk⟩, by rw [hko.pfx]; exact hp, (hq' _).2 hq⟩
  · intro hs
    obtain ⟨u, k, ⟨hu, hk⟩, hp, ha, hun, hem, _⟩ := h2 hs
    obtain ⟨⟨r, hr, hr1, hr2, a, ha1, _, ha2⟩, _, hks, _⟩ := hc.acc u hu
    obtain ⟨e, s, hl, hn, hko⟩ := hks k hk
    obtain ⟨salt, hs', hq⟩ := hko.accepts
    refine ⟨e, s, salt, r, hl, by rw [← hko.pfx]; exact hp, hs', (hq _).1 ha, hr, hr1, by rw [hr2, hn], by rw [hun, ← hr2]; rfl, ?_⟩
    rw [hem, ← ha2]
    unfold User.mailClaim
    rw [ha1]
    simp only [List.find?]
    cases a.primary <;> rfl

/-- Joe and Ann are registered, Joe is given an API key and changes the password. -/
def someOps : List Op := [⟨.addUser, reqJoe, nd⟩, ⟨.addUser, reqAnn, nd2⟩, ⟨.addAPIKey, reqApi, ndA⟩, ⟨.changeUserPassword, reqNewPw, nd⟩]

example : (journal db0 fs1 someOps).map (·.out) = [.success, .success, .success, .success] := by decide +kernel
example : (exec .authenticateUser nd (run db0 fs1 someOps).1 fs3 (reqLogin (gs! "JOE@example.com") (gs! "newpassword"))).Succeeded ∧
    ¬ (exec .authenticateUser nd (run db0 fs1 someOps).1 fs3 (reqLogin (gs! "JOE@example.com") (gs! "password1"))).Succeeded := by
  unfold Result.Succeeded; decide +kernel
example : (exec .lookupAPIKey nd (run db0 fs1 someOps).1 fs3 (reqLookup joeSecret)).Succeeded ∧
    ¬ (exec .lookupAPIKey nd (run db0 fs1 (someOps ++ [⟨.deleteAPIKey, reqDel, nd⟩])).1 fs3 (reqLookup joeSecret)).Succeeded := by
  unfold Result.Succeeded; decide +kernel
/-- Joe's key is live: nothing after the third line withdraws it. -/
example : ∃ e ∈ journal db0 fs1 someOps, LiveKey (journal db0 fs1 someOps) e joeSecret := by
  have h : (exec .lookupAPIKey nd (run db0 fs1 someOps).1 fs3 (reqLookup joeSecret)).Succeeded := by
    unfold Result.Succeeded; decide +kernel
  have hj : ∀ e ∈ journal db0 fs1 someOps, ∀ s, e.reply.response.payload = .secret s → s = joeSecret := by
    have : ∀ e ∈ journal db0 fs1 someOps, (match e.reply.response.payload with | .secret s => s == joeSecret | _ => true) = true := by
      decide +kernel
    intro e he s hs
    have := this e he
    rw [hs] at this
    simpa using this
  obtain ⟨_, e, s, _, hl, _⟩ := ((C108_lookup db0_created fs1 someOps nd fs3 (reqLookup joeSecret)).1).1 h
  have hl' := hl
  obtain ⟨b, a, hj', hi, _⟩ := hl'
  have hm : e ∈ journal db0 fs1 someOps := by rw [hj']; simp
  have := hj e hm s hi.2.2
  subst this
  exact ⟨e, hm, hl⟩

end GoIdentity
