import Verif.Lemmas.Sessions
import Verif.Props.Identity
import Verif.Spec.Toy
/-!
# Sessions: C78
-/
namespace GoIdentity
open Toy

/-- C78: at any point of a session, whatever calls were made and whichever of them were rejected, opening the file again
changes nothing and finds the users, policy and version that are in memory; and every call that changes nothing gives the same
answer on the database read as on the one in memory.  Revision and modification time agree as well, unless a copy was written
elsewhere (which advances them in memory only). -/
theorem C78_always_durable [Ext] {fp : GoString} {cs : List Call} {db : Database} {fs : FS} (h : Session fp cs db fs)
    (hp : fp.head? ≠ some 126) (hstr : db.toDBData.Strings)
    {nd' : Nondet} (hst : nd'.statErr = false) (hrd : nd'.readErr = false) :
    ∃ db', newDatabase nd' fs fp = (.ok db', fs) ∧
      db'.users = db.users ∧ db'.policy = db.policy ∧ db'.version = db.version ∧ db'.path = db.path ∧
      ((∀ p, p ≠ fp → Call.copy p ∉ cs) → db'.toDBData = db.toDBData) ∧
      ∀ (c : Call) (nd : Nondet) (fs' : FS) (req : Request), c.mutates = false →
        (exec c nd db' fs' req).out = (exec c nd db fs' req).out ∧ (exec c nd db' fs' req).req = (exec c nd db fs' req).req := by
  have key : ∃ db', newDatabase nd' fs fp = (.ok db', fs) ∧
      db'.users = db.users ∧ db'.policy = db.policy ∧ db'.version = db.version ∧ db'.path = db.path ∧
      ((∀ p, p ≠ fp → Call.copy p ∉ cs) → db'.toDBData = db.toDBData) := by
    induction h generalizing nd' with
    | @start db nd fs fs' hnd h =>
      have hv : Utf8 (Ext.appVersion : GoString) := by
        rw [← opened_version ⟨nd, fs, fp, fs', h⟩]
        exact hstr.version
      exact ⟨db, (open_again hnd h hp hv hst hrd).1, rfl, rfl, rfl, rfl, fun _ => rfl⟩
    | @call cs db fs h c nd req hnd hfresh hio ih =>
      obtain ⟨hpath, hne, b, hf⟩ := session_file h
      rcases exec_spec c nd db fs req with h4 | ⟨db1, m, h4⟩
      · rw [h4.db_eq] at hstr ⊢
        rw [h4.fs_eq]
        obtain ⟨db', e1, e2, e3, e4, e5, e6⟩ := ih hstr hst hrd
        exact ⟨db', e1, e2, e3, e4, e5, fun hc => e6 fun p hp hm => hc p hp (by simp [hm])⟩
      · by_cases hc : c.target db = fp
        · have hs : (exec c nd db fs req).Succeeded :=
            h4.out_ok (by rw [hio hc, hc, writeFile_ok hne (by rw [hf]; simp)])
          obtain ⟨db', e1, e2, e3, _⟩ := C45_reopen h.proper hnd hfresh (by cases m <;> rfl) hs (by rw [hc]; exact hp) hstr hst hrd
          rw [hc] at e1 e3
          refine ⟨db', e1, by rw [e2], by rw [e2], by rw [e2], ?_, fun _ => e2⟩
          rw [e3, (exec_path c nd db fs req).1, hpath]
        · cases m with
          | copy p =>
            have hu : (exec (.copy p) nd db fs req).db.toDBData =
                { db.toDBData with revision := (db.revision + 1) % 2 ^ 64, lastModified := nd.commitTime } := by rw [h4.db_eq]; rfl
            have hfs : (exec (.copy p) nd db fs req).fs fp = fs fp := (C49_copy nd p db fs req).2.2.1 fp fun e => hc e.symm
            rw [hu] at hstr ⊢
            obtain ⟨db', e1, e2, e3, e4, e5, e6⟩ :=
              ih ⟨hstr.version, hstr.users⟩ (nd' := { nd' with io := .openErr }) hst hrd
            have hread : newDatabase nd' (exec (.copy p) nd db fs req).fs fp = (.ok db', (exec (.copy p) nd db fs req).fs) := by
              rw [hf] at hfs
              exact newDatabase_same_file rfl hf hfs hp e1 hst hrd
            refine ⟨db', hread, e2, e3, e4, ?_, fun hcc => absurd (List.mem_cons_self ..) (hcc p hc)⟩
            rw [e5, (exec_path (.copy p) nd db fs req).1]
          | _ => exact absurd hpath hc
  obtain ⟨db', e1, e2, e3, e4, e5, e6⟩ := key
  refine ⟨db', e1, e2, e3, e4, e5, e6, fun c nd fs'' req hc => ?_⟩
  exact answers_eq (reach_inv (fresh_reach h.proper.fresh)) (newDatabase_inv e1) e2 hc nd fs'' fs'' req

theorem newDatabase_read_ok [Ext] {nd : Nondet} {fs fs' : FS} {fp b : GoString} {db : Database} (hf : fs fp = some (.file b))
    (h : newDatabase nd fs fp = (.ok db, fs')) : nd.statErr = false ∧ nd.readErr = false := by
  obtain ⟨d, hd, _⟩ := newDatabase_ok.1 h
  unfold Database.openFile at hd
  split at hd
  · simp at hd
  · rename_i hst
    refine ⟨by simpa using hst, ?_⟩
    rw [hf] at hd
    dsimp only at hd
    cases hr : nd.readErr with
    | false => rfl
    | true =>
      unfold readFileBytes at hd
      split at hd
      · simp at hd
      · simp at hd
      · rename_i b' hb
        split at hb
        · simp at hb
        · simp at hb
        · simp [hr] at hb

/-- A lifetime continues a session. -/
theorem lifetime_session [Ext] {fp : GoString} {cs cs' : List Call} {db db' : Database} {fs fs' : FS} (h : Session fp cs db fs)
    (hl : Lifetime fp db fs cs' db' fs') : ∃ cs'', Session fp cs'' db' fs' := by
  induction hl with
  | refl => exact ⟨cs, h⟩
  | call hl c nd req hnd hfresh hio ih => obtain ⟨cs'', ih⟩ := ih; exact ⟨_, .call ih c nd req hnd hfresh hio⟩
  | restart hl nd hnd hstr hopen ih => exact ⟨_, .start nd _ _ hnd hopen⟩

/-- C78: through any calls and restarts a user stays at its place with its names, addresses and identifier; its passwords stay
as they are until `ChangeUserPassword` is called, and none of its keys and tokens goes until the corresponding `Delete` is
called. -/
theorem C78_nothing_lost [Ext] {fp : GoString} {cs cs' : List Call} {db db' : Database} {fs fs' : FS} (h : Session fp cs db fs)
    (hl : Lifetime fp db fs cs' db' fs') (hp : fp.head? ≠ some 126) {i : Nat} {u : User} (hu : db.users[i]? = some u) :
    ∃ u', db'.users[i]? = some u' ∧ SameIdentity u u' ∧
      (.changeUserPassword ∉ cs' → u'.passwords = u.passwords) ∧
      (.deletePublicKey ∉ cs' → ∀ k ∈ u.publicKeys, k ∈ u'.publicKeys) ∧
      (.deleteAPIKey ∉ cs' → ∀ k ∈ u.apiKeys, k ∈ u'.apiKeys) ∧
      (.deleteMfaToken ∉ cs' → ∀ t ∈ u.mfaTokens, t ∈ u'.mfaTokens) := by
  induction hl with
  | refl => exact ⟨u, hu, .refl u, fun _ => rfl, fun _ _ h => h, fun _ _ h => h, fun _ _ h => h⟩
  | @call cs1 db1 fs1 hl c nd req hnd hfresh hio ih =>
    obtain ⟨v, h1, h2, h3, h4, h5, h6⟩ := ih
    rcases exec_user_op (c := c) (nd := nd) (fs := fs1) (req := req) h1 with h7 | ⟨w, h7, h8, _⟩
    · refine ⟨v, h7, h2, ?_, ?_, ?_, ?_⟩
      · exact fun hc => h3 fun hm => hc (by simp [hm])
      · exact fun hc => h4 fun hm => hc (by simp [hm])
      · exact fun hc => h5 fun hm => hc (by simp [hm])
      · exact fun hc => h6 fun hm => hc (by simp [hm])
    · refine ⟨w, h7, h2.trans h8.same, ?_, ?_, ?_, ?_⟩
      · intro hc
        rw [← h3 fun hm => hc (by simp [hm])]
        cases h8 <;> first | rfl | simp at hc
      · intro hc k hk
        have := h4 (fun hm => hc (by simp [hm])) k hk
        cases h8 <;> first | exact this | exact List.mem_append_left _ this | simp at hc
      · intro hc k hk
        have := h5 (fun hm => hc (by simp [hm])) k hk
        cases h8 <;> first | exact this | exact List.mem_append_left _ this | simp at hc
      · intro hc k hk
        have := h6 (fun hm => hc (by simp [hm])) k hk
        cases h8 <;> first | exact this | exact List.mem_append_left _ this | simp at hc
  | @restart cs1 db1 db2 fs1 fs2 hl nd hnd hstr hopen ih =>
    obtain ⟨v, h1, hrest⟩ := ih
    obtain ⟨cs2, hs⟩ := lifetime_session h hl
    obtain ⟨_, _, b, hb⟩ := session_file hs
    obtain ⟨hst, hrd⟩ := newDatabase_read_ok hb hopen
    obtain ⟨db', e1, e2, _⟩ := C78_always_durable hs hp hstr hst hrd
    rw [e1] at hopen
    simp only [Prod.mk.injEq, Res.ok.injEq] at hopen
    obtain ⟨rfl, rfl⟩ := hopen
    exact ⟨v, by rw [e2]; exact h1, hrest⟩

/-- The number of mutating calls of a history that returned nil. -/
def commits [Ext] (db : Database) (fs : FS) : List Op → Nat
  | [] => 0
  | o :: os =>
    let r := exec o.call o.nd db fs o.req
    (if o.call.mutates = true ∧ r.out = .success then 1 else 0) +
      match r.out with
      | .hang => 0
      | _ => commits r.db r.fs os

/-- C78: as long as no write fails, the revision of the database has advanced by exactly the number of mutating calls that
returned nil. -/
theorem C78_revision_counts_commits [Ext] {db : Database} {fs : FS} {ops : List Op} (hio : ∀ o ∈ ops, o.nd.io = .ok)
    (hcopy : ∀ o ∈ ops, ∀ p, o.call ≠ .copy p) (hne : db.path ≠ []) (hd : fs db.path ≠ some .dir) :
    (run db fs ops).1.revision % 2 ^ 64 = (db.revision + commits db fs ops) % 2 ^ 64 := by
  induction ops generalizing db fs with
  | nil => rfl
  | cons o os ih =>
    have ht : o.call.target db = db.path := C44_target db o.call (hcopy o (by simp))
    have hpath := (exec_path o.call o.nd db fs o.req).1
    have hone : (exec o.call o.nd db fs o.req).db.revision % 2 ^ 64 = (db.revision +
        if o.call.mutates = true ∧ (exec o.call o.nd db fs o.req).out = .success then 1 else 0) % 2 ^ 64 := by
      split
      · rename_i hc
        rw [(C44_commit_reaches_disk hc.1 hc.2).1, Nat.mod_mod]
      · rename_i hc
        by_cases hm : o.call.mutates = true
        · rw [(C07_rejected_call_changes_nothing_env (fun hs => hc ⟨hm, hs⟩) (hio o (by simp)) (by rw [ht]; exact hne)
            (by rw [ht]; exact hd)).1, Nat.add_zero]
        · rw [(C43_read_only_calls (by simpa using hm) o.nd db fs o.req).1, Nat.add_zero]
    have hd' : (exec o.call o.nd db fs o.req).fs (exec o.call o.nd db fs o.req).db.path ≠ some .dir := by
      rw [hpath]
      rcases exec_spec o.call o.nd db fs o.req with h4 | ⟨db1, m, h4⟩
      · rw [h4.fs_eq]; exact hd
      · rw [h4.fs_eq, ht, hio o (by simp), writeFile_ok hne hd]
        simp [upd_same]
    have ih' := ih (db := (exec o.call o.nd db fs o.req).db) (fs := (exec o.call o.nd db fs o.req).fs)
      (fun o ho => hio o (by simp [ho])) (fun o ho => hcopy o (by simp [ho])) (by rw [hpath]; exact hne) hd'
    unfold run commits
    dsimp only
    clear hd' ih hpath
    generalize exec o.call o.nd db fs o.req = r at hone ih' ⊢
    have hgo : (run r.db r.fs os).1.revision % 2 ^ 64 = (db.revision +
        ((if o.call.mutates = true ∧ r.out = .success then 1 else 0) + commits r.db r.fs os)) % 2 ^ 64 := by
      rw [← Nat.add_assoc, Nat.add_mod, ← hone, ← Nat.add_mod]
      exact ih'
    cases hr : r.out with
    | hang => rw [hr] at hone; exact hone
    | _ => rw [hr] at hgo; exact hgo

/-- Joe is added to a new database; the session satisfies all hypotheses. -/
theorem session1 : Session path [.addUser] db1 fs2 :=
  .call (.start nd fs0 fs1 nd_proper (by rfl)) .addUser nd reqJoe
    nd_proper (fun _ => ⟨List.replicate 36 98, by decide, by decide +kernel⟩) (fun _ => by rfl)

/-- The file is opened again and Ann is added: Joe is still there, with the same password. -/
example : ∃ db' fs' u', Lifetime path db1 fs2 [.addUser] db' fs' ∧ db'.users[0]? = some u' ∧
    ∃ u, db1.users[0]? = some u ∧ SameIdentity u u' ∧ u'.passwords = u.passwords := by
  have hstr : db1.toDBData.Strings := (unmarshal_ok (b := marshalDB db1.toDBData) (by decide +kernel)).strings
  obtain ⟨db', e1, e2, _⟩ := C78_always_durable session1 (nd' := nd) (by decide) hstr rfl rfl
  have l1 : Lifetime path db1 fs2 [] db' fs2 := .restart .refl nd nd_proper hstr e1
  have l2 := Lifetime.call l1 .addUser nd2 reqAnn ⟨nd_proper.now, nd_proper.commitTime, by decide⟩
    (fun _ => ⟨List.replicate 36 99, by decide, by rw [e2]; decide +kernel⟩) (fun _ => by rfl)
  obtain ⟨u, hu⟩ : ∃ u, db1.users[0]? = some u := ⟨_, List.getElem?_eq_getElem (by decide +kernel)⟩
  obtain ⟨u', h1, h2, h3, _⟩ := C78_nothing_lost session1 l2 (by decide) hu
  exact ⟨_, _, u', l2, h1, u, hu, h2, h3 (by simp)⟩

/-- Two calls that succeed, and one that is rejected in between. -/
example : commits db0 fs1 [⟨.addUser, reqJoe, nd⟩, ⟨.addUser, reqJoe, nd2⟩, ⟨.addUser, reqAnn, nd2⟩] = 2 ∧
    (run db0 fs1 [⟨.addUser, reqJoe, nd⟩, ⟨.addUser, reqJoe, nd2⟩, ⟨.addUser, reqAnn, nd2⟩]).1.revision = 3 := by
  decide +kernel

end GoIdentity
