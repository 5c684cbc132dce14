import Verif.Spec.Sessions
import Verif.Props.Opening
import Verif.Props.Storage
/-!
# Lemmas about sessions
-/
set_option linter.unusedSectionVars false
namespace GoIdentity
variable [Ext]

/-- A commit that succeeds has written the database to its path. -/
theorem commit_written {nd : Nondet} {db db' : Database} {fs fs' : FS} (h : db.commit nd fs = (db', fs', none)) :
    db' = { db with revision := (db.revision + 1) % 2 ^ 64, lastModified := nd.commitTime } ∧ db.path ≠ [] ∧
      fs' db.path = some (.file (marshalDB db'.toDBData)) := by
  have hc : db.commit nd fs =
      match writeFile fs db.path (marshalDB (db.touch nd.commitTime).toDBData) nd.io with
      | (fs, none) => (db.touch nd.commitTime, fs, none)
      | (fs, some e) => (db.touch nd.commitTime, fs, some (.withE .databaseCommit [db.path] e)) := rfl
  rw [hc] at h
  cases hw : writeFile fs db.path (marshalDB (db.touch nd.commitTime).toDBData) nd.io with
  | mk fs1 o =>
    rw [hw] at h
    cases o with
    | some e => simp at h
    | none =>
      simp only [Prod.mk.injEq, and_true] at h
      obtain ⟨rfl, rfl⟩ := h
      obtain ⟨h1, _, _, h4⟩ := writeFile_none (show (writeFile fs db.path _ nd.io).2 = none by rw [hw])
      rw [hw] at h4
      refine ⟨rfl, h1, ?_⟩
      dsimp only at h4
      rw [h4, upd_same]

/-- Reading a file that holds a representable database without zero limits. -/
theorem openFile_read {nd : Nondet} {fs : FS} {fp : GoString} {d : Database} (hf : fs fp = some (.file (marshalDB d.toDBData)))
    (hp : fp.head? ≠ some 126) (hne : fp ≠ []) (hok : d.toDBData.Ok) (hz : ¬ d.policy.HasZero)
    (hst : nd.statErr = false) (hrd : nd.readErr = false) :
    Database.openFile nd fs fp = (.ok { Database.empty fp with toDBData := d.toDBData }, fs) := by
  unfold Database.openFile
  simp only [hst, hf, readFileBytes_plain hf hp hne hrd, unmarshal_marshal hok, Bool.false_eq_true, if_false, enforce_nonzero hz]

/-- Opening a second time. -/
theorem open_again {nd : Nondet} {fs fs' : FS} {fp : GoString} {db : Database} (hnd : nd.Proper)
    (h : newDatabase nd fs fp = (.ok db, fs')) (hp : fp.head? ≠ some 126) (hv : Utf8 (Ext.appVersion : GoString))
    {nd' : Nondet} (hst : nd'.statErr = false) (hrd : nd'.readErr = false) :
    newDatabase nd' fs' fp = (.ok db, fs') ∧ fp ≠ [] ∧ ∃ b, fs' fp = some (.file b) := by
  obtain ⟨d, hd, hl⟩ := newDatabase_ok.1 h
  rcases openFile_ok hd with ⟨hn, hc⟩ | ⟨b, data, ⟨b', hb'⟩, hread, hun, hcase⟩
  · obtain ⟨he, hne, hf⟩ := commit_written hc
    have hz : ¬ d.policy.HasZero := by rw [he]; exact (C40_idempotent _).1
    have hok : d.toDBData.Ok := by
      rw [he]
      exact ⟨hv, enforce_ok policy_zero_ok, Nat.mod_lt _ (by decide), hnd.commitTime, fun u hu => by cases hu⟩
    have hd' : ({ Database.empty fp with toDBData := d.toDBData } : Database) = d := by rw [he]
    have hpath : ({ Database.empty fp with version := Ext.appVersion, policy := (enforceDefaultPolicy DBData.zero.policy).1 } :
        Database).path = fp := rfl
    rw [hpath] at hf hne
    have ho := openFile_read (nd := nd') hf hp hne hok hz hst hrd
    rw [hd'] at ho
    exact ⟨newDatabase_ok.2 ⟨_, ho, hl⟩, hne, _, hf⟩
  · have hne : fp ≠ [] := by
      rintro rfl
      simp [readFileBytes, expandHomePath] at hread
    rcases hcase with ⟨hz, rfl, hd2⟩ | ⟨hz, hc⟩
    · have hb : b' = b := by
        have := hread
        unfold readFileBytes expandHomePath at this
        cases fp with
        | nil => exact absurd rfl hne
        | cons c rest =>
          have hc : c ≠ 126 := by simpa using hp
          simp only [hc, ne_eq, not_false_eq_true, if_true, hb'] at this
          split at this
          · simp at this
          · simpa using this
      subst hb
      refine ⟨newDatabase_ok.2 ⟨d, ?_, hl⟩, hne, _, hb'⟩
      unfold Database.openFile
      have hpair : enforceDefaultPolicy data.policy = ((enforceDefaultPolicy data.policy).1, false) := by rw [← hz]
      rw [hpair] at hd2
      simp only [hst, hb', readFileBytes_plain hb' hp hne hrd, hun, Bool.false_eq_true, if_false]
      rw [hpair]
      simp [hd2]
    · obtain ⟨he, _, hf⟩ := commit_written hc
      have hzz : ¬ d.policy.HasZero := by rw [he]; exact (C40_idempotent _).1
      have hok : d.toDBData.Ok := by
        rw [he]
        exact ⟨(unmarshal_ok hun).version, enforce_ok (unmarshal_ok hun).policy, Nat.mod_lt _ (by decide), hnd.commitTime,
          (unmarshal_ok hun).users⟩
      have ho := openFile_read (nd := nd') (fp := fp) hf hp hne hok hzz hst hrd
      have hd' : ({ Database.empty fp with toDBData := d.toDBData } : Database) = d := by rw [he]
      rw [hd'] at ho
      exact ⟨newDatabase_ok.2 ⟨_, ho, hl⟩, hne, _, hf⟩

theorem open_file {nd : Nondet} {fs fs' : FS} {fp : GoString} {db : Database} (h : newDatabase nd fs fp = (.ok db, fs')) :
    fp ≠ [] ∧ ∃ b, fs' fp = some (.file b) := by
  obtain ⟨d, hd, hl⟩ := newDatabase_ok.1 h
  rcases openFile_ok hd with ⟨hn, hc⟩ | ⟨b, data, ⟨b', hb'⟩, hread, hun, hcase⟩
  · obtain ⟨_, hne, hf⟩ := commit_written hc
    exact ⟨hne, _, hf⟩
  · have hne : fp ≠ [] := by
      rintro rfl
      simp [readFileBytes, expandHomePath] at hread
    rcases hcase with ⟨_, rfl, _⟩ | ⟨_, hc⟩
    · exact ⟨hne, _, hb'⟩
    · exact ⟨hne, _, (commit_written hc).2.2⟩

theorem session_file {fp : GoString} {cs : List Call} {db : Database} {fs : FS} (h : Session fp cs db fs) :
    db.path = fp ∧ fp ≠ [] ∧ ∃ b, fs fp = some (.file b) := by
  induction h with
  | start nd fs fs' hnd h =>
    obtain ⟨_, _, _, _, hp⟩ := newDatabase_data h
    exact ⟨hp, open_file h⟩
  | @call cs db fs h c nd req hnd hfresh hio ih =>
    obtain ⟨h1, h2, b, h3⟩ := ih
    refine ⟨(exec_path c nd db fs req).1.trans h1, h2, ?_⟩
    rcases exec_spec c nd db fs req with h4 | ⟨db', m, h4⟩
    · rw [h4.fs_eq]; exact ⟨b, h3⟩
    · rw [h4.fs_eq]
      unfold writeFile
      split
      · exact ⟨b, h3⟩
      · rename_i hw
        by_cases hc : c.target db = fp
        · rw [hio hc]
          exact ⟨_, by dsimp only; rw [hc, upd_same]⟩
        · have hne : fp ≠ c.target db := fun e => hc e.symm
          cases nd.io with
          | ok => exact ⟨b, by dsimp only; rw [upd_other _ _ hne]; exact h3⟩
          | writeErr n => exact ⟨b, by dsimp only; rw [upd_other _ _ hne]; exact h3⟩
          | _ => exact ⟨b, h3⟩

/-- What an opening that writes nothing returns depends on the file at the path only. -/
theorem newDatabase_same_file {nd nd' : Nondet} {fs fs' : FS} {fp b : GoString} {db : Database} (hio : nd.io = .openErr)
    (hf : fs fp = some (.file b)) (hf' : fs' fp = some (.file b)) (hp : fp.head? ≠ some 126)
    (h : newDatabase nd fs fp = (.ok db, fs)) (hst : nd'.statErr = false) (hrd : nd'.readErr = false) :
    newDatabase nd' fs' fp = (.ok db, fs') := by
  obtain ⟨d, hd, hl⟩ := newDatabase_ok.1 h
  rcases openFile_ok hd with ⟨hn, _⟩ | ⟨b1, data, _, hread, hun, hcase⟩
  · rw [hf] at hn; simp at hn
  · have hne : fp ≠ [] := by
      rintro rfl
      simp [readFileBytes, expandHomePath] at hread
    have hb : b = b1 := by
      unfold readFileBytes expandHomePath at hread
      cases fp with
      | nil => exact absurd rfl hne
      | cons c rest =>
        have hc : c ≠ 126 := by simpa using hp
        simp only [hc, ne_eq, not_false_eq_true, if_true, hf] at hread
        split at hread
        · simp at hread
        · simpa using hread
    subst hb
    rcases hcase with ⟨hz, _, hd2⟩ | ⟨_, hc⟩
    · refine newDatabase_ok.2 ⟨d, ?_, hl⟩
      have hpair : enforceDefaultPolicy data.policy = ((enforceDefaultPolicy data.policy).1, false) := by rw [← hz]
      rw [hpair] at hd2
      unfold Database.openFile
      simp only [hst, hf', readFileBytes_plain hf' hp hne hrd, hun, Bool.false_eq_true, if_false]
      rw [hpair]
      simp [hd2]
    · exfalso
      have hw : ∀ (p x : GoString), (writeFile fs p x .openErr).2 ≠ none := by
        intro p x
        unfold writeFile
        split <;> simp
      unfold Database.commit at hc
      rw [hio] at hc
      dsimp only at hc
      split at hc
      · rename_i he
        exact hw _ _ (congrArg Prod.snd he)
      · simp at hc

end GoIdentity
