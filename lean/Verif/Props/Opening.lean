import Verif.Lemmas.Open
import Verif.Spec.Toy
/-!
# Opening a database: C40, C50
-/
namespace GoIdentity
open Toy

/-! ## C40 -/

/-- Some limit of the policy is zero. -/
def Policy.HasZero (p : Policy) : Prop :=
  p.password.minLength = 0 ∨ p.password.maxLength = 0 ∨ p.password.keepVersions = 0 ∨ p.user.minLength = 0 ∨ p.user.maxLength = 0

/-- C40: each limit is kept if it is not zero and otherwise set to its default (8, 128, 10, 3, 50); the flags are kept. -/
theorem C40_defaults (p : Policy) :
    (enforceDefaultPolicy p).1 =
      { password := { p.password with
          minLength := if p.password.minLength = 0 then 8 else p.password.minLength
          maxLength := if p.password.maxLength = 0 then 128 else p.password.maxLength
          keepVersions := if p.password.keepVersions = 0 then 10 else p.password.keepVersions }
        user := { p.user with
          minLength := if p.user.minLength = 0 then 3 else p.user.minLength
          maxLength := if p.user.maxLength = 0 then 50 else p.user.maxLength } } := by
  obtain ⟨⟨a, b, c, _, _, _, _, _, _⟩, ⟨d, e, _, _⟩⟩ := p
  simp only [enforceDefaultPolicy, fillDefault]
  congr <;> (split <;> rfl)

/-- C40: a change is reported exactly if some limit was zero. -/
theorem C40_reports_change (p : Policy) : (enforceDefaultPolicy p).2 = true ↔ p.HasZero := by
  obtain ⟨⟨a, b, c, _, _, _, _, _, _⟩, ⟨d, e, _, _⟩⟩ := p
  simp only [enforceDefaultPolicy, fillDefault, Policy.HasZero]
  by_cases ha : a = 0 <;> by_cases hb : b = 0 <;> by_cases hc : c = 0 <;> by_cases hd : d = 0 <;> by_cases he : e = 0 <;>
    simp [ha, hb, hc, hd, he]

/-- C40: afterwards no limit is zero, so enforcing again changes nothing and reports no change. -/
theorem C40_idempotent (p : Policy) :
    ¬ (enforceDefaultPolicy p).1.HasZero ∧
    enforceDefaultPolicy (enforceDefaultPolicy p).1 = ((enforceDefaultPolicy p).1, false) := by
  have hz : ¬ (enforceDefaultPolicy p).1.HasZero := by
    rw [C40_defaults]
    unfold Policy.HasZero
    dsimp only
    omega
  refine ⟨hz, ?_⟩
  refine Prod.ext ?_ ?_
  · generalize (enforceDefaultPolicy p).1 = q at hz ⊢
    unfold Policy.HasZero at hz
    simp only [not_or] at hz
    rw [C40_defaults, if_neg hz.1, if_neg hz.2.1, if_neg hz.2.2.1, if_neg hz.2.2.2.1, if_neg hz.2.2.2.2]
  · rw [← Bool.not_eq_true, C40_reports_change]; exact hz

/-- C40: no database ever in use has a zero limit. -/
theorem C40_no_zero_limit [Ext] {db : Database} (h : Reach Opened db) : ¬ db.policy.HasZero := by
  induction h with
  | @init db h =>
    obtain ⟨nd, fs, fp, fs', h⟩ := h
    obtain ⟨d, hd, _, hdata, _⟩ := newDatabase_data h
    have hp : ∃ p, d.policy = (enforceDefaultPolicy p).1 := by
      rcases openFile_ok hd with ⟨_, hc⟩ | ⟨b, data, _, _, _, ⟨_, _, rfl⟩ | ⟨_, hc⟩⟩
      · obtain ⟨rfl, _⟩ := commit_ok hc; exact ⟨_, rfl⟩
      · exact ⟨_, rfl⟩
      · obtain ⟨rfl, _⟩ := commit_ok hc; exact ⟨_, rfl⟩
    obtain ⟨p, hp⟩ := hp
    rw [hdata]
    dsimp only
    rw [hp]
    exact (C40_idempotent p).1
  | step h c nd fs req ih =>
    rw [(exec_path c nd _ fs req).2.1]
    exact ih

/-- C40: a new database has the default policy, and the file is written. -/
theorem C40_new_database [Ext] {nd : Nondet} {fs fs' : FS} {fp : GoString} {db : Database} (hnone : fs fp = none)
    (h : newDatabase nd fs fp = (.ok db, fs')) :
    db.policy = defaultPolicy ∧ db.users = [] ∧ db.revision = 1 ∧
    fs' = upd fs fp (some (.file (marshalDB db.toDBData))) := by
  obtain ⟨d, hd, _, hdata, _⟩ := newDatabase_data h
  rcases openFile_ok hd with ⟨_, hc⟩ | ⟨b, data, ⟨b', hb'⟩, _⟩
  · obtain ⟨rfl, _, _, _, rfl⟩ := commit_ok hc
    rw [hdata]
    refine ⟨(by decide : (enforceDefaultPolicy DBData.zero.policy).1 = defaultPolicy), rfl, rfl, rfl⟩
  · rw [hnone] at hb'; simp at hb'

/-- C40: opening an existing file fills the limits of the stored policy, and writes the file again exactly if some limit was
zero. -/
theorem C40_existing_database [Ext] {nd : Nondet} {fs fs' : FS} {fp b : GoString} {db : Database}
    (hf : fs fp = some (.file b)) (hp : fp.head? ≠ some 126) (h : newDatabase nd fs fp = (.ok db, fs')) :
    ∃ data, unmarshalDB b = .ok data ∧ db.policy = (enforceDefaultPolicy data.policy).1 ∧
      (¬ data.policy.HasZero → fs' = fs ∧ db.revision = data.revision) ∧
      (data.policy.HasZero → db.revision = (data.revision + 1) % 2 ^ 64 ∧
        fs' = upd fs fp (some (.file (marshalDB { data with
          policy := db.policy, revision := db.revision, lastModified := nd.commitTime })))) := by
  obtain ⟨d, hd, _, hdata, _⟩ := newDatabase_data h
  rcases openFile_ok hd with ⟨hn, _⟩ | ⟨b1, data, _, hread, hun, hcase⟩
  · rw [hf] at hn; simp at hn
  · have hb1 : b1 = b := by
      unfold readFileBytes expandHomePath at hread
      cases fp with
      | nil => simp at hread
      | cons c rest =>
        have hc : c ≠ 126 := by simpa using hp
        simp only [if_pos hc] at hread
        split at hread
        · simp at hread
        · rw [hf] at hread; simpa using hread.symm
    subst hb1
    refine ⟨data, hun, ?_⟩
    rcases hcase with ⟨hch, rfl, rfl⟩ | ⟨hch, hc⟩
    · have hz : ¬ data.policy.HasZero := by rw [← C40_reports_change, hch]; simp
      rw [hdata]
      exact ⟨rfl, fun _ => ⟨rfl, rfl⟩, fun hc => absurd hc hz⟩
    · have hz := (C40_reports_change _).1 hch
      obtain ⟨rfl, _, _, _, rfl⟩ := commit_ok hc
      rw [hdata]
      exact ⟨rfl, fun hc => absurd hz hc, fun _ => ⟨rfl, rfl⟩⟩

example : (enforceDefaultPolicy { defaultPolicy with
      password := { defaultPolicy.password with minLength := 0, keepVersions := -3 } }) =
    ({ defaultPolicy with password := { defaultPolicy.password with keepVersions := -3 } }, true) := by decide

/-! ## C50 -/

/-- The users of a document are consistent. -/
structure Consistent [Ext] (us : List User) : Prop where
  valid : ∀ u ∈ us, u.id.length = 36 ∧ u.username ≠ [] ∧ u.passwords ≠ []
  usernames : (us.map fun u => toLower u.username).Nodup
  ids : (us.map (·.id)).Nodup
  emails : (us.flatMap fun u => u.emailAddresses.map fun e => toLower e.address).Nodup
  prefixes : (us.flatMap fun u => u.apiKeys.map (·.pfx)).Nodup

theorem readFileBytes_plain [Ext] {nd : Nondet} {fs : FS} {fp b : GoString} (hf : fs fp = some (.file b))
    (hp : fp.head? ≠ some 126) (hne : fp ≠ []) (hrd : nd.readErr = false) : readFileBytes nd fs fp = .ok b := by
  unfold readFileBytes expandHomePath
  cases fp with
  | nil => exact absurd rfl hne
  | cons c rest =>
    have hc : c ≠ 126 := by simpa using hp
    simp [hc, hrd, hf]

/-- C50: a document that decodes is opened exactly if its users are consistent (and, in case the file has to be rewritten to
fill zero limits, the write succeeds); the users are then those of the document, apart from the algorithm of passwords that
name none. -/
theorem C50_opened_iff_consistent [Ext] {nd : Nondet} {fs : FS} {fp b : GoString} {data : DBData}
    (hf : fs fp = some (.file b)) (hp : fp.head? ≠ some 126) (hne : fp ≠ []) (hst : nd.statErr = false)
    (hrd : nd.readErr = false) (hun : unmarshalDB b = .ok data) :
    ((∃ db fs', newDatabase nd fs fp = (.ok db, fs')) ↔
      Consistent data.users ∧ (data.policy.HasZero → nd.io = .ok)) ∧
    ∀ db fs', newDatabase nd fs fp = (.ok db, fs') → db.path = fp ∧ db.version = Ext.appVersion ∧
      db.users = data.users.map fun u =>
        { u with passwords := u.passwords.map fun p => if p.algorithm = [] then { p with algorithm := gs! "bcrypt" } else p } := by
  have hread := readFileBytes_plain hf hp hne hrd
  constructor
  · constructor
    · rintro ⟨db, fs', h⟩
      obtain ⟨d, hd, hc, hdata, _⟩ := newDatabase_data h
      rcases openFile_ok hd with ⟨hn, _⟩ | ⟨b1, data1, _, hread1, hun1, hcase⟩
      · rw [hf] at hn; simp at hn
      · rw [hread, Res.ok.injEq] at hread1
        subst hread1
        rw [hun, Res.ok.injEq] at hun1
        subst hun1
        rcases hcase with ⟨hch, rfl, rfl⟩ | ⟨hch, hcm⟩
        · exact ⟨⟨hc.valid, hc.usernames, hc.ids, hc.emails, hc.prefixes⟩,
            fun hz => by rw [← C40_reports_change, hch] at hz; simp at hz⟩
        · obtain ⟨rfl, _, _, hio, rfl⟩ := commit_ok hcm
          exact ⟨⟨hc.valid, hc.usernames, hc.ids, hc.emails, hc.prefixes⟩, fun _ => hio⟩
    · rintro ⟨hcons, hio⟩
      have hopen : ∃ d fs', Database.openFile nd fs fp = (.ok d, fs') ∧ d.users = data.users := by
        unfold Database.openFile
        rw [hst, hf]
        simp only [Bool.false_eq_true, if_false, hread, hun]
        by_cases hz : (enforceDefaultPolicy data.policy).2 = true
        · have hio := hio ((C40_reports_change _).1 hz)
          simp only [hz, if_true, Database.commit, writeFile, hio, Database.empty, hne, hf]
          exact ⟨_, _, rfl, rfl⟩
        · simp only [if_neg hz]
          exact ⟨_, _, rfl, rfl⟩
      obtain ⟨d, fs', hd, hus⟩ := hopen
      obtain ⟨m1, m2, m3, m4, _⟩ := openFile_maps hd
      have hl := loadUsers_iff (us := d.users) (i := 0) (db := { d with version := Ext.appVersion }) rfl (by simp)
      have hcond : LoadCond { d with version := Ext.appVersion } d.users := by
        rw [hus]
        refine ⟨hcons.valid, hcons.usernames, hcons.ids, hcons.emails, hcons.prefixes, ?_, ?_, ?_, ?_⟩
        · intros; dsimp only; rw [m1]
        · intros; dsimp only; rw [m2]
        · intros; dsimp only; rw [m3]
        · intros; dsimp only; rw [m4]
      obtain ⟨db, hdb⟩ := hl.1.2 hcond
      exact ⟨db, fs', newDatabase_ok.2 ⟨d, hd, hdb⟩⟩
  · intro db fs' h
    obtain ⟨d, hd, _, hdata, hpath⟩ := newDatabase_data h
    have hus : d.users = data.users := by
      rcases openFile_ok hd with ⟨hn, _⟩ | ⟨b1, data1, _, hread1, hun1, hcase⟩
      · rw [hf] at hn; simp at hn
      · rw [hread, Res.ok.injEq] at hread1
        subst hread1
        rw [hun, Res.ok.injEq] at hun1
        subst hun1
        rcases hcase with ⟨_, _, rfl⟩ | ⟨_, hcm⟩
        · rfl
        · obtain ⟨rfl, _⟩ := commit_ok hcm; rfl
    refine ⟨hpath, by rw [hdata], ?_⟩
    rw [hdata, hus]
    rfl

/-- C50: a document that does not decode is rejected, and the file is not touched. -/
theorem C50_undecodable_rejected [Ext] {nd : Nondet} {fs : FS} {fp b : GoString} {e : GoErr}
    (hf : fs fp = some (.file b)) (hp : fp.head? ≠ some 126) (hne : fp ≠ []) (hun : unmarshalDB b = .err e) :
    ∃ e', newDatabase nd fs fp = (.err e', fs) := by
  have hopen : ∃ e', Database.openFile nd fs fp = (.err e', fs) := by
    unfold Database.openFile
    rw [hf]
    by_cases hst : nd.statErr = true
    · simp [hst]
    · by_cases hrd : nd.readErr = true
      · have hread : readFileBytes nd fs fp = .err (.ext (gs! "read")) := by
          unfold readFileBytes expandHomePath
          cases fp with
          | nil => exact absurd rfl hne
          | cons c rest =>
            have hc : c ≠ 126 := by simpa using hp
            simp [hc, hrd]
        simp [hst, hread]
      · have hread := readFileBytes_plain hf hp hne (by simpa using hrd)
        simp [hst, hread, hun]
  obtain ⟨e', h⟩ := hopen
  exact ⟨e', by unfold newDatabase; rw [h]⟩

/-- C50: whatever the file holds, an opened database is consistent. -/
theorem C50_opened_consistent [Ext] {db : Database} (h : Opened db) : Consistent db.users := by
  obtain ⟨nd, fs, fp, fs', h⟩ := h
  obtain ⟨d, _, hc, hdata, _⟩ := newDatabase_data h
  have hus : db.users = d.users.map loadedUser := congrArg DBData.users hdata
  rw [hus]
  constructor
  · intro u hu
    obtain ⟨v, hv, rfl⟩ := List.mem_map.1 hu
    obtain ⟨h1, h2, h3⟩ := hc.valid v hv
    exact ⟨h1, h2, by simpa [loadedUser] using h3⟩
  · rw [List.map_map]; exact hc.usernames
  · rw [List.map_map]; exact hc.ids
  · rw [List.flatMap_map]; exact hc.emails
  · rw [List.flatMap_map]; exact hc.prefixes

/-- The file of the toy world opens again, with the two users and without being rewritten. -/
example : (match newDatabase nd fs3 path with
    | (.ok db, fs) => db.users == db2.users && db.revision == 3 && fs path == fs3 path
    | _ => false) = true := by
  decide +kernel

/-- The document with the first user twice is rejected. -/
example : (match newDatabase nd (fun _ => some (.file (marshalDB { db1.toDBData with users := db1.users ++ db1.users }))) path with
    | (.err _, _) => true
    | _ => false) = true := by
  decide +kernel

/-- A document without policy is filled and written again. -/
example : (match newDatabase nd (fun _ => some (.file (gs! "{\"revision\": 7}"))) path with
    | (.ok db, fs) => db.policy == defaultPolicy && db.revision == 8 && fs path == some (.file (marshalDB
        { db.toDBData with version := [] }))
    | _ => false) = true := by
  decide +kernel

end GoIdentity
