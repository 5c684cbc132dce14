import Verif.Lemmas.Frame
/-!
# Opening a database: what the loader requires and what it returns
-/
namespace GoIdentity
variable [Ext]
set_option linter.unusedSectionVars false

/-- What the loader requires of the users, given the names already taken. -/
structure LoadCond (db : Database) (us : List User) : Prop where
  valid : ∀ u ∈ us, u.id.length = 36 ∧ u.username ≠ [] ∧ u.passwords ≠ []
  usernames : (us.map fun u => toLower u.username).Nodup
  ids : (us.map (·.id)).Nodup
  emails : (us.flatMap fun u => u.emailAddresses.map fun e => toLower e.address).Nodup
  prefixes : (us.flatMap fun u => u.apiKeys.map (·.pfx)).Nodup
  freeName : ∀ u ∈ us, db.refUsername (toLower u.username) = none
  freeID : ∀ u ∈ us, db.refID u.id = none
  freeEmail : ∀ s ∈ (us.flatMap fun u => u.emailAddresses.map fun e => toLower e.address), db.refEmailAddress s = none
  freePrefix : ∀ s ∈ (us.flatMap fun u => u.apiKeys.map (·.pfx)), db.refAPIKey s = none

theorem valid_iff {u : User} : u.valid = .ok () ↔ u.id.length = 36 ∧ u.username ≠ [] ∧ u.passwords ≠ [] := by
  unfold User.valid
  repeat' split
  all_goals simp_all

theorem loadCond_nil (db : Database) : LoadCond db [] := by
  constructor <;> simp

/-- The rounds of the loader, one by one. -/
theorem loadCond_cons {i : Nat} {u : User} {us : List User} {db : Database} :
    LoadCond db (u :: us) ↔ ∃ db1, Database.loadUser i u db = .ok db1 ∧ LoadCond db1 us := by
  constructor
  · intro h
    have hs : ∀ e ∈ u.emailAddresses, db.refEmailAddress (toLower e.address) = none := by
      intro e he
      apply h.freeEmail
      rw [List.flatMap_cons, List.mem_append]
      exact .inl (List.mem_map.2 ⟨e, he, rfl⟩)
    have hk : ∀ k ∈ u.apiKeys, db.refAPIKey k.pfx = none := by
      intro k hk
      apply h.freePrefix
      rw [List.flatMap_cons, List.mem_append]
      exact .inl (List.mem_map.2 ⟨k, hk, rfl⟩)
    have hem := h.emails
    have hpf := h.prefixes
    rw [List.flatMap_cons, List.nodup_append] at hem hpf
    have hun := h.usernames
    have hid := h.ids
    rw [List.map_cons, List.nodup_cons] at hun hid
    refine ⟨_, loadUser_ok_iff.2 ⟨valid_iff.2 (h.valid u (by simp)), h.freeName u (by simp), h.freeID u (by simp), hs, hem.1,
      hk, hpf.1, rfl⟩, ?_⟩
    constructor
    · exact fun v hv => h.valid v (by simp [hv])
    · exact hun.2
    · exact hid.2
    · exact hem.2.1
    · exact hpf.2.1
    · intro v hv
      dsimp only
      rw [upd_other]
      · exact h.freeName v (by simp [hv])
      · exact fun hc => hun.1 (List.mem_map.2 ⟨v, hv, hc⟩)
    · intro v hv
      dsimp only
      rw [upd_other]
      · exact h.freeID v (by simp [hv])
      · exact fun hc => hid.1 (List.mem_map.2 ⟨v, hv, hc⟩)
    · intro s hs
      dsimp only
      rw [if_neg]
      · apply h.freeEmail; rw [List.flatMap_cons, List.mem_append]; exact .inr hs
      · exact fun hc => hem.2.2 s hc s hs rfl
    · intro s hs
      dsimp only
      rw [if_neg]
      · apply h.freePrefix; rw [List.flatMap_cons, List.mem_append]; exact .inr hs
      · exact fun hc => hpf.2.2 s hc s hs rfl
  · rintro ⟨db1, hl, h⟩
    obtain ⟨hv, hn, hi, he, hen, hk, hkn, rfl⟩ := loadUser_ok_iff.1 hl
    have upd_none : ∀ {β : Type} {f : GoString → Option β} {k v x}, upd f k (some v) x = none → x ≠ k ∧ f x = none := by
      intro β f k v x hx
      by_cases hxk : x = k
      · subst hxk; rw [upd_same] at hx; simp at hx
      · rw [upd_other _ _ hxk] at hx; exact ⟨hxk, hx⟩
    have ite_none : ∀ {p : Prop} [Decidable p] {o : Option Nat} {j : Nat}, (if p then some j else o) = none → ¬ p ∧ o = none := by
      intro p _ o j h
      split at h
      · simp at h
      · rename_i hp; exact ⟨hp, h⟩
    constructor
    · intro v hv'
      rcases List.mem_cons.1 hv' with rfl | hv'
      · exact valid_iff.1 hv
      · exact h.valid v hv'
    · rw [List.map_cons, List.nodup_cons]
      refine ⟨?_, h.usernames⟩
      intro hc
      obtain ⟨v, hv', hc⟩ := List.mem_map.1 hc
      exact (upd_none (h.freeName v hv')).1 hc
    · rw [List.map_cons, List.nodup_cons]
      refine ⟨?_, h.ids⟩
      intro hc
      obtain ⟨v, hv', hc⟩ := List.mem_map.1 hc
      exact (upd_none (h.freeID v hv')).1 hc
    · rw [List.flatMap_cons, List.nodup_append]
      refine ⟨hen, h.emails, ?_⟩
      intro a ha b hb hab
      subst hab
      exact (ite_none (h.freeEmail a hb)).1 ha
    · rw [List.flatMap_cons, List.nodup_append]
      refine ⟨hkn, h.prefixes, ?_⟩
      intro a ha b hb hab
      subst hab
      exact (ite_none (h.freePrefix a hb)).1 ha
    · intro v hv'
      rcases List.mem_cons.1 hv' with rfl | hv'
      · exact hn
      · exact (upd_none (h.freeName v hv')).2
    · intro v hv'
      rcases List.mem_cons.1 hv' with rfl | hv'
      · exact hi
      · exact (upd_none (h.freeID v hv')).2
    · intro s hs
      rw [List.flatMap_cons, List.mem_append] at hs
      rcases hs with hs | hs
      · obtain ⟨e, he', rfl⟩ := List.mem_map.1 hs; exact he e he'
      · exact (ite_none (h.freeEmail s hs)).2
    · intro s hs
      rw [List.flatMap_cons, List.mem_append] at hs
      rcases hs with hs | hs
      · obtain ⟨e, he', rfl⟩ := List.mem_map.1 hs; exact hk e he'
      · exact (ite_none (h.freePrefix s hs)).2

/-- The loader succeeds exactly when its conditions hold, and then changes only the maps and the algorithm of passwords
without one. -/
theorem loadUsers_iff {us : List User} {i : Nat} {db : Database} (hus : db.users.drop i = us) (hi : i ≤ db.users.length) :
    ((∃ db', Database.loadUsers i us db = .ok db') ↔ LoadCond db us) ∧
    ∀ db', Database.loadUsers i us db = .ok db' →
      db'.toDBData = { db.toDBData with users := db.users.take i ++ us.map loadedUser } ∧ db'.path = db.path := by
  induction us generalizing i db with
  | nil =>
    have hle := List.drop_eq_nil_iff.1 hus
    have : db.users.take i = db.users := List.take_of_length_le hle
    simp [Database.loadUsers, loadCond_nil, this]
  | cons u us ih =>
    have hget : db.users[i]? = some u := by
      have := congrArg List.head? hus
      simpa [List.head?_drop] using this
    have hlt : i < db.users.length := (List.getElem?_eq_some_iff.1 hget).1
    unfold Database.loadUsers
    rw [loadCond_cons (i := i)]
    cases hl : Database.loadUser i u db with
    | err e => simp
    | panic => simp
    | ok db1 =>
      have hdb1 := loadUser_ok_iff.1 hl
      obtain ⟨_, _, _, _, _, _, _, hdb1⟩ := hdb1
      have husers : db1.users = db.users.set i (loadedUser u) := by rw [hdb1]
      have ih' := @ih (i + 1) db1 (by
        rw [husers, List.drop_set_of_lt (by omega)]
        have := congrArg List.tail hus
        simpa [List.tail_drop] using this) (by rw [husers]; simp; omega)
      refine ⟨by simp only [ih'.1]; simp, ?_⟩
      intro db' hdb'
      obtain ⟨h1, h2⟩ := ih'.2 db' hdb'
      have htake : db1.users.take (i + 1) = db.users.take i ++ [loadedUser u] := by
        rw [husers, List.take_succ_eq_append_getElem (by simp; omega)]
        simp [List.take_set_of_le]
      rw [h1, h2, htake, hdb1]
      simp

theorem commit_ok {nd : Nondet} {db db' : Database} {fs fs' : FS} (h : db.commit nd fs = (db', fs', none)) :
    db' = { db with revision := (db.revision + 1) % 2 ^ 64, lastModified := nd.commitTime } ∧ db.path ≠ [] ∧
      fs db.path ≠ some .dir ∧ nd.io = .ok ∧ fs' = upd fs db.path (some (.file (marshalDB db'.toDBData))) := by
  unfold Database.commit at h
  dsimp only at h
  split at h
  · rename_i fs1 hw
    simp only [Prod.mk.injEq] at h
    obtain ⟨rfl, rfl, _⟩ := h
    unfold writeFile at hw
    split at hw
    · simp at hw
    · rename_i hp
      simp only [not_or] at hp
      split at hw
      · rename_i hio
        simp only [Prod.mk.injEq, and_true] at hw
        exact ⟨rfl, hp.1, hp.2, hio, hw.symm⟩
      · simp at hw
      · simp at hw
  · simp at h

/-- What is known of a database when the loader starts. -/
theorem openFile_ok {nd : Nondet} {fs fs' : FS} {fp : GoString} {d : Database}
    (h : Database.openFile nd fs fp = (.ok d, fs')) :
    (fs fp = none ∧ ({ Database.empty fp with version := Ext.appVersion, policy := (enforceDefaultPolicy DBData.zero.policy).1 } :
        Database).commit nd fs = (d, fs', none)) ∨
    ∃ b data, (∃ b', fs fp = some (.file b')) ∧ readFileBytes nd fs fp = .ok b ∧ unmarshalDB b = .ok data ∧
      (((enforceDefaultPolicy data.policy).2 = false ∧ fs' = fs ∧
        d = { Database.empty fp with toDBData := { data with policy := (enforceDefaultPolicy data.policy).1 } }) ∨
      ((enforceDefaultPolicy data.policy).2 = true ∧
        ({ Database.empty fp with toDBData := { data with policy := (enforceDefaultPolicy data.policy).1 } } :
          Database).commit nd fs = (d, fs', none))) := by
  unfold Database.openFile at h
  split at h
  · simp at h
  · split at h
    · rename_i hnone
      split at h
      · simp at h
      · dsimp only at h
        split at h
        · simp at h
        · rename_i db1 fs1 hc
          simp only [Prod.mk.injEq, Res.ok.injEq] at h
          obtain ⟨rfl, rfl⟩ := h
          exact .inl ⟨hnone, hc⟩
    · simp at h
    · rename_i b' hf
      split at h
      · simp at h
      · simp at h
      · rename_i b hb
        split at h
        · simp at h
        · simp at h
        · rename_i data hdata
          dsimp only at h
          refine .inr ⟨b, data, ⟨b', hf⟩, hb, hdata, ?_⟩
          split at h
          · rename_i hch
            split at h
            · simp at h
            · rename_i db1 fs1 hc
              simp only [Prod.mk.injEq, Res.ok.injEq] at h
              obtain ⟨rfl, rfl⟩ := h
              exact .inr ⟨hch, hc⟩
          · rename_i hch
            simp only [Prod.mk.injEq, Res.ok.injEq] at h
            exact .inl ⟨by simpa using hch, h.2.symm, h.1.symm⟩

/-- `NewDatabase` is the opening followed by the loader. -/
theorem newDatabase_ok {nd : Nondet} {fs fs' : FS} {fp : GoString} {db : Database} :
    newDatabase nd fs fp = (.ok db, fs') ↔ ∃ d, Database.openFile nd fs fp = (.ok d, fs') ∧
      Database.loadUsers 0 d.users { d with version := Ext.appVersion } = .ok db := by
  unfold newDatabase
  split
  · rename_i h; simp [h]
  · rename_i h; simp [h]
  · rename_i d fs1 h
    simp only [h, Prod.mk.injEq, Res.ok.injEq]
    constructor
    · rintro ⟨h1, h2⟩; exact ⟨d, ⟨rfl, h2⟩, h1⟩
    · rintro ⟨d', ⟨rfl, h2⟩, h1⟩; exact ⟨h1, h2⟩

/-- The policy and the users of an opened database. -/
theorem newDatabase_data {nd : Nondet} {fs fs' : FS} {fp : GoString} {db : Database}
    (h : newDatabase nd fs fp = (.ok db, fs')) :
    ∃ d, Database.openFile nd fs fp = (.ok d, fs') ∧ LoadCond (Database.empty fp) d.users ∧
      db.toDBData = { d.toDBData with version := Ext.appVersion, users := d.users.map loadedUser } ∧ db.path = fp := by
  obtain ⟨d, h1, h2⟩ := newDatabase_ok.1 h
  obtain ⟨m1, m2, m3, m4, m5⟩ := openFile_maps h1
  have hl := loadUsers_iff (us := d.users) (i := 0) (db := { d with version := Ext.appVersion }) rfl (by simp)
  have hc := hl.1.1 ⟨_, h2⟩
  obtain ⟨h3, h4⟩ := hl.2 _ h2
  refine ⟨d, h1, ?_, ?_, ?_⟩
  · have e1 := hc.freeName
    have e2 := hc.freeID
    constructor
    · exact hc.valid
    · exact hc.usernames
    · exact hc.ids
    · exact hc.emails
    · exact hc.prefixes
    all_goals intros; rfl
  · rw [h3]; simp
  · rw [h4]; exact m5

end GoIdentity
