import Verif.Lemmas.Loading
/-!
# C118: how opening a database ends, and with which error

`Verif/Spec/Loading.lean` has the table of checks.
-/
namespace GoIdentity
open Toy

/-- C118: `NewDatabase` ends in exactly the way of the first check of its table that applies. -/
theorem C118_how_opening_ends [Ext] (nd : Nondet) {fs : FS} {fp : GoString} (hn : NoNullRecords fs fp) (o : Outcome) :
    (newDatabase nd fs fp).1.outcome = o ↔ Decides (Checks.newDatabase nd fs fp) o :=
  ⟨fun h => h ▸ newDatabase_decides nd hn, fun h => (newDatabase_decides nd hn).unique (newDatabase_functional nd fs fp) h⟩

/-- C118: so if the file is read and decodes, and no limit of the policy is missing, the outcome is that of the first check
of a user, in the order of the document, that applies. -/
theorem C118_how_loading_ends [Ext] {nd : Nondet} {fs : FS} {fp b : GoString} {d : DBData} (hst : nd.statErr = false)
    (hrd : nd.readErr = false) (hne : fp ≠ []) (ht : fp.head? ≠ some 126) (hf : fs fp = some (.file b))
    (hd : unmarshalDB b = .ok d) (hz : ¬ d.policy.HasZero) (o : Outcome) :
    (newDatabase nd fs fp).1.outcome = o ↔ Decides (Checks.loadUsers [] d.users) o := by
  have hr : ReadFrom fp fp := .inl ⟨hne, ht, rfl⟩
  have hdoc : HoldsDoc fs fp d := ⟨fp, b, hr, hf, hd⟩
  have hn : NoNullRecords fs fp := by
    intro p b' hp hb'
    cases hp.unique hr
    rw [hf] at hb'
    cases hb'
    rw [hd]
    exact fun h => nomatch h
  have key : ∀ o, Decides (Checks.loadUsers [] d.users) o → Decides (Checks.newDatabase nd fs fp) o := by
    intro o ho
    unfold Checks.newDatabase
    dsimp only
    simp only [List.append_assoc, List.cons_append, List.nil_append]
    refine .nor (by simp [hst]) (.nor (by simp [hf]) ((Passes.only (by simp [hf]) _).then ?_))
    refine .nor (by simp [hf]) (.no hne (.nor (fun hc => ht hc.1) (.nor (by simp [hrd]) ?_)))
    refine .later ?_ (.later ?_ (.later ?_ ((Passes.only ?_ _).then (.here ⟨d, hdoc, ho⟩))))
    · rintro x ⟨p, hp, h, -⟩
      cases hp.unique hr
      rw [hf] at h; cases h
    · rintro x ⟨p, hp, h, -⟩
      cases hp.unique hr
      rw [hf] at h; cases h
    · rintro x ⟨p, b', e, hp, h, h', -⟩
      cases hp.unique hr
      rw [hf] at h; cases h
      rw [hd] at h'; cases h'
    · rintro ⟨d', h, h'⟩
      cases h.unique hdoc
      exact hz h'
  rw [C118_how_opening_ends nd hn]
  constructor
  · intro h
    have h0 := loadUsers_spec (seen_empty (db := Database.empty fp) rfl rfl rfl rfl) 0 d.users
    rw [h.unique (newDatabase_functional nd fs fp) (key _ h0)]
    exact h0
  · exact key o

/-! A document with two users, and what is reported when one thing is wrong. -/
example : NoNullRecords fs3 path := by
  intro p b hp hb
  rcases hp with ⟨_, _, rfl⟩ | ⟨rest, hd, h, _⟩
  · cases (show some (Node.file (marshalDB db2.toDBData)) = some (.file b) from hb)
    decide +kernel
  · exact absurd (show List.head? path = some 126 from congrArg List.head? h) (by decide)
/-- Two users of one name, an email address twice, no passwords, and a directory. -/
example :
    (newDatabase nd (fun _ => some (.file (marshalDB { db2.toDBData with
        users := db2.users.map fun u => { u with username := gs! "JOE" } }))) path).1.outcome =
      .fail (.withV .newDatabaseDuplicateUser [gs! "JOE", gs! "user"] []) ∧
    (newDatabase nd (fun _ => some (.file (marshalDB { db2.toDBData with
        users := db2.users.map fun u => { u with emailAddresses := u.emailAddresses ++ u.emailAddresses } }))) path).1.outcome =
      .fail (.withV .newDatabaseDuplicateEmail [gs! "joe@example.com", gs! "user"] []) ∧
    (newDatabase nd (fun _ => some (.file (marshalDB { db2.toDBData with
        users := db2.users.map fun u => { u with passwords := [] } }))) path).1.outcome =
      .fail (.withE .newDatabaseInvalidUser [gs! "user"] (.std .userPasswordNotFound)) ∧
    (newDatabase nd (fun _ => some .dir) path).1.outcome =
      .fail (.withV .newDatabase [path, gs! "path points to a directory"] []) ∧
    (newDatabase nd fs3 path).1.outcome = .success := by
  decide +kernel

end GoIdentity
