import Verif.Lemmas.NullCodec
import Verif.Props.Loading
/-!
# Opening a document with nulls: C122
-/
namespace GoIdentity
open Toy

/-! ## C122 -/

/-- C122: on a document without a null in a list of records, `NewDatabase` ends as in the rest of this development, and leaves the
same files. -/
theorem C122_without_nulls [Ext] {nd : Nondet} {fs : FS} {fp b : GoString} (hst : nd.statErr = false) (hrd : nd.readErr = false)
    (hne : fp ≠ []) (ht : fp.head? ≠ some 126) (hf : fs fp = some (.file b)) (hb : unmarshalDB b ≠ .panic) :
    (newDatabase nd fs fp).1.outcome = (nullOpenDoc nd fs fp b).1.outcome ∧ (newDatabase nd fs fp).2 = (nullOpenDoc nd fs fp b).2 := by
  have hread : readFileBytes nd fs fp = .ok b := by
    unfold readFileBytes expandHomePath
    cases fp with
    | nil => exact absurd rfl hne
    | cons c rest =>
      have hc : c ≠ 126 := fun h => ht (by rw [h]; rfl)
      simp [hc, hrd, hf]
  unfold newDatabase Database.openFile nullOpenDoc
  simp only [hst, hf, hread, Bool.false_eq_true, if_false]
  rw [unmarshalNull_of hb]
  cases hd : unmarshalDB b with
  | panic => exact absurd hd hb
  | err e => exact ⟨rfl, rfl⟩
  | ok d =>
    dsimp only [Res.mapTo]
    have hl : ∀ db : Database, db.refs = Refs.empty →
        (Database.loadUsers 0 d.users db).outcome = (nullLoadUsers 0 (NullData.of d).users Refs.empty).outcome := by
      intro db h0
      have hw : List.Forall₂ (fun s p => ∃ u, s = some u ∧ Whole u p) (NullData.of d).users d.users := by
        change List.Forall₂ _ (d.users.map fun u => some (NullUser.of u)) d.users
        rw [List.forall₂_map_left_iff]
        exact List.forall₂_same.2 fun u _ => ⟨_, rfl, whole_of u⟩
      rw [← h0, nullLoadUsers_whole hw]
      cases Database.loadUsers 0 d.users db <;> rfl
    have hp : (NullData.of d).policy = d.policy := rfl
    rw [hp]
    rcases hpc : enforceDefaultPolicy d.policy with ⟨policy, changed⟩
    dsimp only
    cases changed with
    | false => exact ⟨hl _ rfl, rfl⟩
    | true =>
      have hm : marshalNull { ({ NullData.of d with policy := policy } : NullData) with
            revision := ((NullData.of d).revision + 1) % 2 ^ 64, lastModified := nd.commitTime } =
          marshalDB { d with policy := policy, revision := (d.revision + 1) % 2 ^ 64, lastModified := nd.commitTime } :=
        marshalNull_of { d with policy := policy, revision := (d.revision + 1) % 2 ^ 64, lastModified := nd.commitTime }
      unfold nullCommit Database.commit
      rw [if_pos rfl, if_pos rfl]
      dsimp only [Database.empty] at hm ⊢
      rw [hm]
      rcases hw : writeFile fs fp (marshalDB { d with policy := policy, revision := (d.revision + 1) % 2 ^ 64, lastModified := nd.commitTime })
        nd.io with ⟨fs', _ | e⟩
      · exact ⟨hl _ rfl, rfl⟩
      · exact ⟨rfl, rfl⟩

/-- C122: a list of users either has no null that `NewDatabase` looks at, or a first one. -/
theorem C122_null_or_not [Ext] (us : List (Option NullUser)) :
    (∃ ps, List.Forall₂ (fun s p => ∃ u, s = some u ∧ Whole u p) us ps) ∨ ∃ ps, UpTo us ps := by
  have split : ∀ {α : Type} (l : List (Option α)), (∃ xs : List α, l = xs.map some) ∨
      ∃ (xs : List α) (r : List (Option α)), l = xs.map some ++ none :: r := by
    intro α l
    induction l with
    | nil => exact .inl ⟨[], rfl⟩
    | cons a l ih =>
      cases a with
      | none => exact .inr ⟨[], l, rfl⟩
      | some a =>
        rcases ih with ⟨xs, rfl⟩ | ⟨xs, r, rfl⟩
        · exact .inl ⟨a :: xs, rfl⟩
        · exact .inr ⟨a :: xs, r, rfl⟩
  induction us with
  | nil => exact .inl ⟨[], .nil⟩
  | cons s us ih =>
    cases s with
    | none => exact .inr ⟨[], .user us⟩
    | some u =>
      rcases split u.emailAddresses with ⟨es, he⟩ | ⟨es, r, he⟩
      · by_cases hp : none ∈ u.passwords
        · exact .inr ⟨_, .inside (p := { u.rest with emailAddresses := es, passwords := u.passwords.map (·.getD .zero), apiKeys := [] }) us
            ⟨rfl, rfl, by simp, .inr (.inl ⟨he, hp, rfl⟩)⟩⟩
        · rcases split u.apiKeys with ⟨ks, hk⟩ | ⟨ks, r, hk⟩
          · rcases split u.passwords with ⟨pw, hpw⟩ | ⟨pw, r, hpw⟩
            · have hw : Whole u { u.rest with emailAddresses := es, passwords := pw, apiKeys := ks } := ⟨rfl, rfl, he, hpw, hk⟩
              rcases ih with ⟨ps, h⟩ | ⟨ps, h⟩
              · exact .inl ⟨_, .cons ⟨u, rfl, hw⟩ h⟩
              · exact .inr ⟨_, .next hw h⟩
            · exact absurd (by rw [hpw]; simp) hp
          · exact .inr ⟨_, .inside (p := { u.rest with emailAddresses := es, passwords := u.passwords.map (·.getD .zero), apiKeys := ks }) us
              ⟨rfl, rfl, by simp, .inr (.inr ⟨he, hp, r, hk⟩)⟩⟩
      · exact .inr ⟨_, .inside (p := { u.rest with emailAddresses := es, passwords := u.passwords.map (·.getD .zero), apiKeys := [] }) us
          ⟨rfl, rfl, by simp, .inl ⟨⟨r, he⟩, rfl⟩⟩⟩

/-- Going through users of which the first null is the end of `ps`. -/
theorem nullLoadUsers_upTo_iff [Ext] {us : List (Option NullUser)} {ps : List User} (hu : UpTo us ps) (o : Outcome) :
    (nullLoadUsers 0 us Refs.empty).outcome = o ↔
      (∃ e, o = .fail e ∧ Decides (Checks.loadUsers [] ps) (.fail e)) ∨ o = .panic ∧ Decides (Checks.loadUsers [] ps) .success := by
  have h0 := loadUsers_spec (seen_empty (db := Database.empty []) rfl rfl rfl rfl) 0 ps
  have h1 := nullLoadUsers_upTo hu 0 (Database.empty [])
  have h2 : (Database.empty []).refs = Refs.empty := rfl
  rw [h2] at h1
  rw [h1]
  cases hl : Database.loadUsers 0 ps (Database.empty []) with
  | err e =>
    rw [hl] at h0
    constructor
    · intro h
      exact .inl ⟨e, h.symm, h0⟩
    · rintro (⟨e', rfl, h⟩ | ⟨_, h⟩)
      · exact h0.unique (loadUsers_functional [] ps) h
      · exact absurd (h0.unique (loadUsers_functional [] ps) h) (by simp [Res.outcome])
  | ok db =>
    rw [hl] at h0
    constructor
    · intro h
      exact .inr ⟨h.symm, h0⟩
    · rintro (⟨e', rfl, h⟩ | ⟨rfl, h⟩)
      · exact absurd (h0.unique (loadUsers_functional [] ps) h) (by simp [Res.outcome])
      · rfl
  | panic =>
    rw [hl] at h0
    exact absurd hl (loadUsers_no_panic (seen_empty rfl rfl rfl rfl) 0 ps)

/-- Going through users without a null that matters. -/
theorem nullLoadUsers_whole_iff [Ext] {us : List (Option NullUser)} {ps : List User}
    (hu : List.Forall₂ (fun s p => ∃ u, s = some u ∧ Whole u p) us ps) (o : Outcome) :
    (nullLoadUsers 0 us Refs.empty).outcome = o ↔ Decides (Checks.loadUsers [] ps) o := by
  have h0 := loadUsers_spec (seen_empty (db := Database.empty []) rfl rfl rfl rfl) 0 ps
  have h1 := nullLoadUsers_whole hu 0 (Database.empty [])
  have h2 : (Database.empty []).refs = Refs.empty := rfl
  rw [h2] at h1
  rw [h1]
  have h3 : ((Database.loadUsers 0 ps (Database.empty [])).mapTo Database.refs).outcome =
      (Database.loadUsers 0 ps (Database.empty [])).outcome := by
    cases Database.loadUsers 0 ps (Database.empty []) <;> rfl
  rw [h3]
  exact ⟨fun h => h ▸ h0, fun h => h0.unique (loadUsers_functional [] ps) h⟩

/-- C122: with no missing limit in the policy, opening a document whose first null is the end of `ps` goes like opening a document that
ends there, with a panic in place of the success; no file is touched. -/
theorem C122_first_null_decides [Ext] {nd : Nondet} {fs : FS} {fp b : GoString} {d : NullData} {ps : List User}
    (hd : unmarshalNull b = .ok d) (hz : ¬ d.policy.HasZero) (hu : UpTo d.users ps) (o : Outcome) :
    (nullOpenDoc nd fs fp b).2 = fs ∧
    ((nullOpenDoc nd fs fp b).1.outcome = o ↔
      (∃ e, o = .fail e ∧ Decides (Checks.loadUsers [] ps) (.fail e)) ∨
      o = .panic ∧ Decides (Checks.loadUsers [] ps) .success) := by
  have hc : (enforceDefaultPolicy d.policy).2 = false := by
    rw [← Bool.not_eq_true, C40_reports_change]; exact hz
  have he : nullOpenDoc nd fs fp b = (nullLoadUsers 0 d.users Refs.empty, fs) := by
    unfold nullOpenDoc
    rw [hd]
    dsimp only
    rcases hpc : enforceDefaultPolicy d.policy with ⟨policy, changed⟩
    rw [hpc] at hc
    dsimp only at hc
    subst hc
    rfl
  rw [he]
  refine ⟨rfl, ?_⟩
  exact nullLoadUsers_upTo_iff hu o

/-- C122: nulls among names, organizations, street addresses, public keys, tokens and roles go unnoticed: only what `Whole` mentions
decides. -/
theorem C122_other_nulls_unnoticed [Ext] {nd : Nondet} {fs : FS} {fp b : GoString} {d : NullData} {ps : List User}
    (hd : unmarshalNull b = .ok d) (hz : ¬ d.policy.HasZero)
    (hu : List.Forall₂ (fun s p => ∃ u, s = some u ∧ Whole u p) d.users ps) (o : Outcome) :
    (nullOpenDoc nd fs fp b).2 = fs ∧ ((nullOpenDoc nd fs fp b).1.outcome = o ↔ Decides (Checks.loadUsers [] ps) o) := by
  have hc : (enforceDefaultPolicy d.policy).2 = false := by
    rw [← Bool.not_eq_true, C40_reports_change]; exact hz
  have he : nullOpenDoc nd fs fp b = (nullLoadUsers 0 d.users Refs.empty, fs) := by
    unfold nullOpenDoc
    rw [hd]
    dsimp only
    rcases hpc : enforceDefaultPolicy d.policy with ⟨policy, changed⟩
    rw [hpc] at hc
    dsimp only at hc
    subst hc
    rfl
  rw [he]
  refine ⟨rfl, ?_⟩
  exact nullLoadUsers_whole_iff hu o

/-- C122: a document with nulls that is written is read back with them. -/
theorem C122_nulls_are_kept [Ext] {d : NullData} (h : d.Ok) : unmarshalNull (marshalNull d) = .ok d := unmarshalNull_marshal h

/-- C122: if a limit of the policy is missing, the document is first written with the limits, the next revision and the time. If that
fails, the call fails, whatever nulls there are; otherwise it ends as it would have without writing. -/
theorem C122_missing_limit [Ext] {nd : Nondet} {fs fs' : FS} {fp b : GoString} {d : NullData} {w : Option GoErr}
    (hd : unmarshalNull b = .ok d) (hz : d.policy.HasZero)
    (hw : writeFile fs fp (marshalNull { d with policy := (enforceDefaultPolicy d.policy).1, revision := (d.revision + 1) % 2 ^ 64, lastModified := nd.commitTime })
      nd.io = (fs', w)) :
    (nullOpenDoc nd fs fp b).2 = fs' ∧
    (∀ e, w = some e → (nullOpenDoc nd fs fp b).1.outcome = .fail (.withE .newDatabase [fp] (.withE .databaseCommit [fp] e))) ∧
    (w = none → ∀ ps o,
      (UpTo d.users ps → ((nullOpenDoc nd fs fp b).1.outcome = o ↔
        (∃ e, o = .fail e ∧ Decides (Checks.loadUsers [] ps) (.fail e)) ∨ o = .panic ∧ Decides (Checks.loadUsers [] ps) .success)) ∧
      (List.Forall₂ (fun s p => ∃ u, s = some u ∧ Whole u p) d.users ps →
        ((nullOpenDoc nd fs fp b).1.outcome = o ↔ Decides (Checks.loadUsers [] ps) o))) := by
  have hc : (enforceDefaultPolicy d.policy).2 = true := (C40_reports_change _).2 hz
  have he : nullOpenDoc nd fs fp b = (match (generalizing := false) w with
      | some e => (.err (.withE .newDatabase [fp] (.withE .databaseCommit [fp] e)), fs')
      | none => (nullLoadUsers 0 d.users Refs.empty, fs')) := by
    unfold nullOpenDoc
    rw [hd]
    dsimp only
    rcases hpc : enforceDefaultPolicy d.policy with ⟨policy, changed⟩
    rw [hpc] at hc hw
    dsimp only at hc hw
    subst hc
    rw [if_pos rfl]
    unfold nullCommit
    dsimp only
    rw [hw]
    cases w <;> rfl
  rw [he]
  cases w with
  | some e => exact ⟨rfl, fun e' h => by cases h; rfl, fun h => (nomatch h)⟩
  | none => exact ⟨rfl, fun e' h => (nomatch h), fun _ ps o => ⟨fun hu => nullLoadUsers_upTo_iff hu o, fun hu => nullLoadUsers_whole_iff hu o⟩⟩

/-- C122: if a limit of the policy is missing, the file is written again before the null is met: the call panics and leaves a file
with the next revision that holds the same users, and on which every later call panics, too. -/
theorem C122_written_then_panics [Ext] {nd : Nondet} {fs : FS} {fp b : GoString} {d : NullData} {ps : List User}
    (hd : unmarshalNull b = .ok d) (hok : d.Ok) (hz : d.policy.HasZero) (hio : nd.io = .ok) (ht : nd.commitTime.Ok) (hne : fp ≠ [])
    (hdir : fs fp ≠ some .dir) (hu : UpTo d.users ps) (hs : Decides (Checks.loadUsers [] ps) .success) :
    (nullOpenDoc nd fs fp b).1.outcome = .panic ∧
    ∃ b' d', (nullOpenDoc nd fs fp b).2 = upd fs fp (some (.file b')) ∧ unmarshalNull b' = .ok d' ∧ d'.users = d.users ∧
      d'.revision = (d.revision + 1) % 2 ^ 64 ∧ d'.lastModified = nd.commitTime ∧ ¬ d'.policy.HasZero ∧
      ∀ nd' fs', (nullOpenDoc nd' fs' fp b').1.outcome = .panic ∧ (nullOpenDoc nd' fs' fp b').2 = fs' := by
  have hc : (enforceDefaultPolicy d.policy).2 = true := (C40_reports_change _).2 hz
  have hpol : (enforceDefaultPolicy d.policy).1.Ok := by
    rw [C40_defaults]
    obtain ⟨⟨a1, a2, a3⟩, ⟨b1, b2⟩⟩ := hok.policy
    unfold Int64 at *
    refine ⟨⟨?_, ?_, ?_⟩, ⟨?_, ?_⟩⟩ <;> dsimp only <;> split <;> first | assumption | (unfold Int64; omega)
  have hnz := (C40_idempotent d.policy).1
  have he : nullOpenDoc nd fs fp b = (nullLoadUsers 0 d.users Refs.empty, upd fs fp (some (.file (marshalNull
      { d with policy := (enforceDefaultPolicy d.policy).1, revision := (d.revision + 1) % 2 ^ 64, lastModified := nd.commitTime })))) := by
    unfold nullOpenDoc
    rw [hd]
    dsimp only
    rcases hpc : enforceDefaultPolicy d.policy with ⟨policy, changed⟩
    rw [hpc] at hc
    dsimp only at hc
    subst hc
    rw [if_pos rfl]
    unfold nullCommit writeFile
    rw [if_neg (by simp [hne, hdir]), hio]
  have hrt : unmarshalNull (marshalNull
      { d with policy := (enforceDefaultPolicy d.policy).1, revision := (d.revision + 1) % 2 ^ 64, lastModified := nd.commitTime }) = .ok _ :=
    unmarshalNull_marshal ⟨hok.version, hpol, Nat.mod_lt _ (by decide), ht, hok.users⟩
  have hpanic : (nullLoadUsers 0 d.users Refs.empty).outcome = .panic := by
    have h0 := loadUsers_spec (seen_empty (db := Database.empty fp) rfl rfl rfl rfl) 0 ps
    have h1 := nullLoadUsers_upTo hu 0 (Database.empty fp)
    have h2 : (Database.empty fp).refs = Refs.empty := rfl
    rw [h2] at h1
    rw [h1]
    cases hl : Database.loadUsers 0 ps (Database.empty fp) with
    | err e =>
      rw [hl] at h0
      exact absurd (h0.unique (loadUsers_functional [] ps) hs) (by simp [Res.outcome])
    | ok db => rfl
    | panic => rfl
  rw [he]
  refine ⟨hpanic, _, _, rfl, hrt, rfl, rfl, rfl, hnz, fun nd' fs' => ?_⟩
  have h := fun o => C122_first_null_decides (nd := nd') (fs := fs') (fp := fp) hrt hnz hu o
  exact ⟨(h .panic).2.2 (.inr ⟨rfl, hs⟩), (h .panic).1⟩

/-! ## Concrete cases -/

/-- A user as a document has it, up to its last member. -/
def docUser (id : GoString) (more : GoString) : GoString :=
  gs! "{\"id\":\"" ++ id ++ gs! "\",\"username\":\"u" ++ id ++ gs! "\"," ++ more ++ gs! "}"

/-- A document with a complete policy. -/
def docOf (users : GoString) : GoString :=
  gs! "{\"policy\":{\"password\":{\"keep_versions\":1,\"min_length\":1,\"max_length\":9},\"user\":{\"min_length\":1,\"max_length\":9}},\"users\":[" ++
    users ++ gs! "]}"

def idA : GoString := List.replicate 36 97
def idB : GoString := List.replicate 36 98

/-- A null user, a null email address, a null password and a null key after a good user; the same after a repeated identifier. -/
example : ((nullOpenDoc nd fs1 path (docOf (docUser idA (gs! "\"passwords\":[{}]") ++ gs! ",null"))).1.outcome = .panic) ∧
    (nullOpenDoc nd fs1 path (docOf (docUser idA (gs! "\"passwords\":[{}],\"email_addresses\":[null]")))).1.outcome = .panic ∧
    (nullOpenDoc nd fs1 path (docOf (docUser idA (gs! "\"passwords\":[{},null]")))).1.outcome = .panic ∧
    (nullOpenDoc nd fs1 path (docOf (docUser idA (gs! "\"passwords\":[{}],\"api_keys\":[{},null]")))).1.outcome = .panic ∧
    (nullOpenDoc nd fs1 path (docOf (docUser idA (gs! "\"passwords\":[{}]") ++ gs! "," ++ docUser idA (gs! "\"passwords\":[null]")))).1.outcome =
      .fail (.withV .newDatabaseDuplicateUser [117 :: idA, gs! "user"] []) ∧
    (nullOpenDoc nd fs1 path (docOf (docUser idA (gs! "\"passwords\":[{}],\"api_keys\":[{},{},null]")))).1.outcome =
      .fail (.withV .newDatabaseDuplicateAPIKey [[], gs! "user"] []) := by
  decide +kernel

/-- Nulls nobody looks at, and a null before a member of the wrong type, which is an error and not a panic. -/
example : ((nullOpenDoc nd fs1 path (docOf (docUser idA (gs! "\"passwords\":[{}],\"roles\":[null],\"public_keys\":[null,{}],\"mfa_tokens\":[null]") ++
      gs! "," ++ docUser idB (gs! "\"passwords\":[{}]")))).1.outcome = .success) ∧
    (nullOpenDoc nd fs1 path (docOf (gs! "null,7"))).1.outcome = .fail (.withE .newDatabase [path] (.ext (gs! "json"))) := by
  decide +kernel

/-- Without a policy, a write that fails is the outcome. -/
example : ((nullOpenDoc { nd with io := .writeErr 3 } fs1 path (gs! "{\"users\":[null]}")).1.outcome =
    .fail (.withE .newDatabase [path] (.withE .databaseCommit [path] (.ext (gs! "write"))))) := by
  decide +kernel

/-- Without a policy the file is written before the panic, and the null is still there. -/
example : (let r := nullOpenDoc nd fs1 path (gs! "{\"users\":[null]}")
    (r.1.outcome == .panic) && (match r.2 path with
      | some (.file b) => (b == marshalNull ⟨[], defaultPolicy, 1, nd.commitTime, [none]⟩) && ((nullOpenDoc nd r.2 path b).1.outcome == .panic)
      | _ => false)) = true := by
  decide +kernel

end GoIdentity
