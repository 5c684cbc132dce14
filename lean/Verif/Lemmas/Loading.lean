import Verif.Lemmas.Refusals6
import Verif.Spec.Loading
/-!
# The table of checks of NewDatabase says how it ends
-/
set_option linter.unusedSectionVars false
namespace GoIdentity
variable [Ext]

theorem FirstRepeat.congr {P Q : GoString → Prop} (h : ∀ s, P s ↔ Q s) {l : List GoString} {s : GoString}
    (hr : FirstRepeat P l s) : FirstRepeat Q l s := by
  obtain ⟨as, bs, h1, h2, h3, h4⟩ := hr
  exact ⟨as, bs, h1, h2.imp (h s).1 id, h3, fun a ha hq => h4 a ha ((h a).2 hq)⟩

theorem FirstRepeat.cons {seen : GoString → Prop} {l : List GoString} {a s : GoString} (ha : ¬ seen a)
    (h : FirstRepeat (fun x => x = a ∨ seen x) l s) : FirstRepeat seen (a :: l) s := by
  obtain ⟨as, bs, h1, h2, h3, h4⟩ := h
  refine ⟨a :: as, bs, by rw [h1]; rfl, ?_, ?_, ?_⟩
  · rcases h2 with (rfl | h2) | h2
    · right; simp
    · exact .inl h2
    · right; simp [h2]
  · rw [List.nodup_cons]
    exact ⟨fun hm => h4 a hm (.inl rfl), h3⟩
  · intro x hx
    rcases List.mem_cons.1 hx with rfl | hx
    · exact ha
    · exact fun hs => h4 x hx (.inr hs)

theorem FirstRepeat.not {seen : GoString → Prop} {l : List GoString} (h1 : ∀ a ∈ l, ¬ seen a) (h2 : l.Nodup) (s : GoString) :
    ¬ FirstRepeat seen l s := by
  rintro ⟨as, bs, rfl, h | h, _, _⟩
  · exact h1 s (by simp) h
  · rw [List.nodup_append] at h2
    exact h2.2.2 s h s (by simp) rfl

theorem FirstRepeat.unique {seen : GoString → Prop} {l : List GoString} {s t : GoString} (hs : FirstRepeat seen l s)
    (ht : FirstRepeat seen l t) : s = t := by
  obtain ⟨as, bs, rfl, h1, h2, h3⟩ := hs
  obtain ⟨cs, ds, he, h4, h5, h6⟩ := ht
  rcases List.append_eq_append_iff.1 he with ⟨x, hx, hy⟩ | ⟨x, hx, hy⟩
  · cases x with
    | nil => simp at hy; exact hy.1
    | cons y x =>
      simp only [List.cons_append, List.cons.injEq] at hy
      obtain ⟨rfl, _⟩ := hy
      subst hx
      exfalso
      rcases h1 with h1 | h1
      · exact h6 s (by simp) h1
      · rw [List.nodup_append] at h5
        exact h5.2.2 s h1 s (by simp) rfl
  · cases x with
    | nil => simp at hy; exact hy.1.symm
    | cons y x =>
      simp only [List.cons_append, List.cons.injEq] at hy
      obtain ⟨rfl, _⟩ := hy
      subst hx
      exfalso
      rcases h4 with h4 | h4
      · exact h3 t (by simp) h4
      · rw [List.nodup_append] at h2
        exact h2.2.2 t h4 t (by simp) rfl

theorem upd_seen {m : GoString → Option Nat} {a x : GoString} {i : Nat} :
    upd m a (some i) x ≠ none ↔ (x = a ∨ m x ≠ none) := by
  unfold upd
  by_cases h : x = a
  · simp [h]
  · simp [h]

theorem loadEmails_spec (i : Nat) (es : List EmailAddress) (m : GoString → Option Nat) :
    (∃ m', Database.loadEmails i es m = .ok m') ∨
    ∃ a, FirstRepeat (fun s => m s ≠ none) (es.map fun e => toLower e.address) a ∧
      Database.loadEmails i es m = .err (.withV .newDatabaseDuplicateEmail [a, gs! "user"] []) := by
  induction es generalizing m with
  | nil => exact .inl ⟨_, rfl⟩
  | cons e es ih =>
    unfold Database.loadEmails
    dsimp only
    cases hm : m (toLower e.address) with
    | some j => exact .inr ⟨_, ⟨[], _, rfl, .inl (by simp [hm]), by simp, by simp⟩, rfl⟩
    | none =>
      dsimp only
      rcases ih (upd m (toLower e.address) (some i)) with h | ⟨a, h1, h2⟩
      · exact .inl h
      · exact .inr ⟨a, .cons (by simp [hm]) (h1.congr fun s => upd_seen), h2⟩

theorem loadAPIKeys_spec (i : Nat) (ks : List APIKey) (m : GoString → Option Nat) :
    (∃ m', Database.loadAPIKeys i ks m = .ok m') ∨
    ∃ a, FirstRepeat (fun s => m s ≠ none) (ks.map (·.pfx)) a ∧
      Database.loadAPIKeys i ks m = .err (.withV .newDatabaseDuplicateAPIKey [a, gs! "user"] []) := by
  induction ks generalizing m with
  | nil => exact .inl ⟨_, rfl⟩
  | cons e es ih =>
    unfold Database.loadAPIKeys
    cases hm : m e.pfx with
    | some j => exact .inr ⟨_, ⟨[], _, rfl, .inl (by simp [hm]), by simp, by simp⟩, rfl⟩
    | none =>
      dsimp only
      rcases ih (upd m e.pfx (some i)) with h | ⟨a, h1, h2⟩
      · exact .inl h
      · exact .inr ⟨a, .cons (by simp [hm]) (h1.congr fun s => upd_seen), h2⟩

/-- The maps know the users before. -/
structure Seen (db : Database) (pre : List User) : Prop where
  names : ∀ s, db.refUsername s ≠ none ↔ ∃ v ∈ pre, toLower v.username = s
  ids : ∀ s, db.refID s ≠ none ↔ ∃ v ∈ pre, v.id = s
  emails : ∀ s, db.refEmailAddress s ≠ none ↔ ∃ v ∈ pre, ∃ e ∈ v.emailAddresses, toLower e.address = s
  keys : ∀ s, db.refAPIKey s ≠ none ↔ ∃ v ∈ pre, ∃ k ∈ v.apiKeys, k.pfx = s

theorem loadUser_spec {db : Database} {pre : List User} (h : Seen db pre) (i : Nat) (u : User) :
    (∃ e, Database.loadUser i u db = .err e ∧ Decides (Checks.loadUser pre u) (.fail e)) ∨
    ∃ db', Database.loadUser i u db = .ok db' ∧ Seen db' (pre ++ [u]) ∧ Passes (Checks.loadUser pre u) := by
  cases hl : Database.loadUser i u db with
  | ok db' =>
    right
    obtain ⟨h1, h2, h3, h4, h5, h6, h7, rfl⟩ := loadUser_ok_iff.1 hl
    obtain ⟨v1, v2, v3⟩ := valid_iff.1 h1
    refine ⟨_, rfl, ⟨?_, ?_, ?_, ?_⟩, ?_⟩
    · intro s
      dsimp only
      rw [upd_seen, h.names s]
      simp only [List.mem_append, List.mem_singleton]
      constructor
      · rintro (rfl | ⟨v, hv, rfl⟩)
        · exact ⟨u, .inr rfl, rfl⟩
        · exact ⟨v, .inl hv, rfl⟩
      · rintro ⟨v, hv | rfl, rfl⟩
        · exact .inr ⟨v, hv, rfl⟩
        · exact .inl rfl
    · intro s
      dsimp only
      rw [upd_seen, h.ids s]
      simp only [List.mem_append, List.mem_singleton]
      constructor
      · rintro (rfl | ⟨v, hv, rfl⟩)
        · exact ⟨u, .inr rfl, rfl⟩
        · exact ⟨v, .inl hv, rfl⟩
      · rintro ⟨v, hv | rfl, rfl⟩
        · exact .inr ⟨v, hv, rfl⟩
        · exact .inl rfl
    · intro s
      dsimp only
      simp only [List.mem_append, List.mem_singleton]
      by_cases hs : s ∈ u.emailAddresses.map (fun e => toLower e.address)
      · rw [if_pos hs]
        obtain ⟨e, he, rfl⟩ := List.mem_map.1 hs
        exact ⟨fun _ => ⟨u, .inr rfl, e, he, rfl⟩, fun _ => by simp⟩
      · rw [if_neg hs, h.emails s]
        constructor
        · rintro ⟨v, hv, e, he, rfl⟩
          exact ⟨v, .inl hv, e, he, rfl⟩
        · rintro ⟨v, hv | rfl, e, he, rfl⟩
          · exact ⟨v, hv, e, he, rfl⟩
          · exact absurd (List.mem_map.2 ⟨e, he, rfl⟩) hs
    · intro s
      dsimp only
      simp only [List.mem_append, List.mem_singleton]
      by_cases hs : s ∈ u.apiKeys.map (·.pfx)
      · rw [if_pos hs]
        obtain ⟨e, he, rfl⟩ := List.mem_map.1 hs
        exact ⟨fun _ => ⟨u, .inr rfl, e, he, rfl⟩, fun _ => by simp⟩
      · rw [if_neg hs, h.keys s]
        constructor
        · rintro ⟨v, hv, e, he, rfl⟩
          exact ⟨v, .inl hv, e, he, rfl⟩
        · rintro ⟨v, hv | rfl, e, he, rfl⟩
          · exact ⟨v, hv, e, he, rfl⟩
          · exact absurd (List.mem_map.2 ⟨e, he, rfl⟩) hs
    · refine .refuse (fun hc => hc v1) (.refuse v2 (.refuse v3 (.refuse ?_ (.refuse ?_ (.cons ?_ (.cons ?_ .nil))))))
      · exact fun hc => (h.names _).2 hc h2
      · exact fun hc => (h.ids _).2 hc h3
      · rintro x ⟨a, hr, -⟩
        refine FirstRepeat.not ?_ h5 a hr
        intro b hb hc
        obtain ⟨e, he, rfl⟩ := List.mem_map.1 hb
        exact (h.emails _).2 hc (h4 e he)
      · rintro x ⟨a, hr, -⟩
        refine FirstRepeat.not ?_ h7 a hr
        intro b hb hc
        obtain ⟨e, he, rfl⟩ := List.mem_map.1 hb
        exact (h.keys _).2 hc (h6 e he)
  | err e =>
    left
    refine ⟨e, rfl, ?_⟩
    unfold Database.loadUser at hl
    unfold Checks.loadUser
    dsimp only
    unfold User.valid at hl
    by_cases v1 : u.id.length ≠ 36
    · rw [if_pos v1] at hl
      cases hl
      exact .yesr v1
    rw [if_neg v1] at hl
    refine .nor v1 ?_
    by_cases v2 : u.username = []
    · rw [if_pos v2] at hl
      cases hl
      exact .yesr v2
    rw [if_neg v2] at hl
    refine .nor v2 ?_
    by_cases v3 : u.passwords = []
    · rw [if_pos (by rw [v3]; decide)] at hl
      cases hl
      exact .yesr v3
    rw [if_neg (by
      have := List.length_pos_iff.2 v3
      omega)] at hl
    refine .nor v3 ?_
    dsimp only at hl
    by_cases v4 : ∃ v ∈ pre, toLower v.username = toLower u.username
    · obtain ⟨j, hj⟩ := Option.ne_none_iff_exists'.1 ((h.names _).2 v4)
      rw [hj] at hl
      cases hl
      exact .yesr v4
    have n4 : db.refUsername (toLower u.username) = none := by
      by_cases hn : db.refUsername (toLower u.username) = none
      · exact hn
      · exact absurd ((h.names _).1 hn) v4
    refine .nor v4 ?_
    by_cases v5 : ∃ v ∈ pre, v.id = u.id
    · obtain ⟨j, hj⟩ := Option.ne_none_iff_exists'.1 ((h.ids _).2 v5)
      rw [n4, hj] at hl
      cases hl
      exact .yesr v5
    have n5 : db.refID u.id = none := by
      by_cases hn : db.refID u.id = none
      · exact hn
      · exact absurd ((h.ids _).1 hn) v5
    refine .nor v5 ?_
    rw [n4, n5] at hl
    dsimp only at hl
    rcases loadEmails_spec i u.emailAddresses db.refEmailAddress with ⟨m', hm'⟩ | ⟨a, h1, h2⟩
    · rw [hm'] at hl
      dsimp only at hl
      obtain ⟨g1, g2, -⟩ := loadEmails_ok_iff.1 hm'
      refine .later ?_ ?_
      · rintro x ⟨a, hr, -⟩
        refine FirstRepeat.not ?_ g2 a hr
        intro b hb hc
        obtain ⟨e, he, rfl⟩ := List.mem_map.1 hb
        exact (h.emails _).2 hc (g1 e he)
      · rcases loadAPIKeys_spec i u.apiKeys db.refAPIKey with ⟨m'', hm''⟩ | ⟨a, h1, h2⟩
        · rw [hm''] at hl; cases hl
        · rw [h2] at hl
          cases hl
          exact .here ⟨a, h1.congr h.keys, rfl⟩
    · rw [h2] at hl
      cases hl
      exact .here ⟨a, h1.congr h.emails, rfl⟩
  | panic =>
    exfalso
    unfold Database.loadUser at hl
    unfold User.valid at hl
    by_cases v1 : u.id.length ≠ 36
    · rw [if_pos v1] at hl; cases hl
    rw [if_neg v1] at hl
    by_cases v2 : u.username = []
    · rw [if_pos v2] at hl; cases hl
    rw [if_neg v2] at hl
    by_cases v3 : u.passwords.length < 1
    · rw [if_pos v3] at hl; cases hl
    rw [if_neg v3] at hl
    dsimp only at hl
    cases n4 : db.refUsername (toLower u.username) with
    | some j => rw [n4] at hl; cases hl
    | none =>
      cases n5 : db.refID u.id with
      | some j => rw [n4, n5] at hl; cases hl
      | none =>
        rw [n4, n5] at hl
        dsimp only at hl
        rcases loadEmails_spec i u.emailAddresses db.refEmailAddress with ⟨m', hm'⟩ | ⟨a, h1, h2⟩
        · rw [hm'] at hl
          dsimp only at hl
          rcases loadAPIKeys_spec i u.apiKeys db.refAPIKey with ⟨m'', hm''⟩ | ⟨a, h1, h2⟩
          · rw [hm''] at hl; cases hl
          · rw [h2] at hl; cases hl
        · rw [h2] at hl; cases hl

theorem loadUsers_spec {db : Database} {pre : List User} (h : Seen db pre) (i : Nat) (us : List User) :
    Decides (Checks.loadUsers pre us) (Database.loadUsers i us db).outcome := by
  induction us generalizing i db pre with
  | nil => exact decides_done
  | cons u us ih =>
    unfold Database.loadUsers Checks.loadUsers
    rcases loadUser_spec h i u with ⟨e, h1, h2⟩ | ⟨db', h1, h2, h3⟩
    · rw [h1]; exact h2.left
    · rw [h1]; exact h3.then (ih h2 _)

theorem loadUsers_functional (pre us : List User) : Functional (Checks.loadUsers pre us) := by
  induction us generalizing pre with
  | nil => exact done_functional
  | cons u us ih =>
    refine .append (.refuse (.refuse (.refuse (.refuse (.refuse (.cons ?_ (.cons ?_ .nil))))))) (ih _)
    · rintro x y ⟨a, h1, rfl⟩ ⟨b, h2, rfl⟩
      rw [h1.unique h2]
    · rintro x y ⟨a, h1, rfl⟩ ⟨b, h2, rfl⟩
      rw [h1.unique h2]

theorem Passes.only {c : Prop} (h : ¬ c) (rs : List Row) : Passes (Checks.only c rs) := by
  intro r hr x hx
  obtain ⟨r', _, rfl⟩ := List.mem_map.1 hr
  exact h hx.1

theorem Passes.only' {c : Prop} {rs : List Row} (h : Passes rs) : Passes (Checks.only c rs) := by
  intro r hr x hx
  obtain ⟨r', hr', rfl⟩ := List.mem_map.1 hr
  exact h r' hr' x hx.2

theorem Decides.only {c : Prop} (h : c) {rs : List Row} {o : Outcome} (hd : Decides rs o) : Decides (Checks.only c rs) o := by
  induction hd with
  | here hr => exact .here ⟨h, hr⟩
  | later hr _ ih => exact .later (fun x hx => hr x hx.2) ih

theorem Functional.only {c : Prop} {rs : List Row} (h : Functional rs) : Functional (Checks.only c rs) := by
  intro r hr x y hx hy
  obtain ⟨r', hr', rfl⟩ := List.mem_map.1 hr
  exact h r' hr' x y hx.2 hy.2

theorem ReadFrom.unique {fp p q : GoString} (hp : ReadFrom fp p) (hq : ReadFrom fp q) : p = q := by
  rcases hp with ⟨_, h1, rfl⟩ | ⟨r, hd, rfl, h1, rfl⟩
  · rcases hq with ⟨_, _, rfl⟩ | ⟨r, hd, rfl, _, _⟩
    · rfl
    · simp at h1
  · rcases hq with ⟨_, h2, _⟩ | ⟨r', hd', he, h2, rfl⟩
    · simp at h2
    · cases he
      rw [h1] at h2; cases h2; rfl

theorem HoldsDoc.unique {fs : FS} {fp : GoString} {d d' : DBData} (h : HoldsDoc fs fp d) (h' : HoldsDoc fs fp d') : d = d' := by
  obtain ⟨p, b, h1, h2, h3⟩ := h
  obtain ⟨q, c, g1, g2, g3⟩ := h'
  cases h1.unique g1
  rw [h2] at g2; cases g2
  rw [h3] at g3; cases g3; rfl

theorem newDatabase_functional (nd : Nondet) (fs : FS) (fp : GoString) : Functional (Checks.newDatabase nd fs fp) := by
  refine .append (.append (.append (.append (.refuse (.refuse .nil))
    (.only (.append (write_functional _ _ _ _) done_functional))) ?_) (.only (write_functional _ _ _ _))) ?_
  · refine .refuse (.endsIf (.refuse (.refuse (.cons ?_ (.cons ?_ (.cons ?_ .nil))))))
    · rintro x y ⟨p, h1, _, rfl⟩ ⟨q, h2, _, rfl⟩
      rw [h1.unique h2]
    · rintro x y ⟨p, h1, _, rfl⟩ ⟨q, h2, _, rfl⟩
      rw [h1.unique h2]
    · rintro x y ⟨p, b, e, h1, h2, h3, rfl⟩ ⟨q, c, f, g1, g2, g3, rfl⟩
      cases h1.unique g1
      rw [h2] at g2; cases g2
      rw [h3] at g3; cases g3; rfl
  · refine .cons ?_ .nil
    rintro x y ⟨d, h1, h2⟩ ⟨d', g1, g2⟩
    cases h1.unique g1
    exact h2.unique (loadUsers_functional _ _) g2

/-- Reading the file. -/
theorem readFileBytes_spec (nd : Nondet) (fs : FS) (fp : GoString) :
    (fp = [] ∧ readFileBytes nd fs fp = .panic) ∨
    (fp ≠ [] ∧ fp.head? = some 126 ∧ Ext.homeDir = none ∧
      readFileBytes nd fs fp = .err (.ext (gs! "$HOME is not defined"))) ∨
    (fp ≠ [] ∧ ∃ p, ReadFrom fp p ∧ ¬ (fp.head? = some 126 ∧ Ext.homeDir = none) ∧
      readFileBytes nd fs fp = if nd.readErr then .err (.ext (gs! "read")) else
        match fs p with
        | some (.file b) => .ok b
        | none => .err (.ext (gs! "open " ++ p ++ gs! ": no such file or directory"))
        | some .dir => .err (.ext (gs! "read " ++ p ++ gs! ": is a directory"))) := by
  cases fp with
  | nil => exact .inl ⟨rfl, rfl⟩
  | cons c rest =>
    right
    by_cases hc : c = 126
    · subst hc
      cases hh : Ext.homeDir with
      | none =>
        left
        refine ⟨by simp, rfl, rfl, ?_⟩
        unfold readFileBytes expandHomePath
        simp [hh]
      | some hd =>
        right
        refine ⟨by simp, joinPath hd rest, .inr ⟨rest, hd, rfl, hh, rfl⟩, by simp, ?_⟩
        unfold readFileBytes expandHomePath
        simp only [hh, ne_eq, not_true_eq_false, if_false]
        cases nd.readErr
        · simp only [Bool.false_eq_true, if_false]
          rcases fs (joinPath hd rest) with _ | _ | _ <;> rfl
        · rfl
    · right
      refine ⟨by simp, c :: rest, .inl ⟨by simp, by simpa using hc, rfl⟩, by simp [hc], ?_⟩
      unfold readFileBytes expandHomePath
      simp only [ne_eq, hc, not_false_eq_true, if_true]
      cases nd.readErr
      · simp only [Bool.false_eq_true, if_false]
        rcases fs (c :: rest) with _ | _ | _ <;> rfl
      · rfl

theorem seen_empty {db : Database} (h1 : db.refUsername = fun _ => none) (h2 : db.refID = fun _ => none)
    (h3 : db.refEmailAddress = fun _ => none) (h4 : db.refAPIKey = fun _ => none) : Seen db [] :=
  ⟨fun _ => by simp [h1], fun _ => by simp [h2], fun _ => by simp [h3], fun _ => by simp [h4]⟩

theorem commit_maps (nd : Nondet) (db : Database) (fs : FS) : (db.commit nd fs).1 =
    { db with revision := (db.revision + 1) % 2 ^ 64, lastModified := nd.commitTime } := by
  unfold Database.commit
  dsimp only
  split <;> rfl

theorem newDatabase_decides (nd : Nondet) {fs : FS} {fp : GoString} (hn : NoNullRecords fs fp) :
    Decides (Checks.newDatabase nd fs fp) (newDatabase nd fs fp).1.outcome := by
  unfold Checks.newDatabase newDatabase Database.openFile
  dsimp only
  simp only [List.append_assoc, List.cons_append, List.nil_append]
  by_cases hst : nd.statErr = true
  · rw [if_pos hst]; exact .yesr hst
  rw [if_neg hst]
  refine .nor hst ?_
  cases hf : fs fp with
  | none =>
    dsimp only
    by_cases hmk : nd.mkdirErr = true
    · rw [if_pos hmk]; exact .yesr ⟨rfl, hmk⟩
    rw [if_neg hmk]
    refine .nor (fun hc => hmk hc.2) ?_
    refine Decides.left (Decides.only rfl ?_)
    generalize hdb : ({ Database.empty fp with
      version := Ext.appVersion
      policy := (enforceDefaultPolicy (Database.empty fp).policy).1 } : Database) = db
    have hp : db.path = fp := by rw [← hdb]; rfl
    have hu : db.users = [] := by rw [← hdb]; rfl
    have hm := commit_maps nd db fs
    rcases write_spec nd fs db (.withE .newDatabase [fp]) with ⟨e, h1, h2⟩ | ⟨h1, h2⟩
    · rw [hp] at h2
      rcases hc : db.commit nd fs with ⟨a, b, c⟩
      rw [hc] at h1
      cases h1
      exact h2.left
    · rw [hp] at h2
      rcases hc : db.commit nd fs with ⟨a, b, c⟩
      rw [hc] at h1 hm
      cases h1
      dsimp only at hm ⊢
      subst hm
      dsimp only
      rw [hu]
      exact h2.then decides_done
  | some n =>
    refine .nor (fun hc => nomatch hc.1) ?_
    refine (Passes.only (fun hc => nomatch hc) _).then ?_
    cases n with
    | dir => exact .yesr rfl
    | file b0 =>
      refine .nor (fun hc => nomatch hc) ?_
      dsimp only
      rcases readFileBytes_spec nd fs fp with ⟨h1, h2⟩ | ⟨h1, h2, h3, h4⟩ | ⟨h1, p, h2, h3, h4⟩
      · rw [h2]; exact .yes h1
      · rw [h4]; exact .no h1 (.yesr ⟨h2, h3⟩)
      · rw [h4]
        refine .no h1 (.nor h3 ?_)
        by_cases hr : nd.readErr = true
        · rw [if_pos hr]; exact .yesr hr
        rw [if_neg hr]
        refine .nor hr ?_
        cases hp : fs p with
        | none => exact .here ⟨p, h2, hp, rfl⟩
        | some m =>
          refine .later (fun x ⟨q, hq, hn, _⟩ => ?_) ?_
          · cases h2.unique hq; rw [hp] at hn; cases hn
          cases m with
          | dir => exact .here ⟨p, h2, hp, rfl⟩
          | file b =>
            refine .later (fun x ⟨q, hq, hn, _⟩ => ?_) ?_
            · cases h2.unique hq; rw [hp] at hn; cases hn
            dsimp only
            cases hun : unmarshalDB b with
            | err e => exact .here ⟨p, b, e, h2, hp, hun, rfl⟩
            | panic => exact absurd hun (hn p b h2 hp)
            | ok d =>
              have hd : HoldsDoc fs fp d := ⟨p, b, h2, hp, hun⟩
              refine .later (fun x ⟨q, c, e, hq, hn, he, _⟩ => ?_) ?_
              · cases h2.unique hq; rw [hp] at hn; cases hn; rw [hun] at he; cases he
              dsimp only
              by_cases hz : d.policy.HasZero
              · rw [if_pos ((C40_reports_change _).2 hz)]
                generalize hdb : ({ Database.empty fp with
                  toDBData := { d with policy := (enforceDefaultPolicy d.policy).1 } } : Database) = db
                have hpa : db.path = fp := by rw [← hdb]; rfl
                have hm := commit_maps nd db fs
                rcases write_spec nd fs db (.withE .newDatabase [fp]) with ⟨e, g1, g2⟩ | ⟨g1, g2⟩
                · rw [hpa] at g2
                  rcases hc : db.commit nd fs with ⟨a, b, c⟩
                  rw [hc] at g1
                  cases g1
                  exact Decides.left (Decides.only ⟨d, hd, hz⟩ g2)
                · rw [hpa] at g2
                  refine (Passes.only' g2).then (.here ⟨d, hd, ?_⟩)
                  rcases hc : db.commit nd fs with ⟨a, b, c⟩
                  rw [hc] at g1 hm
                  cases g1
                  dsimp only at hm ⊢
                  subst hm
                  subst hdb
                  exact loadUsers_spec (seen_empty rfl rfl rfl rfl) _ _
              · rw [if_neg (fun hc => hz ((C40_reports_change _).1 hc))]
                refine (Passes.only ?_ _).then (.here ⟨d, hd, ?_⟩)
                · rintro ⟨d', hd', hz'⟩
                  cases hd.unique hd'
                  exact hz hz'
                · exact loadUsers_spec (seen_empty rfl rfl rfl rfl) _ _

end GoIdentity
