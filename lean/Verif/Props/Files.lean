import Verif.Lemmas.Tree
import Verif.Props.Storage
/-!
# Files, directories and permissions: C92
-/
namespace GoIdentity
open Toy

/-- C92: a call either changes nothing, and then no mutating call reports success, or writes the database it leaves to its file
by `ioutil.WriteFile`, and reports success exactly if that did. -/
theorem C92_call_writes [Ext] (c : Call) (nd : Nondet) (db : Database) (m : Machine) (req : Request) :
    ((execOn c nd db m req).1.db = db ∧ (execOn c nd db m req).2 = m ∧
        (c.mutates = true → ¬ (execOn c nd db m req).1.Succeeded)) ∨
      ((execOn c nd db m req).2 =
          (m.writeFile (c.target db) (marshalDB (execOn c nd db m req).1.db.toDBData) nd.io).1 ∧
        ((execOn c nd db m req).1.Succeeded ↔
          (m.writeFile (c.target db) (marshalDB (execOn c nd db m req).1.db.toDBData) nd.io).2 = none)) :=
  execOn_spec c nd db m req

theorem ran_grows [Ext] {m m' : Machine} (hm : m.Ok) (h : Ran m m') : m.Grows m' ∧ m'.Ok := by
  induction h with
  | refl => exact ⟨.refl m, hm⟩
  | opened _ nd fp ih =>
    rw [newDatabaseOn_snd]
    obtain ⟨g, o, _⟩ := openFileOn_grows ih.2 nd fp
    exact ⟨ih.1.trans g, o⟩
  | called _ c nd db req ih =>
    obtain ⟨g, o⟩ := execOn_grows ih.2 c nd db req
    exact ⟨ih.1.trans g, o⟩

theorem land_zero {a b : Nat} (h : a &&& b = 0) (x : Nat) : a &&& x &&& b = 0 := by
  rw [Nat.and_assoc, Nat.and_comm x b, ← Nat.and_assoc, h, Nat.zero_and]

/-- C92: whatever the package makes, nobody but the owner may read, write or enter, whatever the umask; and files it makes are
not executable. -/
theorem C92_private [Ext] {m m' : Machine} (hm : m.Ok) (h : Ran m m') {k : Place} {e : Entry} (hold : m.tree k = none)
    (hnew : m'.tree k = some e) : e.mode &&& 0o077 = 0 ∧ (e.isDir = false → e.mode &&& 0o177 = 0) := by
  rcases (ran_grows hm h).1.new k hold with h1 | h1 | ⟨b, h1⟩
  · rw [h1] at hnew; cases hnew
  · rw [h1] at hnew
    cases hnew
    exact ⟨land_zero (by decide) _, fun h => by cases h⟩
  · rw [h1] at hnew
    cases hnew
    exact ⟨land_zero (by decide) _, fun _ => land_zero (by decide) _⟩

/-- C92: nothing is ever removed, and what existed keeps its kind and its permissions, also where it is written to; directories
stay as they are.  So a database file that others may read stays so. -/
theorem C92_kept [Ext] {m m' : Machine} (hm : m.Ok) (h : Ran m m') {k : Place} {e : Entry} (hold : m.tree k = some e) :
    ∃ e', m'.tree k = some e' ∧ e'.mode = e.mode ∧ e'.isDir = e.isDir ∧ (e.isDir = true → e' = e) := by
  have g := (ran_grows hm h).1
  cases e with
  | dir mode => exact ⟨_, g.dir k mode hold, rfl, rfl, fun _ => rfl⟩
  | file mode b =>
    obtain ⟨b', h'⟩ := g.file k mode b hold
    exact ⟨_, h', rfl, rfl, fun h => by cases h⟩

/-- C92: the tree stays a tree, and the process where it is. -/
theorem C92_well_formed [Ext] {m m' : Machine} (hm : m.Ok) (h : Ran m m') : m'.Ok ∧ m'.cwd = m.cwd ∧ m'.umask = m.umask :=
  ⟨(ran_grows hm h).2, (ran_grows hm h).1.cwd, (ran_grows hm h).1.umask⟩

/-- C92: a call touches at most the one place its file's path leads to. -/
theorem C92_only_its_file [Ext] {m : Machine} {c : Call} {db : Database} {k : Place} (hk : m.place (c.target db) ≠ .ok k)
    (nd : Nondet) (req : Request) : (execOn c nd db m req).2.tree k = m.tree k := execOn_frame hk nd req

/-- C92: opening a database leaves everything that existed as it was, except perhaps the file at the path given. -/
theorem C92_open_only_its_file [Ext] {m : Machine} (hm : m.Ok) (nd : Nondet) {fp : GoString} {k : Place} {e : Entry}
    (hold : m.tree k = some e) (hk : m.place fp ≠ .ok k) : (newDatabaseOn nd m fp).2.tree k = some e := by
  rw [newDatabaseOn_snd]
  exact (openFileOn_grows hm nd fp).2.2 k e hold hk

/-- C92: where nothing is, and no file stands in the way, `NewDatabase` makes the missing directories of the path, and nothing
else, and the file with an empty database. -/
theorem C92_creates [Ext] {m : Machine} (hm : m.Ok) {abs : Bool} {ds : List GoString} {f : GoString} (hds : ∀ c ∈ ds, PlainPart c)
    (hf : PlainPart f) (hno : ∀ pre, pre <+: ds → ∀ mode b, m.tree (m.start abs ++ pre) ≠ some (.file mode b))
    (hnone : m.tree (m.start abs ++ ds ++ [f]) = none) {nd : Nondet} (hst : nd.statErr = false) (hmk : nd.mkdirErr = false)
    (hio : nd.io = .ok) :
    ∃ db, newDatabaseOn nd m (pathOf abs (ds ++ [f])) =
        (.ok db, (m.withDirs 0o700 (m.start abs) ds).setFile (m.start abs ++ ds ++ [f]) (marshalDB db.toDBData)) ∧
      db.users = [] ∧ db.path = pathOf abs (ds ++ [f]) :=
  newDatabaseOn_new hm hds hf hno hnone hst hmk hio

/-- C92: a file in the way of the directories makes `NewDatabase` fail, and nothing is made. -/
theorem C92_blocked [Ext] {m : Machine} (hm : m.Ok) {abs : Bool} {ds pre : List GoString} {f : GoString}
    (hds : ∀ c ∈ ds, PlainPart c) (hf : PlainPart f) {mode : Nat} {b : GoString} (hp : pre <+: ds)
    (hfile : m.tree (m.start abs ++ pre) = some (.file mode b)) (nd : Nondet) :
    ∃ e, newDatabaseOn nd m (pathOf abs (ds ++ [f])) = (.err e, m) := newDatabaseOn_file hm hds hf hp hfile nd

/-- C92: calls make no directories: if the directory of the file is missing, as it may be for `Copy` or after it has been removed, a
mutating call fails and no file changes. -/
theorem C92_no_directory [Ext] {m : Machine} {c : Call} {db : Database} {e : Errno} (h : m.place (c.target db) = .error e)
    (nd : Nondet) (req : Request) :
    (execOn c nd db m req).2 = m ∧ (c.mutates = true → ¬ (execOn c nd db m req).1.Succeeded) := by
  refine ⟨by rw [execOn_bad h], fun hmut hs => ?_⟩
  rcases execOn_spec c nd db m req with h1 | h1
  · exact h1.2.2 hmut hs
  · have := h1.2.1 hs
    unfold Machine.writeFile at this
    rw [h] at this
    cases this

/-- C92: a database written under one path is found under every path that leads to the same place, in a later process as well, and
opening it there changes nothing. -/
theorem C92_any_spelling [Ext] {db : Database} (h : ReachProper db) {c : Call} {nd : Nondet} {m : Machine} {req : Request}
    (hm : m.Ok) (hnd : nd.Proper) (hfresh : c = .addUser → ∃ id ∈ nd.ids.take 10, ∀ u ∈ db.users, u.id ≠ id)
    (hmut : c.mutates = true) (hs : (execOn c nd db m req).1.Succeeded) (hstr : (execOn c nd db m req).1.db.toDBData.Strings)
    {q : GoString} (hq : m.place q = m.place (c.target db)) (hp : q.head? ≠ some 126) {nd' : Nondet}
    (hst : nd'.statErr = false) (hrd : nd'.readErr = false) :
    ∃ db', newDatabaseOn nd' (execOn c nd db m req).2 q = (.ok db', (execOn c nd db m req).2) ∧
      db'.toDBData = (execOn c nd db m req).1.db.toDBData ∧ db'.path = q := by
  cases hpl : m.place (c.target db) with
  | error e => exact absurd hs ((C92_no_directory hpl nd req).2 hmut)
  | ok k =>
    have hr : ReachProper (execOn c nd db m req).1.db := by
      rw [execOn_good hpl]
      exact .step h c nd m.view req hnd hfresh
    have hreach := fresh_reach hr.fresh
    rcases execOn_spec c nd db m req with h1 | h1
    · exact absurd hs (h1.2.2 hmut)
    have hw := h1.2.1 hs
    rcases Machine.writeFile_cases m (c.target db) (marshalDB (execOn c nd db m req).1.db.toDBData) nd.io with h2 | ⟨k', b, hk', hd, h2, h3⟩
    · exact absurd hw h2.2
    have hkk : k' = k := by rw [hpl] at hk'; cases hk'; rfl
    subst hkk
    obtain rfl := h3 hw
    have hmach := h1.1.trans h2
    have hok' : (execOn c nd db m req).2.Ok := (execOn_grows hm c nd db req).2
    have hplace : (execOn c nd db m req).2.place q = .ok k' := by
      rw [hmach, Machine.place_setFile hd, hq, hpl]
    have hview : (execOn c nd db m req).2.view q = some (.file (marshalDB (execOn c nd db m req).1.db.toDBData)) := by
      conv => lhs; rw [hmach]
      exact Machine.view_setFile_hit hd _ (hq.trans hpl)
    obtain ⟨db', g1, g2, g3⟩ := reopen hreach (fresh_invID hr.fresh) (proper_ready hr)
      (enforce_nonzero (C40_no_zero_limit hreach)) ((proper_shape hr).ok_of hstr) hview hp (Machine.place_ne_nil hplace) hst hrd
    refine ⟨db', ?_, g2, g3⟩
    rw [newDatabaseOn_place hok' hplace, g1]
    dsimp only
    rw [Machine.follow_view hplace]

/-- C92: where the file's directory exists, `NewDatabase` answers as in the rest of this model, where files are seen by path, and
leaves the file so. -/
theorem C92_open_by_path [Ext] {m : Machine} (hm : m.Ok) {fp : GoString} {k : Place} (hp : m.place fp = .ok k) (nd : Nondet) :
    (newDatabaseOn nd m fp).1 = (newDatabase nd m.view fp).1 ∧
      (newDatabaseOn nd m fp).2.view fp = (newDatabase nd m.view fp).2 fp := by
  rw [newDatabaseOn_place hm hp]
  refine ⟨rfl, ?_⟩
  dsimp only
  rcases newDatabase_fs nd m.view fp with h | ⟨data, h⟩
  · rw [h, Machine.follow_view hp]
  · rw [h]; exact view_follow hp data nd.io

/-- C92: and so does every call. -/
theorem C92_call_by_path [Ext] {m : Machine} {c : Call} {db : Database} {k : Place} (hp : m.place (c.target db) = .ok k)
    (nd : Nondet) (req : Request) :
    (execOn c nd db m req).1 = exec c nd db m.view req ∧
      (execOn c nd db m req).2.view (c.target db) = (exec c nd db m.view req).fs (c.target db) := by
  rw [execOn_good hp]
  refine ⟨rfl, ?_⟩
  dsimp only
  rcases exec_spec c nd db m.view req with h | ⟨db', _, h⟩
  · rw [h.fs_eq, Machine.follow_view hp]
  · rw [h.fs_eq]; exact view_follow hp _ nd.io

/-- C92, a disagreement: a path that ends in a slash makes `NewDatabase` fail, but leaves the directories of the whole path behind,
so that the file can never be made at the path without the slash. -/
theorem C92_slash_leaves_directories [Ext] {m : Machine} (hm : m.Ok) {abs : Bool} {ds : List GoString} (hne : ds ≠ [])
    (hds : ∀ c ∈ ds, PlainPart c) (hno : ∀ pre, pre <+: ds → ∀ mode b, m.tree (m.start abs ++ pre) ≠ some (.file mode b))
    (hnone : m.tree (m.start abs ++ ds) = none) {nd : Nondet} (hst : nd.statErr = false) (hmk : nd.mkdirErr = false) :
    ∃ e m', newDatabaseOn nd m (pathOf abs ds ++ [47]) = (.err e, m') ∧ IsDir m'.tree (m.start abs ++ ds) ∧
      ∀ nd', ∃ e', newDatabaseOn nd' m' (pathOf abs ds) = (.err e', m') := by
  obtain ⟨e, he⟩ := newDatabaseOn_slash hm hne hds hno hnone hst hmk
  have hdir := withDirs_isDir (m := m) (perm := 0o700) (List.prefix_refl ds) hno
  refine ⟨e, _, he, hdir, fun nd' => ?_⟩
  obtain ⟨mode, hmode⟩ := hdir
  have hstat : (m.withDirs 0o700 (m.start abs) ds).stat (pathOf abs ds) = .ok (.dir mode) := by
    rcases List.eq_nil_or_concat ds with rfl | ⟨ds', d, rfl⟩
    · exact absurd rfl hne
    rw [List.concat_eq_append] at *
    have hd : PlainPart d := hds d (by simp)
    have hds' : ∀ c ∈ ds', PlainPart c := fun c hc => hds c (by simp [hc])
    have hw : walk (m.withDirs 0o700 (m.start abs) (ds' ++ [d])).tree (m.start abs) ds' = .ok (m.start abs ++ ds') :=
      walk_names hds' (fun pre hp _ => withDirs_isDir (hp.trans (List.prefix_append _ _)) hno)
    unfold Machine.stat
    rw [Machine.place_pathOf hds' hd]
    have hs : (m.withDirs 0o700 (m.start abs) (ds' ++ [d])).start abs = m.start abs := rfl
    rw [hs, hw]
    dsimp only
    rw [List.append_assoc, hmode]
  unfold newDatabaseOn Database.openFileOn
  by_cases hse : nd'.statErr = true
  · rw [if_pos hse]; exact ⟨_, rfl⟩
  · rw [if_neg hse, hstat]; exact ⟨_, rfl⟩

/-- C92, a disagreement: `NewDatabase` makes the directories of the path as cleaned by its text, but opens the path as given; so
`missing/../db.json` fails wherever `missing` does not exist, and makes nothing. -/
theorem C92_dotdot_fails [Ext] {m : Machine} (hm : m.Ok) (hnone : m.tree (m.cwd ++ [gs! "missing"]) = none) (nd : Nondet) :
    pathClean (gs! "missing/../db.json") = gs! "db.json" ∧
      ∃ e, newDatabaseOn nd m (gs! "missing/../db.json") = (.err e, m) := by
  refine ⟨by decide, ?_⟩
  have hpl : m.place (gs! "missing/../db.json") = .error .noent := by
    unfold Machine.place
    rw [if_neg (by decide), if_neg (by decide)]
    have : (splitByte 47 (gs! "missing/../db.json")).dropLast = [gs! "missing", gs! ".."] := by decide
    rw [this, walk, if_neg (by decide), if_neg (by decide), hnone]
  have hstat : m.stat (gs! "missing/../db.json") = .error .noent := by unfold Machine.stat; rw [hpl]
  have hdir : pathDir (gs! "missing/../db.json") = gs! "." := by decide
  have hdot : ∃ mode, m.stat (gs! ".") = .ok (.dir mode) := by
    obtain ⟨mode, h, _⟩ := stat_of_walk hm (p := gs! ".") (k := m.cwd) (by decide) (by
      have : m.base (gs! ".") = m.cwd := by unfold Machine.base; rw [if_neg (by decide)]
      rw [this]
      have : splitByte 47 (gs! ".") = [gs! "."] := by decide
      rw [this, walk, if_pos (.inr rfl), walk])
    exact ⟨mode, h⟩
  obtain ⟨mode, hdot⟩ := hdot
  have hcom : ∀ db : Database, db.path = gs! "missing/../db.json" → ∃ db' e, db.commitOn nd m = (db', m, some e) := by
    intro db hdb
    unfold Database.commitOn Machine.writeFile
    dsimp only
    rw [hdb, hpl]
    exact ⟨_, _, rfl⟩
  unfold newDatabaseOn Database.openFileOn
  by_cases hs : nd.statErr = true
  · rw [if_pos hs]; exact ⟨_, rfl⟩
  · rw [if_neg hs, hstat]
    dsimp only
    by_cases hk : nd.mkdirErr = true
    · rw [if_pos hk]; exact ⟨_, rfl⟩
    · rw [if_neg hk, hdir, mkdirAll_there (by decide) hdot]
      dsimp only
      obtain ⟨db', e, he⟩ := hcom { Database.empty (gs! "missing/../db.json") with version := Ext.appVersion, policy := (enforceDefaultPolicy ({ Database.empty (gs! "missing/../db.json") with version := Ext.appVersion } : Database).policy).1 } rfl
      rw [he]
      exact ⟨_, rfl⟩

/-! ## Cases -/

/-- A machine with `/srv`, a file `/srv/notes` that all may read, the process in `/srv`, and umask 022. -/
def box : Machine where
  tree k := if k = [] then some (.dir 0o755) else if k = [gs! "srv"] then some (.dir 0o755)
    else if k = [gs! "srv", gs! "notes"] then some (.file 0o644 (gs! "hello")) else none
  cwd := [gs! "srv"]
  umask := 0o022

theorem box_ok : box.Ok where
  root := ⟨0o755, rfl⟩
  cwd := ⟨0o755, by decide⟩
  up k c e h := by
    unfold box at h
    dsimp only at h
    split at h
    · rename_i hk; simp at hk
    · split at h
      · rename_i hk
        have : k = [] := by
          cases k with
          | nil => rfl
          | cons a k => simp at hk
        subst this
        exact ⟨0o755, rfl⟩
      · split at h
        · rename_i hk
          have : k ++ [c] = [gs! "srv"] ++ [gs! "notes"] := hk
          rw [(List.append_inj' this rfl).1]
          exact ⟨0o755, by decide⟩
        · cases h

example : box.place (gs! "../srv/./notes") = .ok [gs! "srv", gs! "notes"] ∧ box.place (gs! "/srv//notes") = box.place (gs! "notes") ∧
    box.place (gs! "notes/x") = .error .notdir ∧ box.place (gs! "no/x") = .error .noent := by
  refine ⟨by rfl, by rfl, by rfl, by rfl⟩

/-- `/srv/a/b/db.json` is made with its two directories, private in spite of the umask 022; `/srv/notes` keeps its mode 0644. -/
example : ∃ db m', newDatabaseOn nd box (gs! "a/b/db.json") = (.ok db, m') ∧
    m'.tree [gs! "srv", gs! "a"] = some (.dir 0o700) ∧ m'.tree [gs! "srv", gs! "a", gs! "b"] = some (.dir 0o700) ∧
    m'.tree [gs! "srv", gs! "a", gs! "b", gs! "db.json"] = some (.file 0o600 (marshalDB db.toDBData)) ∧
    m'.tree [gs! "srv", gs! "notes"] = some (.file 0o644 (gs! "hello")) := by
  obtain ⟨db, h, _, _⟩ := C92_creates (abs := false) box_ok (ds := [gs! "a", gs! "b"]) (f := gs! "db.json")
    (by unfold PlainPart; decide) (by unfold PlainPart; decide) (by
      rintro pre ⟨l, hl⟩ mode b
      cases pre with
      | nil =>
        have : box.tree (box.start false ++ []) = some (.dir 0o755) := by decide
        rw [this]; simp
      | cons x pre =>
        simp only [List.cons_append, List.cons.injEq] at hl
        obtain ⟨rfl, hl⟩ := hl
        have : box.tree (box.start false ++ gs! "a" :: pre) = none := by
          unfold box Machine.start
          simp
        rw [this]; simp) (by decide) (nd := nd) rfl rfl rfl
  refine ⟨db, _, h, ?_, ?_, ?_, ?_⟩
  · rw [Machine.setFile_tree, if_neg (by decide)]; decide
  · rw [Machine.setFile_tree, if_neg (by decide)]; decide
  · rw [Machine.setFile_tree]; rfl
  · rw [Machine.setFile_tree, if_neg (by decide)]; decide

/-- The file `notes` is in the way of `notes/x/db.json`. -/
example : ∃ e, newDatabaseOn nd box (gs! "notes/x/db.json") = (.err e, box) :=
  C92_blocked (abs := false) box_ok (ds := [gs! "notes", gs! "x"]) (pre := [gs! "notes"]) (f := gs! "db.json")
    (by unfold PlainPart; decide) (by unfold PlainPart; decide) ⟨[gs! "x"], rfl⟩ (mode := 0o644) (b := gs! "hello") (by decide) nd

/-- A backup into a missing directory fails; into the working directory it succeeds, with mode 0600. -/
example : ¬ (execOn (.copy (gs! "/backup/db.json")) nd db1 box reqJoe).1.Succeeded ∧
    (execOn (.copy (gs! "../srv/db.json")) nd db1 box reqJoe).1.Succeeded := by
  refine ⟨(C92_no_directory (c := .copy (gs! "/backup/db.json")) (e := .noent) (by rfl) nd reqJoe).2 rfl, ?_⟩
  unfold Result.Succeeded
  decide +kernel

/-- The backup made as `../srv/db.json` is found as `/srv/db.json`. -/
example : ∃ db', newDatabaseOn nd (execOn (.copy (gs! "../srv/db.json")) nd db1 box reqJoe).2 (gs! "/srv/db.json") =
      (.ok db', (execOn (.copy (gs! "../srv/db.json")) nd db1 box reqJoe).2) ∧ db'.users = db1.users := by
  have s1 : db1.toDBData.Strings := (unmarshal_ok (b := marshalDB db1.toDBData) (by decide +kernel)).strings
  obtain ⟨db', h, h', _⟩ := C92_any_spelling (c := .copy (gs! "../srv/db.json")) (req := reqJoe) db1_proper box_ok nd_proper (by simp) rfl
    (by unfold Result.Succeeded; decide +kernel) ⟨s1.version, s1.users⟩ (q := gs! "/srv/db.json") (by rfl) (by decide)
    (nd' := nd) rfl rfl
  exact ⟨db', h, (congrArg DBData.users h').trans rfl⟩

/-- A slash at the end: the directory `/srv/db.json` is left behind, and the name is lost for the database. -/
example : ∃ e m', newDatabaseOn nd box (gs! "db.json/") = (.err e, m') ∧ IsDir m'.tree [gs! "srv", gs! "db.json"] ∧
    ∀ nd', ∃ e', newDatabaseOn nd' m' (gs! "db.json") = (.err e', m') :=
  C92_slash_leaves_directories (abs := false) box_ok (ds := [gs! "db.json"]) (by simp) (by unfold PlainPart; decide) (by
      rintro pre ⟨l, hl⟩ mode b
      cases pre with
      | nil =>
        have : box.tree (box.start false ++ []) = some (.dir 0o755) := by decide
        rw [this]; simp
      | cons x pre =>
        simp only [List.cons_append, List.cons.injEq, List.append_eq_nil_iff] at hl
        obtain ⟨rfl, rfl, _⟩ := hl
        have : box.tree (box.start false ++ [gs! "db.json"]) = none := by decide
        rw [this]; simp) (by decide) (nd := nd) rfl rfl

example : ∃ e, newDatabaseOn nd box (gs! "missing/../db.json") = (.err e, box) := (C92_dotdot_fails box_ok (by decide) nd).2

/-- An existing file that all may read is a database's file: writing to it leaves it so. -/
example : (execOn (.copy (gs! "notes")) nd db1 box reqJoe).2.tree [gs! "srv", gs! "notes"] =
    some (.file 0o644 (marshalDB (execOn (.copy (gs! "notes")) nd db1 box reqJoe).1.db.toDBData)) := by
  rcases C92_call_writes (.copy (gs! "notes")) nd db1 box reqJoe with h | h
  · exact absurd (by unfold Result.Succeeded; decide +kernel) (h.2.2 rfl)
  · rw [h.1]; rfl

end GoIdentity
