import Verif.Spec.Tree
import Verif.Lemmas.Reopen
import Verif.Lemmas.Path
/-!
# Lemmas on the file tree
-/
namespace GoIdentity
variable [Ext]
set_option linter.unusedSectionVars false

theorem Machine.Ok.dropLast {m : Machine} (h : m.Ok) {k : Place} (hk : IsDir m.tree k) : IsDir m.tree k.dropLast := by
  rcases List.eq_nil_or_concat k with rfl | ⟨k', c, rfl⟩
  · exact hk
  · obtain ⟨mode, hm⟩ := hk
    rw [List.concat_eq_append] at hm ⊢
    rw [List.dropLast_concat]
    exact h.up _ _ _ hm

theorem walk_dir {m : Machine} (h : m.Ok) {cs : List GoString} : ∀ {cur k : Place}, IsDir m.tree cur →
    walk m.tree cur cs = .ok k → IsDir m.tree k := by
  induction cs with
  | nil => intro cur k hc hw; simp only [walk, Except.ok.injEq] at hw; exact hw ▸ hc
  | cons c cs ih =>
    intro cur k hc hw
    unfold walk at hw
    split at hw
    · exact ih hc hw
    · split at hw
      · exact ih (h.dropLast hc) hw
      · split at hw
        · rename_i mode hm; exact ih ⟨mode, hm⟩ hw
        · simp at hw
        · simp at hw

/-- Where a path walk ends depends on the directories only. -/
theorem walk_congr {t t' : Place → Option Entry} (h : ∀ k, IsDir t k ↔ IsDir t' k) {cs : List GoString} :
    ∀ {cur k : Place}, walk t cur cs = .ok k → walk t' cur cs = .ok k := by
  induction cs with
  | nil => intro cur k hw; exact hw
  | cons c cs ih =>
    intro cur k hw
    unfold walk at hw ⊢
    split at hw
    · rename_i hc; rw [if_pos hc]; exact ih hw
    · rename_i hc
      rw [if_neg hc]
      split at hw
      · rename_i hd; rw [if_pos hd]; exact ih hw
      · rename_i hd
        rw [if_neg hd]
        split at hw
        · rename_i mode hm
          obtain ⟨mode', hm'⟩ := (h _).1 ⟨mode, hm⟩
          rw [hm']
          exact ih hw
        · simp at hw
        · simp at hw

/-- More directories, more paths. -/
theorem walk_mono {t t' : Place → Option Entry} (h : ∀ k, IsDir t k → IsDir t' k) {cs : List GoString} :
    ∀ {cur k : Place}, walk t cur cs = .ok k → walk t' cur cs = .ok k := by
  induction cs with
  | nil => intro cur k hw; exact hw
  | cons c cs ih =>
    intro cur k hw
    unfold walk at hw ⊢
    split at hw
    · rename_i hc; rw [if_pos hc]; exact ih hw
    · rename_i hc
      rw [if_neg hc]
      split at hw
      · rename_i hd; rw [if_pos hd]; exact ih hw
      · rename_i hd
        rw [if_neg hd]
        split at hw
        · rename_i mode hm
          obtain ⟨mode', hm'⟩ := h _ ⟨mode, hm⟩
          rw [hm']
          exact ih hw
        · simp at hw
        · simp at hw

namespace Machine

theorem place_mono {m m' : Machine} (h : ∀ k, IsDir m.tree k → IsDir m'.tree k) (hc : m'.cwd = m.cwd) {p : GoString} {k : Place}
    (hp : m.place p = .ok k) : m'.place p = .ok k := by
  unfold place at hp ⊢
  split at hp
  · simp at hp
  · rename_i hne
    rw [if_neg hne, hc]
    split at hp
    · simp at hp
    · rename_i cur hw
      rw [walk_mono h hw]
      exact hp

theorem setFile_dirs {m : Machine} {k : Place} (hk : ¬ IsDir m.tree k) (b : GoString) (k' : Place) :
    IsDir (m.setFile k b).tree k' ↔ IsDir m.tree k' := by
  unfold setFile IsDir upd
  dsimp only
  by_cases he : k' = k
  · subst he
    rw [if_pos rfl]
    constructor
    · rintro ⟨mode, h⟩
      split at h <;> simp at h
    · exact fun h => absurd h hk
  · rw [if_neg he]

theorem place_setFile {m : Machine} {k : Place} (hk : ¬ IsDir m.tree k) (b : GoString) (p : GoString) (k' : Place) :
    (m.setFile k b).place p = .ok k' ↔ m.place p = .ok k' :=
  ⟨place_mono (fun x => (setFile_dirs hk b x).1) rfl, place_mono (fun x => (setFile_dirs hk b x).2) rfl⟩

theorem setFile_tree (m : Machine) (k k' : Place) (b : GoString) : (m.setFile k b).tree k' =
    if k' = k then some (match m.tree k with | some (.file mode _) => .file mode b | _ => .file (m.perm 0o600) b)
    else m.tree k' := rfl

theorem view_of_place {m : Machine} {p : GoString} {k : Place} (h : m.place p = .ok k) : m.view p =
    match m.tree k with | some (.file _ b) => some (.file b) | some (.dir _) => some .dir | none => none := by
  unfold view stat
  rw [h]
  dsimp only
  cases m.tree k with
  | none => rfl
  | some e => cases e <;> rfl

theorem view_of_error {m : Machine} {p : GoString} {e : Errno} (h : m.place p = .error e) : m.view p = none := by
  unfold view stat
  rw [h]

theorem view_setFile_hit {m : Machine} {k : Place} (hk : ¬ IsDir m.tree k) (b : GoString) {p : GoString} (hp : m.place p = .ok k) :
    (m.setFile k b).view p = some (.file b) := by
  rw [view_of_place ((place_setFile hk b p k).2 hp), setFile_tree, if_pos rfl]
  split <;> rename_i h <;> split at h <;> simp_all

theorem view_setFile_miss {m : Machine} {k : Place} (hk : ¬ IsDir m.tree k) (b : GoString) {p : GoString} (hp : m.place p ≠ .ok k) :
    (m.setFile k b).view p = m.view p := by
  cases hq : m.place p with
  | error e =>
    rw [view_of_error hq]
    cases hp' : (m.setFile k b).place p with
    | error e' => exact view_of_error hp'
    | ok k' => rw [place_setFile hk, hq] at hp'; cases hp'
  | ok k' =>
    rw [view_of_place ((place_setFile hk b p k').2 hq), view_of_place hq, setFile_tree, if_neg]
    rintro rfl
    exact hp hq

theorem setFile_same {m : Machine} {k : Place} {mode : Nat} {b : GoString} (h : m.tree k = some (.file mode b)) :
    m.setFile k b = m := by
  unfold setFile
  rw [h]
  have : upd m.tree k (some (Entry.file mode b)) = m.tree := by
    funext x
    unfold upd
    split
    · rename_i hx; rw [hx, h]
    · rfl
  rw [this]

theorem setFile_setFile (m : Machine) (k : Place) (b b' : GoString) : (m.setFile k b).setFile k b' = m.setFile k b' := by
  unfold setFile upd
  dsimp only
  congr 1
  funext x
  by_cases hx : x = k
  · simp only [hx, if_true]
    cases h : m.tree k with
    | none => rfl
    | some e => cases e <;> rfl
  · simp only [hx, if_false]

/-- Make the place agree with what the path-keyed files say of it. -/
def follow (m : Machine) (k : Place) (n : Option Node) : Machine :=
  match n with
  | some (.file b) => m.setFile k b
  | _ => m

theorem follow_view {m : Machine} {p : GoString} {k : Place} (h : m.place p = .ok k) : m.follow k (m.view p) = m := by
  rw [view_of_place h]
  cases ht : m.tree k with
  | none => rfl
  | some e =>
    cases e with
    | dir mode => rfl
    | file mode b => exact setFile_same ht

theorem place_ne_nil {m : Machine} {p : GoString} {k : Place} (h : m.place p = .ok k) : p ≠ [] := by
  rintro rfl
  simp [place] at h

/-- Writing through the tree and through the path-keyed files give the same result. -/
theorem writeFile_ok_place {m : Machine} {p : GoString} {k : Place} (h : m.place p = .ok k) (data : GoString) (io : WriteOutcome) :
    m.writeFile p data io =
      (m.follow k ((GoIdentity.writeFile m.view p data io).1 p), (GoIdentity.writeFile m.view p data io).2) := by
  have hf := follow_view h
  have hne := place_ne_nil h
  have hv := view_of_place h
  unfold Machine.writeFile GoIdentity.writeFile
  rw [h]
  dsimp only
  cases ht : m.tree k with
  | none =>
    rw [ht] at hv
    rw [if_neg (by rw [hv]; simp [hne])]
    cases io <;> simp [upd, follow, hv]
  | some e =>
    cases e with
    | dir mode =>
      rw [ht] at hv
      dsimp only at hv
      rw [if_pos (.inr hv), if_neg hne, hf]
    | file mode b =>
      rw [ht] at hv
      dsimp only at hv
      rw [if_neg (by rw [hv]; simp [hne])]
      cases io with
      | ok => simp [upd, follow]
      | openErr => dsimp only; rw [hf]
      | writeErr n => simp [upd, follow]

theorem writeFile_bad_place {m : Machine} {p : GoString} {e : Errno} (h : m.place p = .error e) (data : GoString)
    (io : WriteOutcome) :
    m.writeFile p data io = (m, (GoIdentity.writeFile m.view p data .openErr).2) ∧
      (GoIdentity.writeFile m.view p data .openErr).2 ≠ none ∧ (GoIdentity.writeFile m.view p data .openErr).1 = m.view := by
  have hv := view_of_error h
  unfold Machine.writeFile GoIdentity.writeFile
  rw [h]
  dsimp only
  by_cases hp : p = []
  · subst hp; simp
  · rw [if_neg (show ¬ (p = [] ∨ m.view p = some Node.dir) by rw [hv]; simp [hp]), if_neg hp]; simp

end Machine

theorem Call.file_eq (c : Call) (db : Database) : c.file db = c.target db := by cases c <;> rfl

/-- The place of a path at which nothing can be written. -/
theorem execOn_bad {c : Call} {db : Database} {m : Machine} {e : Errno} (h : m.place (c.target db) = .error e) (nd : Nondet)
    (req : Request) : execOn c nd db m req = (exec c { nd with io := .openErr } db m.view req, m) := by
  unfold execOn
  rw [Call.file_eq, h]

theorem execOn_good {c : Call} {db : Database} {m : Machine} {k : Place} (h : m.place (c.target db) = .ok k) (nd : Nondet)
    (req : Request) : execOn c nd db m req =
      (exec c nd db m.view req, m.follow k ((exec c nd db m.view req).fs (c.target db))) := by
  unfold execOn
  simp only [Call.file_eq, h]
  rfl

theorem committed_iff {nd : Nondet} {fs : FS} {path : GoString} {db' : Database} {r : Result} (h : Committed nd fs path db' r) :
    r.out = .success ↔ (writeFile fs path (marshalDB r.db.toDBData) nd.io).2 = none := by
  rw [h.db_eq]
  constructor
  · intro hs
    cases hw : (GoIdentity.writeFile fs path (marshalDB (db'.touch nd.commitTime).toDBData) nd.io).2 with
    | none => rfl
    | some e =>
      obtain ⟨e', h1, _⟩ := h.out_err e hw
      rw [h1] at hs
      cases hs
  · exact h.out_ok

/-- A call on a machine either leaves everything as it is or writes the database to the file, as `ioutil.WriteFile` does. -/
theorem execOn_spec (c : Call) (nd : Nondet) (db : Database) (m : Machine) (req : Request) :
    ((execOn c nd db m req).1.db = db ∧ (execOn c nd db m req).2 = m ∧
        (c.mutates = true → (execOn c nd db m req).1.out ≠ .success)) ∨
      ((execOn c nd db m req).2 =
          (m.writeFile (c.target db) (marshalDB (execOn c nd db m req).1.db.toDBData) nd.io).1 ∧
        ((execOn c nd db m req).1.out = .success ↔
          (m.writeFile (c.target db) (marshalDB (execOn c nd db m req).1.db.toDBData) nd.io).2 = none)) := by
  cases hp : m.place (c.target db) with
  | error e =>
    rw [execOn_bad hp]
    rcases exec_spec c { nd with io := .openErr } db m.view req with h | ⟨db', _, h⟩
    · exact .inl ⟨h.db_eq, rfl, h.out⟩
    · right
      obtain ⟨w, _, _⟩ := Machine.writeFile_bad_place hp
        (marshalDB (exec c { nd with io := .openErr } db m.view req).db.toDBData) nd.io
      rw [w]
      exact ⟨rfl, committed_iff h⟩
  | ok k =>
    rw [execOn_good hp]
    rcases exec_spec c nd db m.view req with h | ⟨db', _, h⟩
    · left
      refine ⟨h.db_eq, ?_, h.out⟩
      rw [h.fs_eq]
      exact Machine.follow_view hp
    · right
      rw [Machine.writeFile_ok_place hp]
      refine ⟨?_, committed_iff h⟩
      rw [h.fs_eq, h.db_eq]


/-! ## Cleaned paths -/

theorem walk_append (t : Place → Option Entry) (cs ds : List GoString) : ∀ cur, walk t cur (cs ++ ds) =
    match walk t cur cs with
    | .ok k => walk t k ds
    | .error e => .error e := by
  induction cs with
  | nil => intro cur; rfl
  | cons c cs ih =>
    intro cur
    simp only [List.cons_append, walk]
    split
    · exact ih _
    · split
      · exact ih _
      · split
        · exact ih _
        · rfl
        · rfl

theorem walk_step {t : Place → Option Entry} {cur k : Place} {c : GoString} (h : walk t cur [c] = .ok k) : k = enter cur c := by
  unfold walk at h
  unfold enter
  split at h
  · rename_i hc; rw [if_pos hc]; simp only [walk, Except.ok.injEq] at h; exact h.symm
  · rename_i hc
    rw [if_neg hc]
    split at h
    · rename_i hd; rw [if_pos hd]; simp only [walk, Except.ok.injEq] at h; exact h.symm
    · rename_i hd
      rw [if_neg hd]
      split at h
      · simp only [walk, Except.ok.injEq] at h; exact h.symm
      · cases h
      · cases h

/-- Where a path leads somewhere, its cleaned form leads to the same place. -/
theorem walk_clean {t : Place → Option Entry} {base : Place} {rooted : Bool} (hb : rooted = true → base = []) {cs : List GoString} :
    ∀ {acc : List GoString} {cur k : Place}, (∀ c ∈ cs, (47 : UInt8) ∉ c) → CleanAcc rooted acc →
      walk t base acc.reverse = .ok cur → walk t cur cs = .ok k →
      walk t base (cs.foldl (cleanStep rooted) acc).reverse = .ok k := by
  induction cs with
  | nil => intro acc cur k _ _ h1 h2; simp only [walk, Except.ok.injEq] at h2; rw [List.foldl_nil, h1, h2]
  | cons c cs ih =>
    intro acc cur k hcs hacc h1 h2
    have hcs' : ∀ c ∈ cs, (47 : UInt8) ∉ c := fun c hc => hcs c (by simp [hc])
    rw [List.foldl_cons]
    have hacc' := cleanStep_acc hacc (hcs c (by simp))
    rw [← List.singleton_append, walk_append] at h2
    cases hw : walk t cur [c] with
    | error e => rw [hw] at h2; cases h2
    | ok cur' =>
      rw [hw] at h2
      refine ih hcs' hacc' ?_ h2
      have push : walk t base (c :: acc).reverse = .ok cur' := by
        rw [List.reverse_cons, walk_append, h1]; exact hw
      have he := walk_step hw
      unfold cleanStep
      unfold enter at he
      by_cases h0 : c = [] ∨ c = gs! "."
      · rw [if_pos h0] at he ⊢; rw [h1, he]
      · rw [if_neg h0] at he ⊢
        by_cases hd : c = gs! ".."
        · rw [if_pos hd] at he ⊢
          cases acc with
          | nil =>
            dsimp only
            cases rooted with
            | true =>
              simp only [if_true, List.reverse_nil, walk, Except.ok.injEq] at h1 ⊢
              rw [he, ← h1, hb rfl]
              rfl
            | false => exact push
          | cons top rest =>
            dsimp only
            by_cases ht : top = gs! ".."
            · rw [if_pos ht]; exact push
            · rw [if_neg ht]
              rw [List.reverse_cons, walk_append] at h1
              cases hr : walk t base rest.reverse with
              | error e => rw [hr] at h1; cases h1
              | ok x =>
                rw [hr] at h1
                dsimp only at h1
                have ht' := walk_step h1
                obtain ⟨ns, j, hacc0, hns, _⟩ := hacc
                have hplain : PlainPart top := by
                  cases ns with
                  | nil =>
                    cases j with
                    | zero => simp at hacc0
                    | succ j => rw [List.replicate_succ] at hacc0; simp only [List.nil_append, List.cons.injEq] at hacc0; exact absurd hacc0.1 ht
                  | cons n ns => simp only [List.cons_append, List.cons.injEq] at hacc0; rw [hacc0.1]; exact hns n (by simp)
                unfold enter at ht'
                rw [if_neg (by rw [not_or]; exact ⟨hplain.1, hplain.2.1⟩), if_neg hplain.2.2.1] at ht'
                rw [he, ht', List.dropLast_concat]
        · rw [if_neg hd]; exact push

/-- A place that is a directory is reached by `..`s and names, if by the same names it is reached in a larger tree. -/
theorem walk_back {m : Machine} (h : m.Ok) {t : Place → Option Entry} {ns : List GoString} (hns : ∀ c ∈ ns, PlainPart c) :
    ∀ {cur k : Place}, walk t cur ns = .ok k → IsDir m.tree k → walk m.tree cur ns = .ok k ∧ k = cur ++ ns := by
  induction ns with
  | nil => intro cur k hw _; exact ⟨hw, by simp only [walk, Except.ok.injEq] at hw; simp [hw]⟩
  | cons c ns ih =>
    intro cur k hw hk
    have hc := hns c (by simp)
    have hw' : walk t (cur ++ [c]) ns = .ok k := by
      unfold walk at hw
      rw [if_neg (by rw [not_or]; exact ⟨hc.1, hc.2.1⟩), if_neg hc.2.2.1] at hw
      split at hw
      · exact hw
      · cases hw
      · cases hw
    obtain ⟨h1, h2⟩ := ih (fun c hc => hns c (by simp [hc])) hw' hk
    have hdir : ∀ (l : List GoString) (x : Place), IsDir m.tree (x ++ l) → IsDir m.tree x := by
      intro l
      induction l with
      | nil => intro x hx; simpa using hx
      | cons a l ihl =>
        intro x hx
        obtain ⟨mode, hm⟩ := ihl (x ++ [a]) (by simpa using hx)
        exact h.up _ _ _ hm
    obtain ⟨mode, hm⟩ : IsDir m.tree (cur ++ [c]) := hdir ns _ (h2 ▸ hk)
    refine ⟨?_, by rw [h2]; simp⟩
    unfold walk
    rw [if_neg (by rw [not_or]; exact ⟨hc.1, hc.2.1⟩), if_neg hc.2.2.1, hm]
    exact h1

theorem walk_dots (t : Place → Option Entry) (j : Nat) : ∀ cur, ∃ k, walk t cur (List.replicate j (gs! "..")) = .ok k ∧
    ∀ t', walk t' cur (List.replicate j (gs! "..")) = .ok k := by
  induction j with
  | zero => intro cur; exact ⟨cur, rfl, fun _ => rfl⟩
  | succ j ih =>
    intro cur
    obtain ⟨k, h1, h2⟩ := ih cur.dropLast
    refine ⟨k, ?_, fun t' => ?_⟩
    · rw [List.replicate_succ, walk, if_neg (by decide), if_pos rfl]; exact h1
    · rw [List.replicate_succ, walk, if_neg (by decide), if_pos rfl]; exact h2 t'

theorem last_slash (p : GoString) : (47 : UInt8) ∉ p ∨ ∃ a f, p = a ++ [47] ++ f ∧ (47 : UInt8) ∉ f := by
  induction p with
  | nil => left; simp
  | cons b p ih =>
    rcases ih with h | ⟨a, f, rfl, hf⟩
    · by_cases hb : b = 47
      · subst hb; right; exact ⟨[], p, rfl, h⟩
      · left; simp [h, Ne.symm hb]
    · right; exact ⟨b :: a, f, rfl, hf⟩

theorem dirPart_none {p : GoString} (h : (47 : UInt8) ∉ p) : dirPart p = [] := by
  unfold dirPart
  have := List.dropWhile_append_of_pos (p := (· != (47 : UInt8))) (l₁ := p.reverse) (l₂ := []) (by
    intro x hx
    have : x ≠ 47 := by rintro rfl; exact h (List.mem_reverse.1 hx)
    simpa using this)
  rw [List.append_nil] at this
  rw [this]
  rfl

theorem dirPart_some {a f : GoString} (h : (47 : UInt8) ∉ f) : dirPart (a ++ [47] ++ f) = a ++ [47] := by
  unfold dirPart
  rw [List.reverse_append, List.dropWhile_append_of_pos, List.reverse_append]
  · simp
  · intro x hx
    have : x ≠ 47 := by rintro rfl; exact h (List.mem_reverse.1 hx)
    simpa using this

theorem dirPart_split (p : GoString) : splitByte 47 (dirPart p) = (splitByte 47 p).dropLast ++ [[]] ∧
    ((dirPart p).head? = some 47 ↔ p.head? = some 47) := by
  rcases last_slash p with h | ⟨a, f, rfl, hf⟩
  · rw [dirPart_none h, splitByte_no_sep h]
    refine ⟨rfl, ?_⟩
    cases p with
    | nil => simp
    | cons b p => simp only [List.head?_nil, List.head?_cons, Option.some.injEq]; constructor
                  · intro h; cases h
                  · rintro rfl; simp at h
  · rw [dirPart_some hf, splitByte_join, splitByte_no_sep hf, List.dropLast_concat]
    constructor
    · have := splitByte_join 47 a []
      simpa [splitByte] using this
    · cases a <;> simp

/-- Where the process starts for a path. -/
def Machine.base (m : Machine) (p : GoString) : Place := if p.head? = some 47 then [] else m.cwd

theorem walk_nil_last (t : Place → Option Entry) (cur : Place) (cs : List GoString) : walk t cur (cs ++ [[]]) = walk t cur cs := by
  rw [walk_append]
  cases walk t cur cs with
  | error e => rfl
  | ok k => simp [walk]

theorem walk_pathClean (t : Place → Option Entry) (cur : Place) (x : GoString) :
    walk t cur (splitByte 47 (pathClean x)) = walk t cur (cleanParts x) := by
  obtain ⟨k, ns, hp, hns, hk⟩ := cleanParts_shape x
  have hall : ∀ c ∈ cleanParts x, (47 : UInt8) ∉ c := by
    intro c hc
    rw [hp] at hc
    rcases List.mem_append.1 hc with hc | hc
    · rw [(List.mem_replicate.1 hc).2]; decide
    · exact (hns c hc).2.2.2
  unfold pathClean
  split
  · have hs : splitByte 47 (47 :: joinWith [47] (cleanParts x)) = [] :: splitByte 47 (joinWith [47] (cleanParts x)) := by
      simp [splitByte]
    rw [hs, walk, if_pos (.inl rfl)]
    by_cases hne : cleanParts x = []
    · rw [hne]; simp [joinWith, splitByte, walk]
    · rw [split_slashes hne hall]
  · split
    · rename_i hne; rw [hne]; simp [splitByte, walk]
    · rename_i hne; rw [split_slashes hne hall]

theorem stat_of_walk {m : Machine} (h : m.Ok) {p : GoString} {k : Place} (hp : p ≠ [])
    (hw : walk m.tree (m.base p) (splitByte 47 p) = .ok k) : ∃ mode, m.stat p = .ok (.dir mode) ∧ m.place p = .ok k := by
  have hd : IsDir m.tree k := by
    refine walk_dir h ?_ hw
    unfold Machine.base
    split
    · exact h.root
    · exact h.cwd
  have hne := split_ne_nil 47 p
  have hs : (splitByte 47 p).dropLast ++ [(splitByte 47 p).getLastD []] = splitByte 47 p := by
    rw [List.getLastD_eq_getLast?, List.getLast?_eq_some_getLast hne, Option.getD_some]
    exact List.dropLast_concat_getLast hne
  rw [← hs, walk_append] at hw
  have hpl : m.place p = .ok k := by
    unfold Machine.place
    rw [if_neg hp]
    unfold Machine.base at hw
    split at hw
    · rename_i cur hc
      rw [hc]
      dsimp only
      rw [← walk_step hw]
    · cases hw
  obtain ⟨mode, hm⟩ := hd
  refine ⟨mode, ?_, hpl⟩
  unfold Machine.stat
  rw [hpl]
  dsimp only
  rw [hm]

theorem pathClean_head (x : GoString) : (pathClean x).head? = some 47 ↔ x.head? = some 47 := by
  rcases pathClean_form x with ⟨h, ns, hns, he⟩ | ⟨h, k, ns, hns, hne, he⟩ | ⟨h, he⟩
  · rw [he]; simp [h]
  · rw [he]
    have hall : ∀ c ∈ List.replicate k (gs! "..") ++ ns, c ≠ [] ∧ (47 : UInt8) ∉ c := by
      intro c hc
      rcases List.mem_append.1 hc with hc | hc
      · rw [(List.mem_replicate.1 hc).2]; decide
      · exact ⟨(hns c hc).1, (hns c hc).2.2.2⟩
    constructor
    · intro h'; exact absurd h' (head_join hall)
    · intro h'; exact absurd h' h
  · rw [he]
    constructor
    · intro h'; exact absurd h' (by decide)
    · intro h'; exact absurd h' h

theorem pathClean_ne_nil (x : GoString) : pathClean x ≠ [] := by
  rcases pathClean_form x with ⟨_, ns, _, he⟩ | ⟨_, k, ns, hns, hne, he⟩ | ⟨_, he⟩
  · rw [he]; simp
  · rw [he]
    have hall : ∀ c ∈ List.replicate k (gs! "..") ++ ns, c ≠ [] := by
      intro c hc
      rcases List.mem_append.1 hc with hc | hc
      · rw [(List.mem_replicate.1 hc).2]; decide
      · exact (hns c hc).1
    cases hl : List.replicate k (gs! "..") ++ ns with
    | nil => exact absurd hl hne
    | cons c l =>
      rw [hl] at hall
      have := hall c (by simp)
      cases c with
      | nil => exact absurd rfl this
      | cons b c => cases l <;> simp [joinWith]
  · rw [he]; decide

/-- If a path leads into an existing directory in a larger tree, `filepath.Dir` of it is that directory already. -/
theorem stat_pathDir {m m1 : Machine} (h : m.Ok) {fp : GoString} {cur : Place}
    (hw : walk m1.tree (m.base fp) (splitByte 47 fp).dropLast = .ok cur) (hd : IsDir m.tree cur) :
    ∃ mode, m.stat (pathDir fp) = .ok (.dir mode) := by
  obtain ⟨hs, hh⟩ := dirPart_split fp
  have hbase : m.base (pathDir fp) = m.base fp := by
    unfold Machine.base pathDir
    have := (pathClean_head (dirPart fp)).trans hh
    by_cases h0 : fp.head? = some 47
    · rw [if_pos h0, if_pos (this.2 h0)]
    · rw [if_neg h0, if_neg (fun x => h0 (this.1 x))]
  have hw2 : walk m1.tree (m.base fp) (splitByte 47 (dirPart fp)) = .ok cur := by rw [hs, walk_nil_last]; exact hw
  have hw3 : walk m1.tree (m.base fp) (cleanParts (dirPart fp)) = .ok cur := by
    refine walk_clean (rooted := (dirPart fp).head? == some 47) ?_ (splitByte_parts_no_sep 47 _) ⟨[], 0, rfl, by simp, fun _ => rfl⟩ rfl hw2
    intro hr
    unfold Machine.base
    rw [if_pos (hh.1 (by simpa using hr))]
  obtain ⟨j, ns, hp, hns, _⟩ := cleanParts_shape (dirPart fp)
  have hw4 : walk m.tree (m.base fp) (cleanParts (dirPart fp)) = .ok cur := by
    rw [hp, walk_append] at hw3 ⊢
    obtain ⟨k, _, h2⟩ := walk_dots m.tree j (m.base fp)
    rw [h2] at hw3 ⊢
    exact (walk_back h hns hw3 hd).1
  have := stat_of_walk h (p := pathDir fp) (k := cur) (pathClean_ne_nil _)
    (by rw [hbase]; unfold pathDir; rw [walk_pathClean]; exact hw4)
  obtain ⟨mode, h1, _⟩ := this
  exact ⟨mode, h1⟩

/-! ## What may become of a tree -/

/-- What existed keeps its kind and mode; what is new has the modes the code asks for. -/
structure Machine.Grows (m m' : Machine) : Prop where
  cwd : m'.cwd = m.cwd
  umask : m'.umask = m.umask
  dir : ∀ k mode, m.tree k = some (.dir mode) → m'.tree k = some (.dir mode)
  file : ∀ k mode b, m.tree k = some (.file mode b) → ∃ b', m'.tree k = some (.file mode b')
  new : ∀ k, m.tree k = none → m'.tree k = none ∨ m'.tree k = some (.dir (m.perm 0o700)) ∨
    ∃ b, m'.tree k = some (.file (m.perm 0o600) b)

namespace Machine

theorem Grows.refl (m : Machine) : m.Grows m :=
  ⟨rfl, rfl, fun _ _ h => h, fun _ _ b h => ⟨b, h⟩, fun _ h => .inl h⟩

theorem perm_congr {m m' : Machine} (h : m'.umask = m.umask) (p : Nat) : m'.perm p = m.perm p := by unfold perm; rw [h]

theorem Grows.trans {m m' m'' : Machine} (h : m.Grows m') (h' : m'.Grows m'') : m.Grows m'' where
  cwd := h'.cwd.trans h.cwd
  umask := h'.umask.trans h.umask
  dir k mode hk := h'.dir k mode (h.dir k mode hk)
  file k mode b hk := by
    obtain ⟨b', hb⟩ := h.file k mode b hk
    exact h'.file k mode b' hb
  new k hk := by
    rcases h.new k hk with h1 | h1 | ⟨b, h1⟩
    · rcases h'.new k h1 with h2 | h2 | ⟨b, h2⟩
      · exact .inl h2
      · rw [perm_congr h.umask] at h2; exact .inr (.inl h2)
      · rw [perm_congr h.umask] at h2; exact .inr (.inr ⟨b, h2⟩)
    · exact .inr (.inl (h'.dir k _ h1))
    · exact .inr (.inr (h'.file k _ _ h1))

theorem grows_setFile {m : Machine} {k : Place} (hk : ¬ IsDir m.tree k) (b : GoString) : m.Grows (m.setFile k b) where
  cwd := rfl
  umask := rfl
  dir k' mode h := by
    rw [setFile_tree, if_neg]
    · exact h
    · rintro rfl; exact hk ⟨mode, h⟩
  file k' mode b' h := by
    rw [setFile_tree]
    by_cases he : k' = k
    · subst he; rw [if_pos rfl, h]; exact ⟨b, rfl⟩
    · rw [if_neg he]; exact ⟨b', h⟩
  new k' h := by
    rw [setFile_tree]
    by_cases he : k' = k
    · subst he; rw [if_pos rfl, h]; exact .inr (.inr ⟨b, rfl⟩)
    · rw [if_neg he]; exact .inl h

/-- A path at which something can be made leads into a directory. -/
theorem place_up {m : Machine} (h : m.Ok) {p : GoString} {k : Place} (hp : m.place p = .ok k) :
    IsDir m.tree k ∨ ∃ cur c, k = cur ++ [c] ∧ IsDir m.tree cur := by
  unfold place at hp
  split at hp
  · cases hp
  · split at hp
    · cases hp
    · rename_i cur hw
      have hd : IsDir m.tree cur := by
        refine walk_dir h ?_ hw
        split
        · exact h.root
        · exact h.cwd
      cases hp
      unfold enter
      split
      · exact .inl hd
      · split
        · exact .inl (h.dropLast hd)
        · exact .inr ⟨_, _, rfl, hd⟩

theorem Grows.isDir {m m' : Machine} (h : m.Grows m') {k : Place} (hk : IsDir m.tree k) : IsDir m'.tree k := by
  obtain ⟨mode, hm⟩ := hk
  exact ⟨mode, h.dir k mode hm⟩

/-- A well-formed tree stays so if the new entries are in directories. -/
theorem Ok.grow {m m' : Machine} (h : m.Ok) (g : m.Grows m')
    (hn : ∀ k c e, m.tree (k ++ [c]) = none → m'.tree (k ++ [c]) = some e → IsDir m'.tree k) : m'.Ok where
  root := g.isDir h.root
  cwd := by rw [g.cwd]; exact g.isDir h.cwd
  up k c e he := by
    cases ho : m.tree (k ++ [c]) with
    | none => exact hn k c e ho he
    | some e' => exact g.isDir (h.up k c e' ho)

theorem Ok.setFile {m : Machine} (h : m.Ok) {p : GoString} {k : Place} (hp : m.place p = .ok k) (hk : ¬ IsDir m.tree k)
    (b : GoString) : (m.setFile k b).Ok := by
  refine h.grow (grows_setFile hk b) ?_
  intro k' c e hn he
  rw [setFile_tree] at he
  split at he
  · rename_i hkc
    rcases place_up h hp with hd | ⟨cur, c', hk', hd⟩
    · exact absurd hd hk
    · rw [hk'] at hkc
      have := (List.append_inj' hkc rfl).1
      rw [this]
      exact (grows_setFile hk b).isDir hd
  · rw [hn] at he; cases he

theorem writeFile_cases (m : Machine) (p data : GoString) (io : WriteOutcome) :
    ((m.writeFile p data io).1 = m ∧ (m.writeFile p data io).2 ≠ none) ∨
      ∃ k b, m.place p = .ok k ∧ ¬ IsDir m.tree k ∧ (m.writeFile p data io).1 = m.setFile k b ∧
        ((m.writeFile p data io).2 = none → b = data) := by
  unfold writeFile
  cases hp : m.place p with
  | error e => exact .inl ⟨rfl, by simp⟩
  | ok k =>
    dsimp only
    cases ht : m.tree k with
    | none =>
      have hd : ¬ IsDir m.tree k := by rintro ⟨mode, h⟩; rw [ht] at h; cases h
      cases io with
      | ok => exact .inr ⟨k, _, rfl, hd, rfl, fun _ => rfl⟩
      | openErr => exact .inl ⟨rfl, by simp⟩
      | writeErr n => exact .inr ⟨k, _, rfl, hd, rfl, by simp⟩
    | some e =>
      cases e with
      | dir mode => exact .inl ⟨rfl, by simp⟩
      | file mode b =>
        have hd : ¬ IsDir m.tree k := by rintro ⟨mode, h⟩; rw [ht] at h; cases h
        cases io with
        | ok => exact .inr ⟨k, _, rfl, hd, rfl, fun _ => rfl⟩
        | openErr => exact .inl ⟨rfl, by simp⟩
        | writeErr n => exact .inr ⟨k, _, rfl, hd, rfl, by simp⟩

theorem writeFile_grows {m : Machine} (h : m.Ok) (p data : GoString) (io : WriteOutcome) :
    m.Grows (m.writeFile p data io).1 ∧ (m.writeFile p data io).1.Ok := by
  rcases writeFile_cases m p data io with h1 | ⟨k, b, hp, hk, h1, _⟩
  · rw [h1.1]; exact ⟨.refl m, h⟩
  · rw [h1]; exact ⟨grows_setFile hk b, h.setFile hp hk b⟩

theorem writeFile_frame (m : Machine) {p data : GoString} {io : WriteOutcome} {k : Place} (hk : m.place p ≠ .ok k) :
    (m.writeFile p data io).1.tree k = m.tree k := by
  rcases writeFile_cases m p data io with h1 | ⟨k', b, hp, hd, h1, _⟩
  · rw [h1.1]
  · rw [h1, setFile_tree, if_neg]
    rintro rfl
    exact hk hp

theorem mkdir_grows {m : Machine} (h : m.Ok) (p : GoString) :
    m.Grows (m.mkdir p 0o700).1 ∧ (m.mkdir p 0o700).1.Ok ∧
      ∀ k e, m.tree k = some e → (m.mkdir p 0o700).1.tree k = some e := by
  unfold mkdir
  cases hp : m.place p with
  | error e => exact ⟨.refl m, h, fun _ _ x => x⟩
  | ok k =>
    dsimp only
    cases ht : m.tree k with
    | some e => exact ⟨.refl m, h, fun _ _ x => x⟩
    | none =>
      have old : ∀ k' e, m.tree k' = some e → upd m.tree k (some (.dir (m.perm 0o700))) k' = some e := by
        intro k' e hk'
        unfold upd
        rw [if_neg]
        · exact hk'
        · rintro rfl; rw [ht] at hk'; cases hk'
      have g : m.Grows { m with tree := upd m.tree k (some (.dir (m.perm 0o700))) } := {
        cwd := rfl
        umask := rfl
        dir := fun k' mode hk' => old k' _ hk'
        file := fun k' mode b hk' => ⟨b, old k' _ hk'⟩
        new := by
          intro k' hk'
          unfold upd
          dsimp only
          by_cases he : k' = k
          · subst he; rw [if_pos rfl]; exact .inr (.inl rfl)
          · rw [if_neg he]; exact .inl hk' }
      refine ⟨g, h.grow g ?_, old⟩
      intro k' c e hn he
      unfold upd at he
      dsimp only at he
      split at he
      · rename_i hkc
        rcases place_up h hp with ⟨mode, hd⟩ | ⟨cur, c', hk', hd⟩
        · rw [ht] at hd; cases hd
        · rw [hk'] at hkc
          rw [(List.append_inj' hkc rfl).1]
          exact g.isDir hd
      · rw [hn] at he; cases he

theorem mkdirAll_grows {fuel : Nat} : ∀ {m : Machine}, m.Ok → ∀ (p : GoString),
    m.Grows (m.mkdirAll 0o700 fuel p).1 ∧ (m.mkdirAll 0o700 fuel p).1.Ok ∧
      ∀ k e, m.tree k = some e → (m.mkdirAll 0o700 fuel p).1.tree k = some e := by
  induction fuel with
  | zero => intro m h p; exact ⟨.refl m, h, fun _ _ x => x⟩
  | succ fuel ih =>
    intro m h p
    unfold mkdirAll
    split
    · exact ⟨.refl m, h, fun _ _ x => x⟩
    · exact ⟨.refl m, h, fun _ _ x => x⟩
    · have key : ∀ r : Machine × Option Errno,
          (if 1 < (upTo p).length then mkdirAll 0o700 fuel m (upTo p).dropLast else (m, none)) = r →
          m.Grows r.1 ∧ r.1.Ok ∧ ∀ k e, m.tree k = some e → r.1.tree k = some e := by
        rintro r rfl
        split
        · exact ih h _
        · exact ⟨.refl m, h, fun _ _ x => x⟩
      split
      · rename_i m1 e hr; exact key _ hr
      · rename_i m1 hr
        obtain ⟨g1, o1, f1⟩ := key _ hr
        have g2 := mkdir_grows o1 p
        have fin : ∀ m2 : Machine, (m1.mkdir p 0o700).1 = m2 →
            m.Grows m2 ∧ m2.Ok ∧ ∀ k e, m.tree k = some e → m2.tree k = some e := by
          rintro m2 rfl
          exact ⟨g1.trans g2.1, g2.2.1, fun k e hk => g2.2.2 k e (f1 k e hk)⟩
        split
        · rename_i m2 hm; exact fin m2 (by rw [hm])
        · rename_i m2 e hm
          split <;> exact fin m2 (by rw [hm])

end Machine

/-- A call grows the tree. -/
theorem execOn_grows {m : Machine} (h : m.Ok) (c : Call) (nd : Nondet) (db : Database) (req : Request) :
    m.Grows (execOn c nd db m req).2 ∧ (execOn c nd db m req).2.Ok := by
  rcases execOn_spec c nd db m req with h1 | h1
  · rw [h1.2.1]; exact ⟨.refl m, h⟩
  · rw [h1.1]; exact Machine.writeFile_grows h _ _ _

theorem execOn_frame {m : Machine} {c : Call} {db : Database} {k : Place} (hk : m.place (c.target db) ≠ .ok k) (nd : Nondet)
    (req : Request) : (execOn c nd db m req).2.tree k = m.tree k := by
  rcases execOn_spec c nd db m req with h1 | h1
  · rw [h1.2.1]
  · rw [h1.1]; exact Machine.writeFile_frame m hk

theorem commitOn_snd (nd : Nondet) (db : Database) (m : Machine) : (db.commitOn nd m).2.1 =
    (m.writeFile db.path (marshalDB (db.commitOn nd m).1.toDBData) nd.io).1 ∧
    ((db.commitOn nd m).2.2 = none ↔ (m.writeFile db.path (marshalDB (db.commitOn nd m).1.toDBData) nd.io).2 = none) ∧
    (db.commitOn nd m).1 = db.touch nd.commitTime := by
  have h : (db.commitOn nd m).1 = db.touch nd.commitTime := by
    unfold Database.commitOn Database.touch
    dsimp only
    split <;> rfl
  refine ⟨?_, ?_, h⟩
  · rw [h]
    unfold Database.commitOn Database.touch
    dsimp only
    split <;> rename_i hw <;> rw [hw]
  · rw [h]
    unfold Database.commitOn Database.touch
    dsimp only
    split <;> rename_i hw <;> rw [hw] <;> simp

theorem mkdirAll_there {m : Machine} {p : GoString} {mode perm fuel : Nat} (hf : 0 < fuel) (h : m.stat p = .ok (.dir mode)) :
    m.mkdirAll perm fuel p = (m, none) := by
  cases fuel with
  | zero => omega
  | succ fuel => rw [Machine.mkdirAll, h]

/-- `NewDatabase` grows the tree; existing entries other than the file are untouched. -/
theorem openFileOn_grows {m : Machine} (h : m.Ok) (nd : Nondet) (fp : GoString) :
    m.Grows (Database.openFileOn nd m fp).2 ∧ (Database.openFileOn nd m fp).2.Ok ∧
      ∀ k e, m.tree k = some e → m.place fp ≠ .ok k → (Database.openFileOn nd m fp).2.tree k = some e := by
  have same : m.Grows m ∧ m.Ok ∧ ∀ k e, m.tree k = some e → m.place fp ≠ .ok k → m.tree k = some e :=
    ⟨.refl m, h, fun _ _ x _ => x⟩
  have com : ∀ (db : Database) (m1 : Machine), db.path = fp → m.Grows m1 → m1.Ok →
      (∀ k e, m.tree k = some e → m1.tree k = some e) →
      (∀ k e, m.tree k = some e → m.place fp ≠ .ok k → ¬ IsDir m1.tree k → m1.place fp ≠ .ok k) →
      m.Grows (db.commitOn nd m1).2.1 ∧ (db.commitOn nd m1).2.1.Ok ∧
      ∀ k e, m.tree k = some e → m.place fp ≠ .ok k → (db.commitOn nd m1).2.1.tree k = some e := by
    intro db m1 hp g1 o1 f1 hpl
    rw [(commitOn_snd nd db m1).1, hp]
    obtain ⟨g2, o2⟩ := Machine.writeFile_grows o1 fp (marshalDB (db.commitOn nd m1).1.toDBData) nd.io
    refine ⟨g1.trans g2, o2, fun k e hk hne => ?_⟩
    by_cases hd : IsDir m1.tree k
    · obtain ⟨mode, hm⟩ := hd
      rw [g2.dir k mode hm, ← hm]
      exact f1 k e hk
    · rw [Machine.writeFile_frame m1 (hpl k e hk hne hd)]
      exact f1 k e hk
  unfold Database.openFileOn
  split
  · exact same
  · split
    · rename_i hst
      split
      · exact same
      · have gm := Machine.mkdirAll_grows (fuel := (pathDir fp).length) h (pathDir fp)
        split
        · rename_i m1 e hm
          rw [hm] at gm
          exact ⟨gm.1, gm.2.1, fun k e hk _ => gm.2.2 k e hk⟩
        · rename_i m1 hm
          rw [hm] at gm
          dsimp only at gm ⊢
          -- nothing was at the path before, so only a new place is written
          have hpl : ∀ k e, m.tree k = some e → m.place fp ≠ .ok k → ¬ IsDir m1.tree k → m1.place fp ≠ .ok k := by
            intro k e hk hne hnd hp
            by_cases hsd : ∃ mode, m.stat (pathDir fp) = .ok (.dir mode)
            · obtain ⟨mode, hsd⟩ := hsd
              rw [mkdirAll_there (show 0 < (pathDir fp).length from List.length_pos_iff.2 (pathClean_ne_nil _)) hsd] at hm
              cases hm
              exact hne hp
            · have hp' := hp
              unfold Machine.place at hp'
              split at hp'
              · cases hp'
              · split at hp'
                · cases hp'
                · rename_i cur hw
                  cases hp'
                  have hcur : IsDir m1.tree cur := by
                    refine walk_dir gm.2.1 ?_ hw
                    split
                    · exact gm.2.1.root
                    · exact gm.2.1.cwd
                  unfold enter at hk hnd
                  split at hk
                  · rename_i h0; rw [if_pos h0] at hnd; exact hnd hcur
                  · rename_i h0
                    rw [if_neg h0] at hnd
                    split at hk
                    · rename_i h1; rw [if_pos h1] at hnd; exact hnd (gm.2.1.dropLast hcur)
                    · refine hsd (stat_pathDir (m1 := m1) h (cur := cur) ?_ (h.up _ _ _ hk))
                      rw [gm.1.cwd] at hw
                      exact hw
          have := com { Database.empty fp with version := Ext.appVersion, policy := (enforceDefaultPolicy ({ Database.empty fp with version := Ext.appVersion } : Database).policy).1 } m1 rfl gm.1 gm.2.1 gm.2.2 hpl
          split <;> rename_i hc <;> rw [hc] at this <;> exact this
    · exact same
    · exact same
    · split
      · exact same
      · exact same
      · split
        · exact same
        · exact same
        · dsimp only
          split
          · rename_i d hd hch
            have := com { Database.empty fp with toDBData := { d with policy := (enforceDefaultPolicy d.policy).1 } } m rfl
              (.refl m) h (fun _ _ x => x) (fun _ _ _ x _ => x)
            split <;> rename_i hc <;> rw [hc] at this <;> exact this
          · exact same

theorem newDatabaseOn_snd (nd : Nondet) (m : Machine) (fp : GoString) :
    (newDatabaseOn nd m fp).2 = (Database.openFileOn nd m fp).2 := by
  unfold newDatabaseOn
  split <;> rename_i h <;> rw [h]

/-! ## A path of names -/

theorem join_ne_nil {names : List GoString} (hne : names ≠ []) (h : ∀ c ∈ names, PlainPart c) : joinWith [47] names ≠ [] := by
  cases names with
  | nil => exact absurd rfl hne
  | cons c l =>
    have := (h c (by simp)).1
    cases c with
    | nil => exact absurd rfl this
    | cons b c => cases l <;> simp [joinWith]

theorem pathOf_ne_nil {abs : Bool} {names : List GoString} (hne : names ≠ []) (h : ∀ c ∈ names, PlainPart c) :
    pathOf abs names ≠ [] := by
  unfold pathOf
  intro he
  exact join_ne_nil hne h (List.append_eq_nil_iff.1 he).2

theorem pathOf_head {abs : Bool} {names : List GoString} (h : ∀ c ∈ names, PlainPart c) :
    (pathOf abs names).head? = some 47 ↔ abs = true := by
  unfold pathOf
  cases abs with
  | true => simp
  | false =>
    have := head_join (parts := names) (fun c hc => ⟨(h c hc).1, (h c hc).2.2.2⟩)
    simp [this]

theorem pathOf_split {abs : Bool} {names : List GoString} (hne : names ≠ []) (h : ∀ c ∈ names, PlainPart c) :
    splitByte 47 (pathOf abs names) = (if abs then [[]] else []) ++ names := by
  have hs := split_slashes hne (fun c hc => (h c hc).2.2.2)
  unfold pathOf
  cases abs with
  | true => simp [splitByte, hs]
  | false => simp [hs]

theorem join_concat {names : List GoString} (hne : names ≠ []) (f : GoString) :
    joinWith [47] (names ++ [f]) = joinWith [47] names ++ [47] ++ f := by
  induction names with
  | nil => exact absurd rfl hne
  | cons c l ih =>
    cases l with
    | nil => simp [joinWith]
    | cons d l =>
      rw [List.cons_append, joinWith_cons (show d :: l ++ [f] ≠ [] by simp), ih (by simp),
        joinWith_cons (show d :: l ≠ [] by simp)]
      simp only [List.append_assoc]

theorem pathOf_concat {abs : Bool} {names : List GoString} (hne : names ≠ []) (f : GoString) :
    pathOf abs (names ++ [f]) = pathOf abs names ++ [47] ++ f := by
  unfold pathOf
  rw [join_concat hne]
  simp [List.append_assoc]

namespace Machine

theorem place_pathOf {m : Machine} {abs : Bool} {ds : List GoString} {f : GoString} (hds : ∀ c ∈ ds, PlainPart c) (hf : PlainPart f) :
    m.place (pathOf abs (ds ++ [f])) =
      match walk m.tree (m.start abs) ds with
      | .error e => .error e
      | .ok cur => .ok (cur ++ [f]) := by
  have hall : ∀ c ∈ ds ++ [f], PlainPart c := by
    intro c hc
    rcases List.mem_append.1 hc with hc | hc
    · exact hds c hc
    · rw [List.mem_singleton.1 hc]; exact hf
  have hne : ds ++ [f] ≠ [] := by simp
  have hbase : (if (pathOf abs (ds ++ [f])).head? = some 47 then [] else m.cwd) = m.start abs := by
    unfold start
    have := pathOf_head (abs := abs) hall
    by_cases h : abs = true
    · rw [if_pos (this.2 h), if_pos h]
    · rw [if_neg (fun x => h (this.1 x)), if_neg h]
  have henter : ∀ cur, enter cur f = cur ++ [f] := by
    intro cur
    unfold enter
    rw [if_neg (by rw [not_or]; exact ⟨hf.1, hf.2.1⟩), if_neg hf.2.2.1]
  unfold place
  rw [if_neg (pathOf_ne_nil hne hall), pathOf_split hne hall, hbase, ← List.append_assoc, List.dropLast_concat]
  have hw : walk m.tree (m.start abs) ((if abs then [[]] else []) ++ ds) = walk m.tree (m.start abs) ds := by
    cases abs with
    | true => rw [if_pos rfl, List.singleton_append, walk, if_pos (.inl rfl)]
    | false => rfl
  rw [hw]
  cases walk m.tree (m.start abs) ds with
  | error e => rfl
  | ok cur =>
    dsimp only
    rw [← henter cur]
    congr 1
    rw [List.getLastD_eq_getLast?, List.getLast?_concat]
    rfl

end Machine

/-- Names lead on through directories. -/
theorem walk_names {t : Place → Option Entry} {ds : List GoString} (hds : ∀ c ∈ ds, PlainPart c) :
    ∀ {base : Place}, (∀ pre, pre <+: ds → pre ≠ [] → IsDir t (base ++ pre)) → walk t base ds = .ok (base ++ ds) := by
  induction ds with
  | nil => intro base _; simp [walk]
  | cons c ds ih =>
    intro base h
    have hc := hds c (by simp)
    obtain ⟨mode, hm⟩ := h [c] ⟨ds, rfl⟩ (by simp)
    rw [walk, if_neg (by rw [not_or]; exact ⟨hc.1, hc.2.1⟩), if_neg hc.2.2.1, hm]
    dsimp only
    rw [ih (fun c hc => hds c (by simp [hc]))]
    · simp
    · intro pre hpre hne
      have := h (c :: pre) (List.prefix_cons_inj c |>.2 hpre) (by simp)
      simpa using this

theorem walk_no_file {t : Place → Option Entry} {ds : List GoString} (hds : ∀ c ∈ ds, PlainPart c) :
    ∀ {base : Place}, (∀ pre, pre <+: ds → ∀ mode b, t (base ++ pre) ≠ some (.file mode b)) →
      walk t base ds = .ok (base ++ ds) ∨ walk t base ds = .error .noent := by
  induction ds with
  | nil => intro base _; left; simp [walk]
  | cons c ds ih =>
    intro base h
    have hc := hds c (by simp)
    rw [walk, if_neg (by rw [not_or]; exact ⟨hc.1, hc.2.1⟩), if_neg hc.2.2.1]
    cases hm : t (base ++ [c]) with
    | none => right; rfl
    | some e =>
      cases e with
      | file mode b => exact absurd hm (h [c] ⟨ds, rfl⟩ mode b)
      | dir mode =>
        dsimp only
        have := ih (fun c hc => hds c (by simp [hc])) (base := base ++ [c]) (by
          intro pre hpre mode b
          have := h (c :: pre) (List.prefix_cons_inj c |>.2 hpre) mode b
          simpa using this)
        simpa using this

/-- Everything above an entry is a directory. -/
theorem Machine.Ok.prefixes {m : Machine} (h : m.Ok) : ∀ {l : List GoString} {x : Place} {e : Entry}, l ≠ [] →
    m.tree (x ++ l) = some e → IsDir m.tree x := by
  intro l
  induction l with
  | nil => intro x e hl; exact absurd rfl hl
  | cons a l ih =>
    intro x e _ hx
    by_cases hl : l = []
    · subst hl; exact h.up _ _ _ hx
    · obtain ⟨mode, hm⟩ := ih (x := x ++ [a]) (e := e) hl (by simpa using hx)
      exact h.up _ _ _ hm

theorem walk_file {m : Machine} (h : m.Ok) {ds : List GoString} (hds : ∀ c ∈ ds, PlainPart c) :
    ∀ {base pre : Place} {mode : Nat} {b : GoString}, pre <+: ds → pre ≠ [] → m.tree (base ++ pre) = some (.file mode b) →
      walk m.tree base ds = .error .notdir := by
  induction ds with
  | nil => intro base pre mode b hp hne; exact absurd (List.prefix_nil.1 hp) hne
  | cons c ds ih =>
    intro base pre mode b hp hne ht
    have hc := hds c (by simp)
    rw [walk, if_neg (by rw [not_or]; exact ⟨hc.1, hc.2.1⟩), if_neg hc.2.2.1]
    cases pre with
    | nil => exact absurd rfl hne
    | cons c' pre =>
      obtain ⟨rfl, hp'⟩ := List.cons_prefix_cons.1 hp
      by_cases hpre : pre = []
      · subst hpre; rw [ht]
      · have ht' : m.tree (base ++ [c'] ++ pre) = some (.file mode b) := by simpa using ht
        obtain ⟨mode', hm⟩ := h.prefixes hpre ht'
        rw [hm]
        exact ih (fun c hc => hds c (by simp [hc])) hp' hpre ht'

theorem withDirs_isDir {m : Machine} {perm : Nat} {base ds pre : Place} (hp : pre <+: ds)
    (hf : ∀ pre, pre <+: ds → ∀ mode b, m.tree (base ++ pre) ≠ some (.file mode b)) :
    IsDir (m.withDirs perm base ds).tree (base ++ pre) := by
  unfold Machine.withDirs IsDir
  dsimp only
  cases ht : m.tree (base ++ pre) with
  | none => exact ⟨_, by rw [if_pos ⟨List.prefix_append _ _, (List.prefix_append_right_inj base).2 hp, rfl⟩]⟩
  | some e =>
    cases e with
    | file mode b => exact absurd ht (hf pre hp mode b)
    | dir mode => exact ⟨mode, by simp⟩

theorem upTo_pathOf {abs : Bool} {ds : List GoString} {d : GoString} (hds : ds ≠ []) (hd : PlainPart d) :
    Machine.upTo (pathOf abs (ds ++ [d])) = pathOf abs ds ++ [47] := by
  have h1 := dirPart_some (a := pathOf abs ds) hd.2.2.2
  rw [pathOf_concat hds]
  unfold Machine.upTo
  have : (pathOf abs ds ++ [47] ++ d).reverse.dropWhile (· == 47) = (pathOf abs ds ++ [47] ++ d).reverse := by
    rw [List.reverse_append]
    cases hr : d.reverse with
    | nil => exact absurd (List.reverse_eq_nil_iff.1 hr) hd.1
    | cons x r =>
      have hx : x ≠ 47 := by
        rintro rfl
        exact hd.2.2.2 (List.mem_reverse.1 (by rw [hr]; simp))
      rw [List.cons_append, List.dropWhile_cons, if_neg (by simpa using hx)]
  rw [this]
  exact h1

theorem upTo_short {abs : Bool} {d : GoString} (hd : PlainPart d) : (Machine.upTo (pathOf abs [d])).length ≤ 1 := by
  unfold Machine.upTo pathOf
  have hx : ∀ x ∈ d.reverse, x ≠ 47 := by rintro x hx rfl; exact hd.2.2.2 (List.mem_reverse.1 hx)
  have : ((if abs then [47] else []) ++ joinWith [47] [d]).reverse.dropWhile (· == 47) =
      d.reverse ++ (if abs then [47] else []) := by
    have e : ((if abs then [47] else []) ++ joinWith [47] [d] : GoString).reverse = d.reverse ++ (if abs then [47] else []) := by
      cases abs <;> simp [joinWith]
    rw [e]
    cases hr : d.reverse with
    | nil => exact absurd (List.reverse_eq_nil_iff.1 hr) hd.1
    | cons x r =>
      rw [List.cons_append, List.dropWhile_cons, if_neg (by simpa using hx x (by rw [hr]; simp))]
  rw [this, List.dropWhile_append_of_pos (by intro x h; simpa using hx x h)]
  cases abs
  · decide
  · decide

theorem prefix_concat {k l : Place} {a : GoString} : k <+: l ++ [a] ↔ k = l ++ [a] ∨ k <+: l := by
  rw [List.prefix_concat_iff]

/-- `os.MkdirAll` along names with no file in the way makes the missing directories. -/
theorem mkdirAll_names {m : Machine} (h : m.Ok) {perm : Nat} {abs : Bool} (fuel : Nat) : ∀ {ds : List GoString}, ds ≠ [] →
    ds.length ≤ fuel → (∀ c ∈ ds, PlainPart c) →
    (∀ pre, pre <+: ds → ∀ mode b, m.tree (m.start abs ++ pre) ≠ some (.file mode b)) →
    m.mkdirAll perm fuel (pathOf abs ds) = (m.withDirs perm (m.start abs) ds, none) := by
  induction fuel with
  | zero => intro ds hne hl; exact absurd (List.length_eq_zero_iff.1 (Nat.le_zero.1 hl)) hne
  | succ fuel ih =>
    intro ds hne hl hds hf
    rcases List.eq_nil_or_concat ds with rfl | ⟨ds', d, rfl⟩
    · exact absurd rfl hne
    rw [List.concat_eq_append] at *
    have hd : PlainPart d := hds d (by simp)
    have hds' : ∀ c ∈ ds', PlainPart c := fun c hc => hds c (by simp [hc])
    have hf' : ∀ pre, pre <+: ds' → ∀ mode b, m.tree (m.start abs ++ pre) ≠ some (.file mode b) :=
      fun pre hp => hf pre (hp.trans (List.prefix_append _ _))
    have hpl := Machine.place_pathOf (m := m) (abs := abs) hds' hd
    unfold Machine.mkdirAll
    cases hk : m.tree (m.start abs ++ ds' ++ [d]) with
    | some e =>
      obtain ⟨mode, rfl⟩ : ∃ mode, e = .dir mode := by
        cases e with
        | dir mode => exact ⟨mode, rfl⟩
        | file mode b => exact absurd (by simpa using hk) (hf (ds' ++ [d]) (List.prefix_refl _) mode b)
      have hdirs : ∀ pre, pre <+: ds' → IsDir m.tree (m.start abs ++ pre) := by
        rintro pre ⟨l, rfl⟩
        exact h.prefixes (l := l ++ [d]) (by simp) (by simpa using hk)
      have hst : m.stat (pathOf abs (ds' ++ [d])) = .ok (.dir mode) := by
        unfold Machine.stat
        rw [hpl, walk_names hds' (fun pre hp _ => hdirs pre hp)]
        dsimp only
        rw [hk]
      rw [hst]
      dsimp only
      congr 1
      unfold Machine.withDirs
      have : m.tree = fun k => if m.start abs <+: k ∧ k <+: m.start abs ++ (ds' ++ [d]) ∧ m.tree k = none then
          some (.dir (m.perm perm)) else m.tree k := by
        funext k
        rw [if_neg]
        rintro ⟨⟨x, rfl⟩, h2, h3⟩
        rw [List.prefix_append_right_inj, prefix_concat] at h2
        rcases h2 with rfl | h2
        · rw [← List.append_assoc, hk] at h3; cases h3
        · obtain ⟨mode, hm⟩ := hdirs x h2
          rw [hm] at h3; cases h3
      rw [← this]
    | none =>
      have hst : ∃ e, m.stat (pathOf abs (ds' ++ [d])) = .error e := by
        unfold Machine.stat
        rw [hpl]
        rcases walk_no_file hds' hf' with hw | hw <;> rw [hw] <;> dsimp only
        · rw [hk]; exact ⟨_, rfl⟩
        · exact ⟨_, rfl⟩
      obtain ⟨e, hst⟩ := hst
      rw [hst]
      dsimp only
      have hrec : (if 1 < (Machine.upTo (pathOf abs (ds' ++ [d]))).length then
          Machine.mkdirAll perm fuel m (Machine.upTo (pathOf abs (ds' ++ [d]))).dropLast else (m, none)) =
          (m.withDirs perm (m.start abs) ds', none) := by
        by_cases hn : ds' = []
        · subst hn
          rw [List.nil_append, if_neg (by have := upTo_short (abs := abs) hd; omega)]
          congr 1
          unfold Machine.withDirs
          have : m.tree = fun k => if m.start abs <+: k ∧ k <+: m.start abs ++ [] ∧ m.tree k = none then
              some (.dir (m.perm perm)) else m.tree k := by
            funext k
            rw [if_neg]
            rintro ⟨h1, h2, h3⟩
            rw [List.append_nil] at h2
            rw [← h1.eq_of_length (Nat.le_antisymm h1.length_le h2.length_le)] at h3
            have : IsDir m.tree (m.start abs) := by
              unfold Machine.start
              split
              · exact h.root
              · exact h.cwd
            obtain ⟨mode, hm⟩ := this
            rw [hm] at h3; cases h3
          rw [← this]
        · rw [upTo_pathOf hn hd, if_pos, List.dropLast_concat]
          · exact ih hn (by simp at hl; omega) hds' hf'
          · have := List.length_pos_iff.2 (pathOf_ne_nil (abs := abs) hn hds')
            simp only [List.length_append, List.length_singleton]
            omega
      rw [hrec]
      dsimp only
      have hw1 : walk (m.withDirs perm (m.start abs) ds').tree (m.start abs) ds' = .ok (m.start abs ++ ds') :=
        walk_names hds' (fun pre hp _ => withDirs_isDir hp hf')
      have hnone : (m.withDirs perm (m.start abs) ds').tree (m.start abs ++ ds' ++ [d]) = none := by
        unfold Machine.withDirs
        dsimp only
        rw [if_neg]
        · exact hk
        · rintro ⟨_, h2, _⟩
          have := h2.length_le
          simp only [List.length_append, List.length_singleton] at this
          omega
      have hmk : (m.withDirs perm (m.start abs) ds').mkdir (pathOf abs (ds' ++ [d])) perm =
          (m.withDirs perm (m.start abs) (ds' ++ [d]), none) := by
        unfold Machine.mkdir
        rw [Machine.place_pathOf hds' hd]
        have hs : (m.withDirs perm (m.start abs) ds').start abs = m.start abs := rfl
        rw [hs, hw1]
        dsimp only
        rw [hnone]
        dsimp only
        congr 1
        unfold Machine.withDirs
        dsimp only
        congr 1
        funext k
        unfold upd
        by_cases hkk : k = m.start abs ++ ds' ++ [d]
        · rw [if_pos hkk, if_pos]
          · rfl
          · subst hkk
            refine ⟨?_, by simp, hk⟩
            rw [List.append_assoc]
            exact List.prefix_append _ _
        · rw [if_neg hkk]
          have : (k <+: m.start abs ++ (ds' ++ [d])) ↔ k <+: m.start abs ++ ds' := by
            rw [← List.append_assoc, prefix_concat]
            constructor
            · rintro (h | h)
              · exact absurd h hkk
              · exact h
            · exact .inr
          simp only [this]
      rw [hmk]

theorem pathClean_slash {abs : Bool} {ds : List GoString} (hne : ds ≠ []) (hds : ∀ c ∈ ds, PlainPart c) :
    pathClean (pathOf abs ds ++ [47]) = pathOf abs ds := by
  have hp := pathOf_ne_nil (abs := abs) hne hds
  have hh : (pathOf abs ds ++ [47]).head? = (pathOf abs ds).head? := by
    cases h : pathOf abs ds with
    | nil => exact absurd h hp
    | cons b l => rfl
  have hc : cleanParts (pathOf abs ds ++ [47]) = ds := by
    have h1 : cleanParts (pathOf abs ds ++ [47]) = cleanParts (pathOf abs ds) := by
      unfold cleanParts
      have := splitByte_join 47 (pathOf abs ds) []
      rw [List.append_nil] at this
      rw [this, hh, List.foldl_append]
      simp [splitByte, cleanStep]
    rw [h1]
    cases abs with
    | true => exact cleanParts_rooted hds
    | false =>
      have := cleanParts_relative (k := 0) hds (by simpa using hne)
      simpa [pathOf] using this
  unfold pathClean
  rw [hc, hh]
  cases abs with
  | true => rw [if_pos ((pathOf_head hds).2 rfl)]; rfl
  | false => rw [if_neg (fun h => by cases (pathOf_head hds).1 h), if_neg hne]; rfl

theorem pathDir_pathOf {abs : Bool} {ds : List GoString} {f : GoString} (hne : ds ≠ []) (hds : ∀ c ∈ ds, PlainPart c) (hf : PlainPart f) :
    pathDir (pathOf abs (ds ++ [f])) = pathOf abs ds := by
  unfold pathDir
  rw [pathOf_concat hne, dirPart_some hf.2.2.2, pathClean_slash hne hds]

theorem length_pathOf {abs : Bool} {ds : List GoString} (hds : ∀ c ∈ ds, PlainPart c) : ds.length ≤ (pathOf abs ds).length := by
  have : ds.length ≤ (joinWith [47] ds).length := by
    induction ds with
    | nil => simp
    | cons c l ih =>
      have hc := List.length_pos_iff.2 (hds c (by simp)).1
      cases l with
      | nil => simp [joinWith]; omega
      | cons d l =>
        rw [joinWith_cons (by simp)]
        have := ih (fun c hc => hds c (by simp [hc]))
        simp only [List.length_append, List.length_cons] at this ⊢
        omega
  unfold pathOf
  rw [List.length_append]
  omega

/-! ## `NewDatabase` on a tree and on files by path -/

theorem commitOn_place {m : Machine} {db : Database} {k : Place} (hp : m.place db.path = .ok k) (nd : Nondet) :
    db.commitOn nd m =
      ((db.commit nd m.view).1, m.follow k ((db.commit nd m.view).2.1 db.path), (db.commit nd m.view).2.2) := by
  unfold Database.commitOn Database.commit
  dsimp only
  rw [Machine.writeFile_ok_place hp]
  rcases hw : GoIdentity.writeFile m.view db.path (marshalDB ({ db.toDBData with revision := (db.revision + 1) % 2 ^ 64, lastModified := nd.commitTime })) nd.io with ⟨fs', _ | e⟩
  · rfl
  · rfl

/-- If the file's directory is there, `NewDatabase` does as it does on files seen by path. -/
theorem newDatabaseOn_place {m : Machine} (h : m.Ok) {fp : GoString} {k : Place} (hp : m.place fp = .ok k) (nd : Nondet) :
    newDatabaseOn nd m fp = ((newDatabase nd m.view fp).1, m.follow k ((newDatabase nd m.view fp).2 fp)) := by
  have hsame := Machine.follow_view hp
  have hv := Machine.view_of_place hp
  have hopen : Database.openFileOn nd m fp =
      ((Database.openFile nd m.view fp).1, m.follow k ((Database.openFile nd m.view fp).2 fp)) := by
    have com : ∀ db : Database, db.path = fp →
        (match db.commitOn nd m with
          | (_, m, some e) => ((.err (.withE .newDatabase [fp] e), m) : Res Database × Machine)
          | (db, m, none) => (.ok db, m)) =
        ((match db.commit nd m.view with
          | (_, fs, some e) => ((.err (.withE .newDatabase [fp] e), fs) : Res Database × FS)
          | (db, fs, none) => (.ok db, fs)).1,
          m.follow k ((match db.commit nd m.view with
          | (_, fs, some e) => ((.err (.withE .newDatabase [fp] e), fs) : Res Database × FS)
          | (db, fs, none) => (.ok db, fs)).2 fp)) := by
      intro db hdb
      rw [commitOn_place (k := k) (by rw [hdb]; exact hp), hdb]
      rcases db.commit nd m.view with ⟨db', fs', _ | e⟩ <;> rfl
    unfold Database.openFileOn Database.openFile
    by_cases hs : nd.statErr = true
    · simp only [hs, if_true, hsame]
    · have hs : nd.statErr = false := by simpa using hs
      simp only [hs, Bool.false_eq_true, if_false]
      cases ht : m.tree k with
      | none =>
        rw [ht] at hv
        dsimp only at hv
        have hst : m.stat fp = .error .noent := by unfold Machine.stat; rw [hp]; dsimp only; rw [ht]
        rw [hst, hv]
        dsimp only
        have hmk : m.mkdirAll 0o700 (pathDir fp).length (pathDir fp) = (m, none) := by
          obtain ⟨mode, hd⟩ : ∃ mode, m.stat (pathDir fp) = .ok (.dir mode) := by
            have hp' := hp
            unfold Machine.place at hp'
            split at hp'
            · cases hp'
            · split at hp'
              · cases hp'
              · rename_i cur hw
                refine stat_pathDir (m1 := m) h hw ?_
                refine walk_dir h ?_ hw
                split
                · exact h.root
                · exact h.cwd
          exact mkdirAll_there (show 0 < (pathDir fp).length from List.length_pos_iff.2 (pathClean_ne_nil _)) hd
        rw [hmk]
        dsimp only
        by_cases hm : nd.mkdirErr = true
        · simp only [hm, if_true, hsame]
        · have hm : nd.mkdirErr = false := by simpa using hm
          simp only [hm, Bool.false_eq_true, if_false]
          exact com _ rfl
      | some e =>
        rw [ht] at hv
        cases e with
        | dir mode =>
          dsimp only at hv
          have hst : m.stat fp = .ok (.dir mode) := by unfold Machine.stat; rw [hp]; dsimp only; rw [ht]
          rw [hst, hv]
          dsimp only
          rw [hv] at hsame
          rw [hv, hsame]
        | file mode b =>
          dsimp only at hv
          have hst : m.stat fp = .ok (.file mode b) := by unfold Machine.stat; rw [hp]; dsimp only; rw [ht]
          rw [hst, hv]
          dsimp only
          rcases readFileBytes nd m.view fp with b' | e | _
          · dsimp only
            rcases unmarshalDB b' with d | e | _
            · dsimp only
              rcases enforceDefaultPolicy d.policy with ⟨pol, ch⟩
              dsimp only
              cases ch with
              | true => rw [if_pos rfl, if_pos rfl]; exact com _ rfl
              | false => rw [if_neg (by simp), if_neg (by simp)]; dsimp only; rw [hsame]
            · dsimp only; rw [hsame]
            · dsimp only; rw [hsame]
          · dsimp only; rw [hsame]
          · dsimp only; rw [hsame]
  unfold newDatabaseOn newDatabase
  rw [hopen]
  rcases Database.openFile nd m.view fp with ⟨_ | _ | _, fs'⟩ <;> rfl

/-- With no file in the way, `NewDatabase` makes the missing directories and goes on from there. -/
theorem newDatabaseOn_dirs {m : Machine} (h : m.Ok) {abs : Bool} {ds : List GoString} {f : GoString} (hds : ∀ c ∈ ds, PlainPart c)
    (hf : PlainPart f) (hno : ∀ pre, pre <+: ds → ∀ mode b, m.tree (m.start abs ++ pre) ≠ some (.file mode b))
    (hnone : m.tree (m.start abs ++ ds ++ [f]) = none) {nd : Nondet} (hst : nd.statErr = false) (hmk : nd.mkdirErr = false) :
    newDatabaseOn nd m (pathOf abs (ds ++ [f])) = newDatabaseOn nd (m.withDirs 0o700 (m.start abs) ds) (pathOf abs (ds ++ [f])) := by
  have hstat : m.stat (pathOf abs (ds ++ [f])) = .error .noent := by
    unfold Machine.stat
    rw [Machine.place_pathOf hds hf]
    rcases walk_no_file hds hno with hw | hw <;> rw [hw] <;> dsimp only
    rw [hnone]
  have hw1 : walk (m.withDirs 0o700 (m.start abs) ds).tree (m.start abs) ds = .ok (m.start abs ++ ds) :=
    walk_names hds (fun pre hp _ => withDirs_isDir hp hno)
  have hstat1 : (m.withDirs 0o700 (m.start abs) ds).stat (pathOf abs (ds ++ [f])) = .error .noent := by
    unfold Machine.stat
    rw [Machine.place_pathOf hds hf]
    have hs : (m.withDirs 0o700 (m.start abs) ds).start abs = m.start abs := rfl
    rw [hs, hw1]
    dsimp only
    have : (m.withDirs 0o700 (m.start abs) ds).tree (m.start abs ++ ds ++ [f]) = none := by
      unfold Machine.withDirs
      dsimp only
      rw [if_neg]
      · exact hnone
      · rintro ⟨_, h2, _⟩
        have := h2.length_le
        simp only [List.length_append, List.length_singleton] at this
        omega
    rw [this]
  have hsd : IsDir m.tree (m.start abs) := by
    unfold Machine.start
    split
    · exact h.root
    · exact h.cwd
  by_cases hne : ds = []
  · subst hne
    have : m.withDirs 0o700 (m.start abs) [] = m := by
      unfold Machine.withDirs
      have : m.tree = fun k => if m.start abs <+: k ∧ k <+: m.start abs ++ [] ∧ m.tree k = none then
          some (.dir (m.perm 0o700)) else m.tree k := by
        funext k
        rw [if_neg]
        rintro ⟨h1, h2, h3⟩
        rw [List.append_nil] at h2
        rw [← h1.eq_of_length (Nat.le_antisymm h1.length_le h2.length_le)] at h3
        obtain ⟨mode, hm⟩ := hsd
        rw [hm] at h3; cases h3
      rw [← this]
    rw [this]
  · have h1 := mkdirAll_names h (perm := 0o700) (abs := abs) (pathOf abs ds).length hne (length_pathOf hds) hds hno
    have hdir : ∃ mode, (m.withDirs 0o700 (m.start abs) ds).stat (pathOf abs ds) = .ok (.dir mode) := by
      rcases List.eq_nil_or_concat ds with rfl | ⟨ds', d, rfl⟩
      · exact absurd rfl hne
      rw [List.concat_eq_append] at *
      have hd : PlainPart d := hds d (by simp)
      have hds' : ∀ c ∈ ds', PlainPart c := fun c hc => hds c (by simp [hc])
      have hw2 : walk (m.withDirs 0o700 (m.start abs) (ds' ++ [d])).tree (m.start abs) ds' = .ok (m.start abs ++ ds') :=
        walk_names hds' (fun pre hp _ => withDirs_isDir (hp.trans (List.prefix_append _ _)) hno)
      obtain ⟨mode, hm⟩ := withDirs_isDir (m := m) (perm := 0o700) (List.prefix_refl _) hno
      refine ⟨mode, ?_⟩
      unfold Machine.stat
      rw [Machine.place_pathOf hds' hd]
      have hs : (m.withDirs 0o700 (m.start abs) (ds' ++ [d])).start abs = m.start abs := rfl
      rw [hs, hw2]
      dsimp only
      rw [List.append_assoc, hm]
    obtain ⟨mode, hdir⟩ := hdir
    have h2 := mkdirAll_there (perm := 0o700) (List.length_pos_iff.2 (pathOf_ne_nil (abs := abs) hne hds)) hdir
    unfold newDatabaseOn Database.openFileOn
    rw [hst, hmk, hstat, hstat1, pathDir_pathOf hne hds hf, h1, h2]
    rfl

theorem withDirs_ok {m : Machine} (h : m.Ok) {perm : Nat} {abs : Bool} {ds : List GoString}
    (hno : ∀ pre, pre <+: ds → ∀ mode b, m.tree (m.start abs ++ pre) ≠ some (.file mode b)) :
    (m.withDirs perm (m.start abs) ds).Ok where
  root := by
    obtain ⟨mode, hm⟩ := h.root
    exact ⟨mode, by unfold Machine.withDirs; dsimp only; rw [if_neg (by rw [hm]; simp), hm]⟩
  cwd := by
    obtain ⟨mode, hm⟩ := h.cwd
    exact ⟨mode, by unfold Machine.withDirs; dsimp only; rw [if_neg (by rw [hm]; simp), hm]⟩
  up k c e he := by
    have old : ∀ x, IsDir m.tree x → IsDir (m.withDirs perm (m.start abs) ds).tree x := by
      rintro x ⟨mode, hm⟩
      exact ⟨mode, by unfold Machine.withDirs; dsimp only; rw [if_neg (by rw [hm]; simp), hm]⟩
    have hsd : IsDir m.tree (m.start abs) := by
      unfold Machine.start
      split
      · exact h.root
      · exact h.cwd
    unfold Machine.withDirs at he
    dsimp only at he
    split at he
    · rename_i hc
      obtain ⟨h1, h2, h3⟩ := hc
      rw [prefix_concat] at h1
      rcases h1 with h1 | ⟨x, rfl⟩
      · rw [← h1] at h3
        obtain ⟨mode, hm⟩ := hsd
        rw [hm] at h3; cases h3
      · rw [List.append_assoc, List.prefix_append_right_inj] at h2
        exact withDirs_isDir ((List.prefix_append _ _).trans h2) hno
    · exact old k (h.up k c e he)

/-- A new database where nothing is, directories included. -/
theorem newDatabaseOn_new {m : Machine} (h : m.Ok) {abs : Bool} {ds : List GoString} {f : GoString} (hds : ∀ c ∈ ds, PlainPart c)
    (hf : PlainPart f) (hno : ∀ pre, pre <+: ds → ∀ mode b, m.tree (m.start abs ++ pre) ≠ some (.file mode b))
    (hnone : m.tree (m.start abs ++ ds ++ [f]) = none) {nd : Nondet} (hst : nd.statErr = false) (hmk : nd.mkdirErr = false)
    (hio : nd.io = .ok) :
    ∃ db, newDatabaseOn nd m (pathOf abs (ds ++ [f])) =
        (.ok db, (m.withDirs 0o700 (m.start abs) ds).setFile (m.start abs ++ ds ++ [f]) (marshalDB db.toDBData)) ∧
      db.users = [] ∧ db.path = pathOf abs (ds ++ [f]) := by
  have ok1 := withDirs_ok h (perm := 0o700) hno
  have hw1 : walk (m.withDirs 0o700 (m.start abs) ds).tree (m.start abs) ds = .ok (m.start abs ++ ds) :=
    walk_names hds (fun pre hp _ => withDirs_isDir hp hno)
  have hpl : (m.withDirs 0o700 (m.start abs) ds).place (pathOf abs (ds ++ [f])) = .ok (m.start abs ++ ds ++ [f]) := by
    rw [Machine.place_pathOf hds hf]
    have hs : (m.withDirs 0o700 (m.start abs) ds).start abs = m.start abs := rfl
    rw [hs, hw1]
  have htree : (m.withDirs 0o700 (m.start abs) ds).tree (m.start abs ++ ds ++ [f]) = none := by
    unfold Machine.withDirs
    dsimp only
    rw [if_neg]
    · exact hnone
    · rintro ⟨_, h2, _⟩
      have := h2.length_le
      simp only [List.length_append, List.length_singleton] at this
      omega
  have hv := Machine.view_of_place hpl
  rw [htree] at hv
  dsimp only at hv
  have hne : pathOf abs (ds ++ [f]) ≠ [] := Machine.place_ne_nil hpl
  rw [newDatabaseOn_dirs h hds hf hno hnone hst hmk, newDatabaseOn_place ok1 hpl]
  generalize m.withDirs 0o700 (m.start abs) ds = m1 at *
  generalize pathOf abs (ds ++ [f]) = fp at *
  have hopen : newDatabase nd m1.view fp =
      (.ok (({ Database.empty fp with version := Ext.appVersion, policy := (enforceDefaultPolicy ({ Database.empty fp with version := Ext.appVersion } : Database).policy).1 } : Database).touch nd.commitTime),
        upd m1.view fp (some (.file (marshalDB (({ Database.empty fp with version := Ext.appVersion, policy := (enforceDefaultPolicy ({ Database.empty fp with version := Ext.appVersion } : Database).policy).1 } : Database).touch nd.commitTime).toDBData)))) := by
    have hcom : ∀ d : Database, d.path = fp → d.commit nd m1.view =
        (d.touch nd.commitTime, upd m1.view fp (some (.file (marshalDB (d.touch nd.commitTime).toDBData))), none) := by
      intro d hd
      unfold Database.commit writeFile
      dsimp only
      rw [hd, hio, if_neg (show ¬ (fp = [] ∨ m1.view fp = some Node.dir) by rw [hv]; simp [hne])]
      subst hd
      rfl
    unfold newDatabase Database.openFile
    rw [hst, hmk, hv]
    simp only [Bool.false_eq_true, if_false]
    rw [hcom _ rfl]
    rfl
  obtain ⟨d, hd, hu, hpd⟩ : ∃ d, newDatabase nd m1.view fp = (.ok d, upd m1.view fp (some (.file (marshalDB d.toDBData)))) ∧
      d.users = [] ∧ d.path = fp := ⟨_, hopen, rfl, rfl⟩
  rw [hd]
  refine ⟨d, ?_, hu, hpd⟩
  simp [upd, Machine.follow]

/-- A file in the way of the directories: nothing is made. -/
theorem newDatabaseOn_file {m : Machine} (h : m.Ok) {abs : Bool} {ds pre : List GoString} {f : GoString} (hds : ∀ c ∈ ds, PlainPart c)
    (hf : PlainPart f) {mode : Nat} {b : GoString} (hp : pre <+: ds) (hfile : m.tree (m.start abs ++ pre) = some (.file mode b))
    (nd : Nondet) : ∃ e, newDatabaseOn nd m (pathOf abs (ds ++ [f])) = (.err e, m) := by
  have hne : pre ≠ [] := by
    rintro rfl
    have hsd : IsDir m.tree (m.start abs) := by
      unfold Machine.start
      split
      · exact h.root
      · exact h.cwd
    obtain ⟨mode', hm⟩ := hsd
    rw [List.append_nil, hm] at hfile
    cases hfile
  have hst : m.stat (pathOf abs (ds ++ [f])) = .error .notdir := by
    unfold Machine.stat
    rw [Machine.place_pathOf hds hf, walk_file h hds hp hne hfile]
  unfold newDatabaseOn Database.openFileOn
  by_cases hs : nd.statErr = true
  · rw [if_pos hs]; exact ⟨_, rfl⟩
  · rw [if_neg hs, hst]; exact ⟨_, rfl⟩

theorem openFile_fs (nd : Nondet) (fs : FS) (fp : GoString) : (Database.openFile nd fs fp).2 = fs ∨
    ∃ data, (Database.openFile nd fs fp).2 = (writeFile fs fp data nd.io).1 := by
  have com : ∀ db : Database, db.path = fp → ∃ data,
      (match db.commit nd fs with
        | (_, fs, some e) => ((.err (.withE .newDatabase [fp] e), fs) : Res Database × FS)
        | (db, fs, none) => (.ok db, fs)).2 = (writeFile fs fp data nd.io).1 := by
    intro db hdb
    refine ⟨marshalDB (db.touch nd.commitTime).toDBData, ?_⟩
    have h : db.commit nd fs =
        match writeFile fs db.path (marshalDB (db.touch nd.commitTime).toDBData) nd.io with
        | (fs, none) => (db.touch nd.commitTime, fs, none)
        | (fs, some e) => (db.touch nd.commitTime, fs, some (.withE .databaseCommit [db.path] e)) := rfl
    rw [h, hdb]
    rcases writeFile fs fp (marshalDB (db.touch nd.commitTime).toDBData) nd.io with ⟨fs', _ | e⟩ <;> rfl
  unfold Database.openFile
  split
  · exact .inl rfl
  · split
    · split
      · exact .inl rfl
      · exact .inr (com _ rfl)
    · exact .inl rfl
    · split
      · exact .inl rfl
      · exact .inl rfl
      · split
        · exact .inl rfl
        · exact .inl rfl
        · dsimp only
          split
          · exact .inr (com _ rfl)
          · exact .inl rfl

theorem newDatabase_fs (nd : Nondet) (fs : FS) (fp : GoString) : (newDatabase nd fs fp).2 = fs ∨
    ∃ data, (newDatabase nd fs fp).2 = (writeFile fs fp data nd.io).1 := by
  have h : (newDatabase nd fs fp).2 = (Database.openFile nd fs fp).2 := by
    unfold newDatabase
    split <;> rename_i h <;> rw [h]
  rw [h]
  exact openFile_fs nd fs fp

/-- What is written by path is what is then seen by path. -/
theorem view_follow {m : Machine} {p : GoString} {k : Place} (hp : m.place p = .ok k) (data : GoString) (io : WriteOutcome) :
    (m.follow k ((writeFile m.view p data io).1 p)).view p = (writeFile m.view p data io).1 p := by
  have hv := Machine.view_of_place hp
  have hne := Machine.place_ne_nil hp
  by_cases hd : m.view p = some .dir
  · have : (writeFile m.view p data io).1 = m.view := by unfold writeFile; rw [if_pos (.inr hd)]
    rw [this, Machine.follow_view hp]
  · have hk : ¬ IsDir m.tree k := by
      rintro ⟨mode, hm⟩
      rw [hm] at hv
      exact hd hv
    unfold writeFile
    rw [if_neg (by simp [hne, hd])]
    cases io with
    | ok => simp only [upd_same]; exact Machine.view_setFile_hit hk _ hp
    | openErr => dsimp only; rw [Machine.follow_view hp]
    | writeErr n => simp only [upd_same]; exact Machine.view_setFile_hit hk _ hp

/-! ## A slash at the end -/

theorem place_slash {m : Machine} {abs : Bool} {ds : List GoString} (hne : ds ≠ []) (hds : ∀ c ∈ ds, PlainPart c) :
    m.place (pathOf abs ds ++ [47]) = walk m.tree (m.start abs) ds := by
  have hp := pathOf_ne_nil (abs := abs) hne hds
  have hh : (pathOf abs ds ++ [47]).head? = (pathOf abs ds).head? := by
    cases h : pathOf abs ds with
    | nil => exact absurd h hp
    | cons b l => rfl
  have hs : splitByte 47 (pathOf abs ds ++ [47]) = (if abs then [[]] else []) ++ ds ++ [[]] := by
    have := splitByte_join 47 (pathOf abs ds) []
    rw [List.append_nil] at this
    rw [this, pathOf_split hne hds]
    rfl
  have hbase : (if (pathOf abs ds).head? = some 47 then [] else m.cwd) = m.start abs := by
    unfold Machine.start
    have := pathOf_head (abs := abs) hds
    by_cases h : abs = true
    · rw [if_pos (this.2 h), if_pos h]
    · rw [if_neg (fun x => h (this.1 x)), if_neg h]
  have hw : walk m.tree (m.start abs) ((if abs then [[]] else []) ++ ds) = walk m.tree (m.start abs) ds := by
    cases abs with
    | true => rw [if_pos rfl, List.singleton_append, walk, if_pos (.inl rfl)]
    | false => rfl
  unfold Machine.place
  rw [if_neg (by simp), hh, hs, hbase, List.dropLast_concat, hw]
  cases walk m.tree (m.start abs) ds with
  | error e => rfl
  | ok cur =>
    dsimp only
    rw [List.getLastD_eq_getLast?, List.getLast?_concat]
    rfl

/-- A path with a slash at its end: the directory is made and then cannot be written to. -/
theorem newDatabaseOn_slash {m : Machine} (h : m.Ok) {abs : Bool} {ds : List GoString} (hne : ds ≠ []) (hds : ∀ c ∈ ds, PlainPart c)
    (hno : ∀ pre, pre <+: ds → ∀ mode b, m.tree (m.start abs ++ pre) ≠ some (.file mode b))
    (hnone : m.tree (m.start abs ++ ds) = none) {nd : Nondet} (hst : nd.statErr = false) (hmk : nd.mkdirErr = false) :
    ∃ e, newDatabaseOn nd m (pathOf abs ds ++ [47]) = (.err e, m.withDirs 0o700 (m.start abs) ds) := by
  have hsd : IsDir m.tree (m.start abs) := by
    unfold Machine.start
    split
    · exact h.root
    · exact h.cwd
  have hstat : m.stat (pathOf abs ds ++ [47]) = .error .noent := by
    unfold Machine.stat
    rw [place_slash hne hds]
    rcases walk_no_file hds hno with hw | hw <;> rw [hw] <;> dsimp only
    rw [hnone]
  have hdir : pathDir (pathOf abs ds ++ [47]) = pathOf abs ds := by
    unfold pathDir
    have := dirPart_some (a := pathOf abs ds) (f := []) (by simp)
    rw [List.append_nil] at this
    rw [this, pathClean_slash hne hds]
  have h1 := mkdirAll_names h (perm := 0o700) (abs := abs) (pathOf abs ds).length hne (length_pathOf hds) hds hno
  obtain ⟨mode, hm⟩ := withDirs_isDir (m := m) (perm := 0o700) (List.prefix_refl ds) hno
  have hpl : (m.withDirs 0o700 (m.start abs) ds).place (pathOf abs ds ++ [47]) = .ok (m.start abs ++ ds) := by
    rw [place_slash hne hds]
    exact walk_names hds (fun pre hp _ => withDirs_isDir hp hno)
  have hcom : ∀ db : Database, db.path = pathOf abs ds ++ [47] → ∃ db' e,
      db.commitOn nd (m.withDirs 0o700 (m.start abs) ds) = (db', m.withDirs 0o700 (m.start abs) ds, some e) := by
    intro db hdb
    unfold Database.commitOn Machine.writeFile
    dsimp only
    rw [hdb, hpl]
    dsimp only
    rw [hm]
    exact ⟨_, _, rfl⟩
  obtain ⟨db', e, he⟩ := hcom { Database.empty (pathOf abs ds ++ [47]) with version := Ext.appVersion, policy := (enforceDefaultPolicy ({ Database.empty (pathOf abs ds ++ [47]) with version := Ext.appVersion } : Database).policy).1 } rfl
  refine ⟨.withE .newDatabase [pathOf abs ds ++ [47]] e, ?_⟩
  unfold newDatabaseOn Database.openFileOn
  rw [hst, hmk, hstat, hdir, h1]
  simp only [Bool.false_eq_true, if_false]
  rw [he]

end GoIdentity
