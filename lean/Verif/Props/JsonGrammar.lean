import Verif.Lemmas.JsonGrammar
import Verif.Lemmas.Codec
import Verif.Props.Opening
import Verif.Spec.Toy
/-!
# The database file as a JSON text: C77
-/
namespace GoIdentity
open Toy JsonGrammar

/-- C77: the decoder reads a text as the value `j` exactly if the JSON grammar says the text denotes `j` and no more than
10000 arrays and objects are nested. -/
theorem C77_accepts_iff_grammar {s : GoString} {j : Json} : parseDoc s = some j ↔ Doc j s ∧ Nests 10000 j := parseDoc_iff

/-- C77: a text denotes at most one value. -/
theorem C77_unambiguous {s : GoString} {j j' : Json} (h : Doc j s) (h' : Doc j' s) : j = j' := by
  have := parseText_iff.2 h
  rw [parseText_iff.2 h'] at this
  exact (Option.some.inj this).symm

/-- C77: white space around a document is immaterial. -/
theorem C77_surrounding_space {s w w' : GoString} {j : Json} (hw : Ws w) (hw' : Ws w') : Doc j s → Doc j (w ++ s ++ w') := by
  rintro ⟨v, t, v', hv, ht, hv', rfl⟩
  exact ⟨w ++ v, t, v' ++ w', ws_append hw hv, ht, ws_append hv' hw', by simp⟩

/-- C77: a file is opened only if it holds a JSON text nested at most 10000 deep. -/
theorem C77_opened_is_json [Ext] {nd : Nondet} {fs fs' : FS} {fp b : GoString} {db : Database} (hf : fs fp = some (.file b))
    (hp : fp.head? ≠ some 126) (hne : fp ≠ []) (h : newDatabase nd fs fp = (.ok db, fs')) :
    ∃ j, Doc j b ∧ Nests 10000 j := by
  by_cases hd : ∃ j, Doc j b ∧ Nests 10000 j
  · exact hd
  · exfalso
    have hn : parseDoc b = none := by
      cases hp : parseDoc b with
      | none => rfl
      | some j => exact absurd ⟨j, parseDoc_iff.1 hp⟩ hd
    obtain ⟨e, he⟩ := C50_undecodable_rejected (nd := nd) (e := .ext (gs! "json")) hf hp hne
      (by unfold unmarshalDB; rw [hn])
    rw [he] at h
    simp at h

/-- C77: anything else is rejected and left as it is: a file that is not JSON, or is nested too deep. -/
theorem C77_not_json_rejected [Ext] {nd : Nondet} {fs : FS} {fp b : GoString} (hf : fs fp = some (.file b))
    (hp : fp.head? ≠ some 126) (hne : fp ≠ []) (hb : ∀ j, Doc j b → ¬ Nests 10000 j) :
    ∃ e, newDatabase nd fs fp = (.err e, fs) := by
  refine C50_undecodable_rejected (e := .ext (gs! "json")) hf hp hne ?_
  unfold unmarshalDB
  cases hq : parseDoc b with
  | none => rfl
  | some j => exact absurd (parseDoc_iff.1 hq).2 (hb j (parseDoc_iff.1 hq).1)

/-- C77: two files whose texts denote the same value (spaced, indented or escaped differently, say) decode alike. -/
theorem C77_same_value_same_database {b b' : GoString} {j : Json} (h : Doc j b) (h' : Doc j b') :
    unmarshalDB b = unmarshalDB b' := by
  have hp : parseDoc b = parseDoc b' := by
    unfold parseDoc
    rw [parseText_iff.2 h, parseText_iff.2 h']
  unfold unmarshalDB
  rw [hp]

/-- C77: every document a commit writes is a JSON text, nested at most six deep, whatever bytes the database's strings are
made of. -/
theorem C77_written_is_json (d : DBData) : ∃ m, Doc (.obj m) (marshalDB d) ∧ Nests 6 (.obj m) := by
  have h6 := db_depth d
  have := parseDoc_render (j := encStruct dbFields d) (encStruct_ints ints_db d) (by omega)
  rw [← Json.clean_depth] at h6
  unfold encStruct at this h6
  rw [Json.clean] at this h6
  exact ⟨_, (parseDoc_iff.1 this).1, nests_iff.2 h6⟩

/-- C77: a member of the top-level object whose name is not, up to letter case, one of the five that are stored, has no
effect on what is read, unless it is nested too deep. -/
theorem C77_unknown_member_ignored {m m' : List (GoString × Json)} {k b b' : GoString} {v : Json}
    (hb : Doc (.obj (m ++ (k, v) :: m')) b) (hb' : Doc (.obj (m ++ m')) b')
    (hk : foldKey k ∉ [gs! "version", gs! "policy", gs! "revision", gs! "last_modified", gs! "users"])
    (hv : Nests 9999 v) : unmarshalDB b = unmarshalDB b' := by
  have hnone : findField dbFields k = none := by
    simp only [List.mem_cons, List.not_mem_nil, or_false, not_or] at hk
    obtain ⟨h1, h2, h3, h4, h5⟩ := hk
    have hfold : dbFields.find? (fun f => foldKey f.name == foldKey k) = none := by
      rw [List.find?_eq_none]
      intro f hf
      simp only [dbFields, List.mem_cons, List.not_mem_nil, or_false] at hf
      rcases hf with rfl | rfl | rfl | rfl | rfl <;> simp only [fStr, fStruct, fUint, fTime, fList, beq_iff_eq] <;> intro hc
      · exact h1 (hc.symm.trans (by decide))
      · exact h2 (hc.symm.trans (by decide))
      · exact h3 (hc.symm.trans (by decide))
      · exact h4 (hc.symm.trans (by decide))
      · exact h5 (hc.symm.trans (by decide))
    have hexact : dbFields.find? (fun f => f.name == k) = none := by
      rw [List.find?_eq_none] at hfold ⊢
      intro f hf hc
      apply hfold f hf
      rw [beq_iff_eq] at hc
      simp [hc]
    unfold findField
    rw [hexact]
    exact hfold
  have hdec : ∀ (m : List (GoString × Json)) (s : DBData),
      decMembers dbFields (m ++ (k, v) :: m') s = decMembers dbFields (m ++ m') s := by
    intro m
    induction m with
    | nil =>
      intro s
      rw [List.nil_append, List.nil_append, decMembers, hnone]
    | cons x m ih =>
      intro s
      obtain ⟨k', v'⟩ := x
      rw [List.cons_append, List.cons_append, decMembers, decMembers]
      cases findField dbFields k' with
      | none => exact ih s
      | some f =>
        dsimp only
        cases f.dec v' s with
        | ok s' => exact ih s'
        | err e => rfl
        | panic => rfl
  have hdepth : (Json.obj (m ++ (k, v) :: m')).depth ≤ 10000 ↔ (Json.obj (m ++ m')).depth ≤ 10000 := by
    have hv := nests_iff.1 hv
    rw [Json.depth, Json.depth, Nat.succ_le_succ_iff, Nat.succ_le_succ_iff, depthMembers_le, depthMembers_le]
    simp only [List.mem_append, List.mem_cons]
    constructor
    · intro h kv hkv
      exact h kv (hkv.imp id .inr)
    · rintro h kv (hkv | rfl | hkv)
      · exact h kv (.inl hkv)
      · exact hv
      · exact h kv (.inr hkv)
  unfold unmarshalDB parseDoc
  rw [parseText_iff.2 hb, parseText_iff.2 hb']
  dsimp only
  by_cases hd : (Json.obj (m ++ m')).depth ≤ 10000
  · rw [if_pos hd, if_pos (hdepth.2 hd)]
    exact hdec m _
  · rw [if_neg hd, if_neg (fun h => hd (hdepth.1 h))]

/-- `n + 1` arrays in one another. -/
def nested : Nat → Json
  | 0 => .arr []
  | n + 1 => .arr [nested n]

/-- C77: the limit is met exactly: `n` opening and `n` closing brackets are a JSON text for every positive `n`, and are read
exactly if `n` is at most 10000. -/
theorem C77_depth_limit (n : Nat) :
    Doc (nested n) (List.replicate (n + 1) 0x5B ++ List.replicate (n + 1) 0x5D) ∧
    (parseDoc (List.replicate (n + 1) 0x5B ++ List.replicate (n + 1) 0x5D) = some (nested n) ↔ n + 1 ≤ 10000) := by
  have hws : Ws [] := by simp [Ws]
  have hval : ∀ n, Value (nested n) (List.replicate (n + 1) 0x5B ++ List.replicate (n + 1) 0x5D) := by
    intro n
    induction n with
    | zero => exact .emptyArr (w := []) hws
    | succ n ih =>
      have := Value.arr (Elems.one hws ih hws)
      have e : List.replicate (n + 1 + 1) (0x5B : UInt8) ++ List.replicate (n + 1 + 1) 0x5D =
          0x5B :: ([] ++ (List.replicate (n + 1) 0x5B ++ List.replicate (n + 1) 0x5D) ++ [] ++ [0x5D]) := by
        rw [List.replicate_succ (n := n + 1), List.replicate_succ' (n := n + 1)]
        simp
      rw [e]
      exact this
  have hdoc : Doc (nested n) (List.replicate (n + 1) 0x5B ++ List.replicate (n + 1) 0x5D) :=
    ⟨[], _, [], hws, hval n, hws, by simp⟩
  have hdepth : ∀ n, (nested n).depth = n + 1 := by
    intro n
    induction n with
    | zero => rfl
    | succ n ih => rw [nested, Json.depth, Json.depthElems, Json.depthElems, ih]; simp
  refine ⟨hdoc, ?_⟩
  rw [C77_accepts_iff_grammar, nests_iff, hdepth]
  exact ⟨fun h => h.2, fun h => ⟨hdoc, h⟩⟩

/-- One line of text, in other letters and with an escape, denotes an object with two members. -/
example : Doc (.obj [(gs! "Version", .str (gs! "1.0")), (gs! "x", .arr [.num (gs! "-1.5e3"), .null])])
    (gs! " {\"Version\" : \"\\u0031.0\",\n \"x\":[-1.5e3 , null]} ") :=
  (C77_accepts_iff_grammar.1 (by rfl)).1

/-- The member `x` is ignored and `Version` is read as `version`. -/
example : unmarshalDB (gs! " {\"Version\" : \"\\u0031.0\",\n \"x\":[-1.5e3 , null]} ") =
    .ok { DBData.zero with version := gs! "1.0" } := by rfl

/-- Texts that are nearly JSON: a trailing comma, a leading zero, a bare tab in a string, a second value. -/
example : (∀ j, ¬ Doc j (gs! "{\"a\":1,}")) ∧ (∀ j, ¬ Doc j (gs! "[01]")) ∧ (∀ j, ¬ Doc j (gs! "\"\t\"")) ∧
    (∀ j, ¬ Doc j (gs! "{} {}")) ∧ (∀ j, ¬ Doc j []) := by
  refine ⟨?_, ?_, ?_, ?_, ?_⟩ <;> intro j h <;> exact absurd (parseText_iff.2 h) (by intro h; cases h)

/-- A file with a trailing comma is not opened. -/
example : ∃ e, newDatabase nd (upd fs2 path (some (.file (gs! "{\"a\":1,}")))) path =
    (.err e, upd fs2 path (some (.file (gs! "{\"a\":1,}")))) :=
  C77_not_json_rejected (upd_same ..) (by decide) (by decide)
    (fun _ h => absurd (parseText_iff.2 h) (by intro h; cases h))

/-- The file that holds Joe's account is opened, so it is JSON. -/
example : ∃ b j, fs2 path = some (.file b) ∧ Doc j b := by
  have k1 : ∀ r : Res Database × FS, (match r with | (.ok _, _) => true | _ => false) = true → ∃ db fs', r = (.ok db, fs') := by
    rintro ⟨r, fs'⟩ h
    cases r with
    | ok db => exact ⟨db, fs', rfl⟩
    | err e => simp at h
    | panic => simp at h
  have k2 : ∀ r : Option Node, (match r with | some (.file _) => true | _ => false) = true → ∃ b, r = some (.file b) := by
    intro r h
    match r, h with
    | some (.file b), _ => exact ⟨b, rfl⟩
  obtain ⟨db, fs', h⟩ := k1 (newDatabase nd fs2 path) (by decide +kernel)
  obtain ⟨b, hb⟩ := k2 (fs2 path) (by decide +kernel)
  obtain ⟨j, hj⟩ := C77_opened_is_json hb (by decide) (by decide) h
  exact ⟨b, j, hb, hj.1⟩

end GoIdentity
