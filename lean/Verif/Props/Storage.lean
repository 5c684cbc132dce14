import Verif.Lemmas.Shape
import Verif.Props.Opening
import Verif.Spec.Toy
/-!
# Storage: C45, C46, C47
-/
namespace GoIdentity
open Toy

/-! ## C46 -/

/-- C46: what the encoder writes, the decoder reads back, for every database value whose strings are valid UTF-8, whose
integers fit 64 bits and whose times have four-digit years. -/
theorem C46_decode_encode {d : DBData} (h : d.Ok) : unmarshalDB (marshalDB d) = .ok d := unmarshal_marshal h

/-- C46: the encoding is injective on such values, so no two different databases are stored as the same bytes. -/
theorem C46_encode_injective {d d' : DBData} (h : d.Ok) (h' : d'.Ok) (he : marshalDB d = marshalDB d') : d = d' := by
  have := unmarshal_marshal h
  rw [he, unmarshal_marshal h'] at this
  exact (Res.ok.inj this).symm

/-- C46: whatever the decoder accepts, from whatever source, survives being written and read again; so a second round trip
never changes anything, even after invalid UTF-8 or repeated members. -/
theorem C46_stable {b : GoString} {d : DBData} (h : unmarshalDB b = .ok d) : unmarshalDB (marshalDB d) = .ok d :=
  unmarshal_marshal (unmarshal_ok h)

/-- C46: after a successful mutating call the file written holds the database as it is in memory. -/
theorem C46_commit [Ext] {c : Call} {nd : Nondet} {db : Database} {fs : FS} {req : Request} (hm : c.mutates = true)
    (hs : (exec c nd db fs req).Succeeded) (hok : (exec c nd db fs req).db.toDBData.Ok) :
    ∃ b, (exec c nd db fs req).fs (c.target db) = some (.file b) ∧
      unmarshalDB b = .ok (exec c nd db fs req).db.toDBData := by
  obtain ⟨db', m, h⟩ := exec_success hm hs
  cases hw : (writeFile fs (c.target db) (marshalDB (db'.touch nd.commitTime).toDBData) nd.io).2 with
  | some e =>
    obtain ⟨e', h1, _⟩ := h.out_err e hw
    rw [Result.Succeeded, h1] at hs
    cases hs
  | none =>
    obtain ⟨_, _, _, h1⟩ := writeFile_none hw
    refine ⟨marshalDB (db'.touch nd.commitTime).toDBData, by rw [h.fs_eq, h1, upd_same], ?_⟩
    rw [h.db_eq] at hok ⊢
    exact unmarshal_marshal hok

/-- A value with escapes, control characters, multi-byte characters, omitted fields, nested structures and maps. -/
def sampleData : DBData :=
  { version := gs! "1.0 \"q\" \\ \n\t<&>\u0001é€😀 "
    policy := { defaultPolicy with password := { defaultPolicy.password with keepVersions := -5, blockReuse := true } }
    revision := 2 ^ 64 - 1
    lastModified := ⟨2024, 2, 29, 23, 59, 59, 120000000, -330⟩
    users := [{ User.zero with
      id := List.replicate 36 97, username := gs! "jsmith"
      name := some ⟨gs! "J\\", gs! "", gs! "ß", gs! "", true, false, true, false, true⟩
      organizations := [⟨7, gs! "acme", [gs! "", gs! "a"]⟩]
      passwords := [⟨gs! "generic", gs! "bcrypt", gs! "$2a$10$", 10, false, .zero, ⟨9999, 12, 31, 0, 0, 0, 1, 840⟩, true, .zero⟩]
      mfaTokens := [{ MfaToken.zero with
        id := gs! "x", parameters := [(gs! "a", gs! "\u0000"), (gs! "b", gs! "")], flags := [(gs! "UP", true), (gs! "UV", false)]
        device := some ⟨[], gs! "v", []⟩, signatureCounter := 4294967295 }]
      avatar := some ⟨[], [], -1, 2 ^ 63 - 1, gs! "/p"⟩
      roles := [⟨gs! "admin", []⟩] }] }

example : unmarshalDB (marshalDB sampleData) = .ok sampleData := by decide +kernel

/-- Invalid UTF-8 is replaced and does not survive. -/
example : unmarshalDB (marshalDB { DBData.zero with version := [255] }) =
    .ok { DBData.zero with version := gs! "�" } := by decide +kernel

/-! ## C47 -/

/-- C47: a file that holds a strict prefix of a document a commit writes is rejected, and left as it is. -/
theorem C47_prefix_rejected [Ext] {nd : Nondet} {fs : FS} {fp p q : GoString} {d : DBData}
    (hf : fs fp = some (.file p)) (hd : marshalDB d = p ++ q) (hq : q ≠ []) (hp : fp.head? ≠ some 126) (hne : fp ≠ []) :
    ∃ e, newDatabase nd fs fp = (.err e, fs) :=
  C50_undecodable_rejected hf hp hne (unmarshal_prefix d hd hq)

/-- C47: a call that is stopped after writing `n` bytes has either not touched any file, or written to its target the first
`n` bytes of the new document and nothing else; unless that is all of it, the file can no longer be opened. -/
theorem C47_interrupted_commit [Ext] {c : Call} {nd : Nondet} {db : Database} {fs : FS} {req : Request} {n : Nat}
    (hio : nd.io = .writeErr n) :
    (exec c nd db fs req).fs = fs ∨
    ((exec c nd db fs req).fs = upd fs (c.target db) (some (.file ((marshalDB (exec c nd db fs req).db.toDBData).take n))) ∧
      (n < (marshalDB (exec c nd db fs req).db.toDBData).length → (c.target db).head? ≠ some 126 → ∀ nd',
        ∃ e, newDatabase nd' (exec c nd db fs req).fs (c.target db) = (.err e, (exec c nd db fs req).fs))) := by
  rcases exec_spec c nd db fs req with h | ⟨db', m, h⟩
  · exact .inl h.fs_eq
  · by_cases hp : c.target db = [] ∨ fs (c.target db) = some .dir
    · left
      rw [h.fs_eq]
      unfold writeFile
      rw [if_pos hp]
    · right
      have hfs : (exec c nd db fs req).fs =
          upd fs (c.target db) (some (.file ((marshalDB (exec c nd db fs req).db.toDBData).take n))) := by
        rw [h.fs_eq, h.db_eq]
        unfold writeFile
        rw [if_neg hp, hio]
      refine ⟨hfs, fun hn hp' nd' => ?_⟩
      rw [not_or] at hp
      refine C47_prefix_rejected (p := (marshalDB (exec c nd db fs req).db.toDBData).take n)
        (q := (marshalDB (exec c nd db fs req).db.toDBData).drop n) (d := (exec c nd db fs req).db.toDBData) ?_
        (List.take_append_drop ..).symm ?_ hp' hp.1
      · rw [hfs, upd_same]
      · intro hc
        have := List.drop_eq_nil_iff.1 hc
        omega

/-- Stopping `AddUser` after 700 bytes loses the file, with Joe's account in it. -/
example : let r := exec .addUser { nd2 with io := .writeErr 700 } db1 fs2 reqAnn
    ((r.fs path == some (.file ((marshalDB r.db.toDBData).take 700))) && (r.fs path != fs2 path) &&
      (match newDatabase nd r.fs path with | (.err _, _) => true | _ => false)) = true := by
  decide +kernel

/-! ## C45 -/

theorem enforce_nonzero {p : Policy} (h : ¬ p.HasZero) : enforceDefaultPolicy p = (p, false) := by
  refine Prod.ext ?_ ?_
  · unfold Policy.HasZero at h
    simp only [not_or] at h
    rw [C40_defaults, if_neg h.1, if_neg h.2.1, if_neg h.2.2.1, if_neg h.2.2.2.1, if_neg h.2.2.2.2]
  · rw [← Bool.not_eq_true, C40_reports_change]; exact h

/-- C45 for databases all of whose values can be represented. -/
theorem reopen_representable [Ext] {db : Database} (h : ReachProper db) {c : Call} {nd : Nondet} {fs : FS} {req : Request}
    (hnd : nd.Proper) (hfresh : c = .addUser → ∃ id ∈ nd.ids.take 10, ∀ u ∈ db.users, u.id ≠ id) (hm : c.mutates = true)
    (hs : (exec c nd db fs req).Succeeded) (hp : (c.target db).head? ≠ some 126)
    (hok : (exec c nd db fs req).db.toDBData.Ok) {nd' : Nondet} (hst : nd'.statErr = false) (hrd : nd'.readErr = false) :
    ∃ db', newDatabase nd' (exec c nd db fs req).fs (c.target db) = (.ok db', (exec c nd db fs req).fs) ∧
      db'.toDBData = (exec c nd db fs req).db.toDBData ∧ db'.path = c.target db ∧
      ∀ (c' : Call) (nd'' : Nondet) (fs'' : FS) (req' : Request), c'.mutates = false →
        (exec c' nd'' db' fs'' req').out = (exec c' nd'' (exec c nd db fs req).db fs'' req').out ∧
        (exec c' nd'' db' fs'' req').req = (exec c' nd'' (exec c nd db fs req).db fs'' req').req := by
  have hr : ReachProper (exec c nd db fs req).db := .step h c nd fs req hnd hfresh
  have hreach := fresh_reach hr.fresh
  obtain ⟨db1, m, hc⟩ := exec_success hm hs
  have hw : (writeFile fs (c.target db) (marshalDB (db1.touch nd.commitTime).toDBData) nd.io).2 = none := by
    cases hw : (writeFile fs (c.target db) (marshalDB (db1.touch nd.commitTime).toDBData) nd.io).2 with
    | none => rfl
    | some e =>
      obtain ⟨e', h1, _⟩ := hc.out_err e hw
      rw [Result.Succeeded, h1] at hs
      cases hs
  obtain ⟨hne, _, _, hfs⟩ := writeFile_none hw
  have hf : (exec c nd db fs req).fs (c.target db) = some (.file (marshalDB (exec c nd db fs req).db.toDBData)) := by
    rw [hc.fs_eq, hfs, upd_same, hc.db_eq]
  obtain ⟨db', h1, h2, h3⟩ := reopen hreach (fresh_invID hr.fresh) (proper_ready hr)
    (enforce_nonzero (C40_no_zero_limit hreach)) hok hf hp hne hst hrd
  refine ⟨db', h1, h2, h3, fun c' nd'' fs'' req' hc' => ?_⟩
  exact answers_eq (reach_inv hreach) (newDatabase_inv h1) (congrArg DBData.users h2) hc' nd'' fs'' fs'' req'

/-- C45: after a successful mutating call on a path not starting with `~`, opening the written file succeeds, changes nothing,
and yields the same users, policy, version and revision; and every call that changes nothing gives the same answer on the
new database as on the old one.  All that is needed is that the stored strings are valid UTF-8. -/
theorem C45_reopen [Ext] {db : Database} (h : ReachProper db) {c : Call} {nd : Nondet} {fs : FS} {req : Request}
    (hnd : nd.Proper) (hfresh : c = .addUser → ∃ id ∈ nd.ids.take 10, ∀ u ∈ db.users, u.id ≠ id) (hm : c.mutates = true)
    (hs : (exec c nd db fs req).Succeeded) (hp : (c.target db).head? ≠ some 126)
    (hstr : (exec c nd db fs req).db.toDBData.Strings)
    {nd' : Nondet} (hst : nd'.statErr = false) (hrd : nd'.readErr = false) :
    ∃ db', newDatabase nd' (exec c nd db fs req).fs (c.target db) = (.ok db', (exec c nd db fs req).fs) ∧
      db'.toDBData = (exec c nd db fs req).db.toDBData ∧ db'.path = c.target db ∧
      ∀ (c' : Call) (nd'' : Nondet) (fs'' : FS) (req' : Request), c'.mutates = false →
        (exec c' nd'' db' fs'' req').out = (exec c' nd'' (exec c nd db fs req).db fs'' req').out ∧
        (exec c' nd'' db' fs'' req').req = (exec c' nd'' (exec c nd db fs req).db fs'' req').req :=
  reopen_representable h hnd hfresh hm hs hp
    ((proper_shape (.step h c nd fs req hnd hfresh)).ok_of hstr) hst hrd

/-- C45: if moreover the prefix index holds no stale entries (see C22) and the call was not `Copy`, the reopened database is
the very same value as the one in memory, lookup tables included: from then on no call can tell them apart. -/
theorem C45_reopened_same [Ext] {db : Database} (h : ReachProper db) {c : Call} {nd : Nondet} {fs : FS} {req : Request}
    (hnd : nd.Proper) (hfresh : c = .addUser → ∃ id ∈ nd.ids.take 10, ∀ u ∈ db.users, u.id ≠ id) (hm : c.mutates = true)
    (hs : (exec c nd db fs req).Succeeded) (hp : db.path.head? ≠ some 126) (hc : c.target db = db.path)
    (hstr : (exec c nd db fs req).db.toDBData.Strings)
    (hapi : ∀ p i, (exec c nd db fs req).db.refAPIKey p = some i →
      ∃ u, (exec c nd db fs req).db.users[i]? = some u ∧ ∃ k ∈ u.apiKeys, k.pfx = p)
    {nd' : Nondet} (hst : nd'.statErr = false) (hrd : nd'.readErr = false) :
    newDatabase nd' (exec c nd db fs req).fs db.path = (.ok (exec c nd db fs req).db, (exec c nd db fs req).fs) := by
  obtain ⟨db', h1, h2, h3, _⟩ := C45_reopen h hnd hfresh hm hs (hc ▸ hp) hstr hst hrd
  rw [hc] at h1 h3
  have hr : ReachProper (exec c nd db fs req).db := .step h c nd fs req hnd hfresh
  have hi := reach_inv (fresh_reach hr.fresh)
  have hi' := newDatabase_inv h1
  have hu : db'.users = (exec c nd db fs req).db.users := congrArg DBData.users h2
  have e1 := lookups_eq hi hi' hu
  have e2 := refID_eq hi hi' (fresh_invID hr.fresh) (newDatabase_invID h1) hu
  have e3 := refAPIKey_eq hi hi' hapi (opened_apiExact ⟨_, _, _, _, h1⟩) hu
  have e4 : db'.path = (exec c nd db fs req).db.path := h3.trans (exec_path c nd db fs req).1.symm
  rw [h1]
  congr 2
  generalize (exec c nd db fs req).db = d at *
  cases db'
  cases d
  simp_all

theorem nd_proper : nd.Proper :=
  ⟨fun _ => show (nd.now 0).Ok by constructor <;> decide, by constructor <;> decide, by decide⟩

/-- The history of `db1` is one on a well-behaved runtime. -/
theorem db1_proper : ReachProper db1 :=
  .step (.init nd fs0 path fs1 nd_proper (by rfl)) .addUser nd fs1 reqJoe nd_proper
    (fun _ => ⟨List.replicate 36 98, by decide, by decide +kernel⟩)

/-- Ann is added to a database with Joe, and the file is opened again: all hypotheses of both theorems hold. -/
example : newDatabase nd fs3 path = (.ok db2, fs3) := by
  refine C45_reopened_same (c := .addUser) (nd := nd2) (fs := fs2) (req := reqAnn) db1_proper
    ⟨nd_proper.now, nd_proper.commitTime, by decide⟩ (fun _ => ⟨List.replicate 36 99, by decide, by decide +kernel⟩) rfl
    (by unfold Result.Succeeded; decide +kernel) (by decide +kernel) rfl ?_ ?_ rfl rfl
  · exact (unmarshal_ok (b := marshalDB db2.toDBData) (by decide +kernel)).strings
  · have key : ∀ (d : Database) (ndx : Nondet) (fsx : FS) (rq : Request), ApiExact d → KeyIDsDistinct d →
        ApiExact (exec .addUser ndx d fsx rq).db := by
      intro d ndx fsx rq h1 h2
      rcases exec_spec .addUser ndx d fsx rq with h | ⟨d', m, h⟩
      · rw [h.db_eq]; exact h1
      · rw [h.db_eq]; exact m.apiExact h1 h2
    exact key db1 nd2 fs2 reqAnn
      (key db0 nd fs1 reqJoe (opened_apiExact db0_opened) (by unfold KeyIDsDistinct; decide +kernel))
      (by unfold KeyIDsDistinct; decide +kernel)

/-- Enrolling a token whose secret is not valid UTF-8. -/
def reqBadSecret : Request :=
  { user := reqJoe.user
    mfaToken := { comment := gs! "phone", type := gs! "totp", secret := [200, 255], algorithm := gs! "sha1", period := 30
                  passcode := match generateMfaCode [200, 255] (gs! "sha1") 6 33333331 with | .ok c => c | _ => [] } }

/-- C45, why the condition is needed: a token secret that is not valid UTF-8 is accepted, and the user's codes work until the
database is opened again; then the stored secret is a different one and the same code is refused. -/
theorem C45_invalid_utf8_lost :
    let r := exec .addMfaToken nd db1 fs2 reqBadSecret
    r.Succeeded ∧
    (∀ u ∈ r.db.users, ∀ t ∈ u.mfaTokens, validateCode t reqBadSecret.mfaToken.passcode (nd.unix - 30) = .ok ()) ∧
    ∃ db' fs', newDatabase nd r.fs path = (.ok db', fs') ∧ db'.toDBData ≠ r.db.toDBData ∧
      ∃ u ∈ db'.users, ∃ t ∈ u.mfaTokens, validateCode t reqBadSecret.mfaToken.passcode (nd.unix - 30) ≠ .ok () := by
  refine ⟨by unfold Result.Succeeded; decide +kernel, by decide +kernel, ?_⟩
  have hb : (match newDatabase nd (exec .addMfaToken nd db1 fs2 reqBadSecret).fs path with
      | (.ok db', _) => decide (db'.toDBData ≠ (exec .addMfaToken nd db1 fs2 reqBadSecret).db.toDBData) &&
          db'.users.any fun u => u.mfaTokens.any fun t =>
            decide (validateCode t reqBadSecret.mfaToken.passcode (nd.unix - 30) ≠ .ok ())
      | _ => false) = true := by decide +kernel
  split at hb
  · rename_i db' fs' heq
    simp only [Bool.and_eq_true, decide_eq_true_eq, List.any_eq_true] at hb
    exact ⟨db', fs', heq, hb.1, hb.2⟩
  · cases hb

end GoIdentity
