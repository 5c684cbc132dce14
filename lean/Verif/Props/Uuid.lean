import Verif.Lemmas.Uuid
import Verif.Spec.Toy
/-!
# User identifiers are version 4 UUIDs: C94
-/
namespace GoIdentity
open Toy

/-- C94: `NewID` returns a canonical version 4 UUID, whatever bytes are drawn. -/
theorem C94_shape (r : List UInt8) (h : r.length = 16) : IsV4 (newID r) := newID_v4 h

/-- C94: every version 4 UUID can be drawn. -/
theorem C94_every_uuid (s : GoString) (h : IsV4 s) : ∃ r : List UInt8, r.length = 16 ∧ newID r = s := by
  obtain ⟨r, h1, _, h2⟩ := newID_surj h
  exact ⟨r, h1, h2⟩

/-- C94: two draws give the same identifier exactly if they agree in 122 of their 128 bits: in all bytes but the seventh
and ninth, in the low four bits of the seventh and in the low six bits of the ninth. -/
theorem C94_same_iff (r r' : List UInt8) (h : r.length = 16) (h' : r'.length = 16) : newID r = newID r' ↔
    (∀ i, i ≠ 6 → i ≠ 8 → r[i]? = r'[i]?) ∧ (r.getD 6 0).toNat % 16 = (r'.getD 6 0).toNat % 16 ∧
      (r.getD 8 0).toNat % 64 = (r'.getD 8 0).toNat % 64 := newID_eq_iff h h'

/-- Only the six fixed bits differ. -/
example : newID (List.replicate 16 0xff) = newID ((List.replicate 16 0xff).set 6 0x0f) := by decide +kernel
example : newID (List.replicate 16 0xff) ≠ newID ((List.replicate 16 0xff).set 6 0xf0) := by decide +kernel

/-- C94: in the life of a new database in which no two new accounts' first draws agree in those 122 bits, the accounts have
distinct identifiers, all of them version 4 UUIDs. -/
theorem C94_history [Ext] {db : Database} (h : Created db) (fs : FS) {ops : List Op} {draw : Op → List UInt8}
    (hd : DrawsIDs draw ops)
    (hp : (ops.filter fun o => o.call = .addUser).Pairwise (fun o o' => ¬ SameFree (draw o) (draw o'))) :
    ((run db fs ops).1.users.map (·.id)).Nodup ∧ ∀ u ∈ (run db fs ops).1.users, IsV4 u.id := by
  have hu := created_users h
  obtain ⟨nd, fs₀, fp, fs', _, hn⟩ := h
  obtain ⟨h1, h2⟩ := draws_fresh ops (fs := fs) (.init ⟨nd, fs₀, fp, fs', hn⟩) (by rw [hu]; simp) (by rw [hu]; simp) hd hp
  refine ⟨?_, h2⟩
  have hid := fresh_invID h1
  unfold List.Nodup
  rw [List.pairwise_iff_getElem]
  intro i j hi hj hij hc
  rw [List.length_map] at hi hj
  rw [List.getElem_map, List.getElem_map] at hc
  have e1 := hid i _ (List.getElem?_eq_getElem hi)
  have e2 := hid j _ (List.getElem?_eq_getElem hj)
  rw [hc, e2] at e1
  cases e1
  omega

/-- C94: `getUserByID` finds an account with a version 4 UUID under its identifier in any case, and finds nothing else. -/
theorem C94_by_id [Ext] {db : Database} (h : ReachFresh db) {u : User} {i : Nat} (hi : db.users[i]? = some u) (hu : IsV4 u.id)
    (s : GoString) : db.getUserByID s = some (i, u) ↔ toLower s = toLower u.id := by
  rw [getUserByID_iff (reach_inv (fresh_reach h)) (fresh_invID h), v4_lower hu]
  exact ⟨fun hh => hh.2.symm, fun hh => ⟨hi, hh.symm⟩⟩

/-- Two draws. -/
def drawJoe : List UInt8 := (List.range 16).map UInt8.ofNat
def drawAnn : List UInt8 := List.replicate 16 0xff
/-- Joe's and Ann's registration. -/
def uuidOps : List Op :=
  [⟨.addUser, reqJoe, { nd with ids := [newID drawJoe] }⟩, ⟨.addUser, reqAnn, { nd with ids := [newID drawAnn] }⟩]

example : (run db0 fs1 uuidOps).1.users.map (·.id) =
    [gs! "00010203-0405-4607-8809-0a0b0c0d0e0f", gs! "ffffffff-ffff-4fff-bfff-ffffffffffff"] := by decide +kernel
example : ((run db0 fs1 uuidOps).1.getUserByID (gs! "FFFFFFFF-ffff-4fff-BFFF-ffffffffffff")).map (·.1) = some 1 := by decide +kernel

example : ((run db0 fs1 uuidOps).1.users.map (·.id)).Nodup :=
  (C94_history db0_created fs1 (draw := fun o => if o.req.user.username = gs! "Joe" then drawJoe else drawAnn)
    (by unfold DrawsIDs uuidOps; simp only [List.mem_cons, List.not_mem_nil, or_false]; rintro o (rfl | rfl) _ <;> decide +kernel)
    (by
      simp only [uuidOps, List.filter_cons, decide_true, if_true, List.filter_nil, List.pairwise_cons, List.mem_singleton,
        forall_eq, List.not_mem_nil, false_imp_iff, implies_true, List.Pairwise.nil, and_true]
      intro hc
      exact absurd (hc.1 0 (by omega) (by omega)) (by decide +kernel))).1

/-- A database file in which Joe's identifier is written in upper case. -/
def fsUpper : FS := fun _ => some (.file (marshalDB { db1.toDBData with users := db1.users.map fun u => { u with id := List.replicate 36 66 } }))

/-- C94: an identifier in upper case in the file is accepted, but the account is then not found under it. -/
theorem C94_upper_case_not_found : ∃ db fs, newDatabase nd fsUpper path = (.ok db, fs) ∧
    db.users.map (·.id) = [List.replicate 36 66] ∧ db.getUserByID (List.replicate 36 66) = none := by
  have h : (match newDatabase nd fsUpper path with
    | (.ok db, _) => decide (db.users.map (·.id) = [List.replicate 36 66]) && (db.getUserByID (List.replicate 36 66)).isNone
    | _ => false) = true := by decide +kernel
  revert h
  rcases newDatabase nd fsUpper path with ⟨_ | _ | db, fs⟩ <;> intro h
  all_goals first
    | (simp at h; done)
    | exact ⟨_, _, rfl, by simpa using (Bool.and_eq_true_iff.1 h).1, by simpa using (Bool.and_eq_true_iff.1 h).2⟩

end GoIdentity
