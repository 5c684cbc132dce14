import Verif.Lemmas.Rare
import Verif.Props.Uuid
/-!
# How rare duplicate identifiers are: C97
-/
set_option linter.constructorNameAsVariable false

namespace GoIdentity
open Toy

/-- C97: a call to `AddUser` that stores an account gives it an identifier in use exactly if `NewUser` and all ten attempts drew
identifiers in use. -/
theorem C97_duplicate_iff [Ext] {db : Database} (h : Reach Opened db) (nd : Nondet) (fs : FS) (req : Request) {id : GoString}
    (hn : (exec .addUser nd db fs req).db.users.map (·.id) = db.users.map (·.id) ++ [id]) :
    id ∈ db.users.map (·.id) ↔ nd.userID ∈ db.users.map (·.id) ∧ ∀ s ∈ nd.ids.take 10, s ∈ db.users.map (·.id) := by
  rcases exec_ids .addUser nd db fs req with h1 | ⟨_, h1⟩
  · rw [h1] at hn
    have := congrArg List.length hn
    simp at this
  · rw [h1] at hn
    have := List.append_cancel_left hn
    rw [← List.singleton_inj.1 this]
    exact pickID_dup (reach_inv h) _ _

/-- C97: of the draws of one `AddUser`, 2^1408 in all, exactly (64 m)^11 are in use throughout if the m accounts have distinct
version 4 UUIDs. -/
theorem C97_one_call (db : Database) (hd : (db.users.map (·.id)).Nodup) (h4 : ∀ u ∈ db.users, IsV4 u.id) :
    (Finset.univ.filter fun d : Draws => ∀ i, (d i).id ∈ db.users.map (·.id)).card = (64 * db.users.length) ^ 11 ∧
    Fintype.card Draws = 2 ^ 1408 := by
  constructor
  · rw [all_taken, taken_eq hd, List.length_map]
    intro s hs
    obtain ⟨u, hu, rfl⟩ := List.mem_map.1 hs
    exact h4 u hu
  · simp only [Fintype.card_pi, Fintype.card_fin, Finset.prod_const, Finset.card_univ]
    rw [show (256 : Nat) = 2 ^ 8 from rfl, ← pow_mul, ← pow_mul]

/-- C97: of all draws in a history of n calls on a database opened with m accounts, at most the share n · ((m + n) / 2^122)^11
leads to two accounts with one identifier. -/
theorem C97_history [Ext] {db : Database} (h : Opened db) (fs : FS) (ops : List Op) :
    (Finset.univ.filter fun d : Fin ops.length → Draws =>
      ¬ ((run db fs (withDraws ops d)).1.users.map (·.id)).Nodup).card * 2 ^ (11 * 122) ≤
    ops.length * (db.users.length + ops.length) ^ 11 * (2 ^ (11 * 128)) ^ ops.length := by
  have hi := reach_inv (Reach.init h)
  have hd : (db.users.map (·.id)).Nodup := by
    have hid := fresh_invID (.init h)
    unfold List.Nodup
    rw [List.pairwise_iff_getElem]
    intro i j hi hj hij hc
    rw [List.length_map] at hi hj
    rw [List.getElem_map, List.getElem_map] at hc
    have e1 := hid i _ (List.getElem?_eq_getElem hi)
    have e2 := hid j _ (List.getElem?_eq_getElem hj)
    rw [hc, e2] at e1
    cases e1
    omega
  have := bad_le draws_card ops fs hi hd
  unfold badDraws at this
  generalize (Finset.univ.filter fun d : Fin ops.length → Draws =>
    ¬ ((run db fs (withDraws ops d)).1.users.map (·.id)).Nodup).card = c at this ⊢
  exact share_of_bound this

/-- C97, in numbers: with up to 2^32 accounts and calls less than one in 2^958 draws leads to a duplicate. -/
theorem C97_in_numbers [Ext] {db : Database} (h : Opened db) (fs : FS) (ops : List Op)
    (hb : db.users.length + ops.length ≤ 2 ^ 32) :
    (Finset.univ.filter fun d : Fin ops.length → Draws =>
      ¬ ((run db fs (withDraws ops d)).1.users.map (·.id)).Nodup).card * 2 ^ 958 ≤ Fintype.card (Fin ops.length → Draws) := by
  have h1 := C97_history h fs ops
  rw [Fintype.card_fun, Fintype.card_fin, draws_card]
  generalize (Finset.univ.filter fun d : Fin ops.length → Draws =>
    ¬ ((run db fs (withDraws ops d)).1.users.map (·.id)).Nodup).card = c at h1 ⊢
  have h2 : ops.length * (db.users.length + ops.length) ^ 11 ≤ 2 ^ 384 := by
    rw [show (2 : Nat) ^ 384 = 2 ^ 32 * (2 ^ 32) ^ 11 by rw [← pow_mul, ← pow_add]]
    exact Nat.mul_le_mul (by omega) (Nat.pow_le_pow_left hb 11)
  have h3 : c * 2 ^ (11 * 122) ≤ 2 ^ 384 * (2 ^ 1408) ^ ops.length := h1.trans (Nat.mul_le_mul_right _ h2)
  rw [show (2 : Nat) ^ (11 * 122) = 2 ^ 384 * 2 ^ 958 by rw [← pow_add]] at h3
  have hp : (0 : Nat) < 2 ^ 384 := Nat.pow_pos (by decide)
  generalize (2 : Nat) ^ 384 = Q at *
  generalize (2 : Nat) ^ 958 = P at *
  refine Nat.le_of_mul_le_mul_left ?_ hp
  calc Q * (c * P) = c * (Q * P) := by ring
    _ ≤ _ := h3

/-! ## Concrete cases -/

/-- Two accounts with version 4 UUIDs. -/
def dbV4 : Database := (run db0 fs1 uuidOps).1

example : (Finset.univ.filter fun d : Draws => ∀ i, (d i).id ∈ dbV4.users.map (·.id)).card = 128 ^ 11 :=
  (C97_one_call dbV4 (by decide +kernel) (by
    have h : dbV4.users.map (·.id) = [newID drawJoe, newID drawAnn] := by decide +kernel
    intro u hu
    have : u.id ∈ [newID drawJoe, newID drawAnn] := h ▸ List.mem_map_of_mem hu
    simp only [List.mem_cons, List.not_mem_nil, or_false] at this
    rcases this with h | h <;> rw [h] <;> exact C94_shape _ (by decide))).1

/-- The eleven draws of Bob's registration all give Joe's identifier. -/
def unlucky : Draws := fun _ i => ⟨i.val, by omega⟩

/-- Bob's registration. -/
def reqBob97 : Request := { reqAnn with user := { reqAnn.user with username := gs! "bob", email := gs! "bob@example.com" } }

example : ((exec .addUser (nd.withDraws unlucky) dbV4 fs1 reqBob97).db.users.map (·.id)) =
    [newID drawJoe, newID drawAnn, newID drawJoe] := by decide +kernel
/-- One other draw suffices. -/
example : ((exec .addUser (nd.withDraws (Function.update unlucky 7 fun _ => 3)) dbV4 fs1 reqBob97).db.users.map (·.id)).Nodup := by
  decide +kernel
example : ((exec .addUser (nd.withDraws (Function.update unlucky 0 fun _ => 3)) dbV4 fs1 reqBob97).db.users.map (·.id)).Nodup := by
  decide +kernel
example := C97_in_numbers db0_opened fs1 uuidOps (by decide +kernel)

end GoIdentity
