import Verif.Lemmas.Rand
namespace GoIdentity

/-! ## Evaluating the sequence -/

namespace Rng

/-- The numbers before and after the start in one sequence: `hist r (607 + k) = out r k`. -/
def hist (r : Rng) (j : Nat) : Nat := if j < 607 then r.vec (r.cell j) else r.out (j - 607)

theorem fresh {r : Rng} (h : r.Valid) (k j : Nat) (hj : j < 607) (hk : k ≤ j) : (r.after k).vec (r.cell j) = r.vec (r.cell j) := by
  induction k with
  | zero => rfl
  | succ k ih =>
    rw [after_vec h, if_neg, ih (by omega)]
    unfold cell
    omega

theorem hist_vec {r : Rng} (h : r.Valid) (k j : Nat) (h1 : k ≤ j) (h2 : j < k + 607) : (r.after k).vec (r.cell j) = r.hist j := by
  unfold hist
  split
  · exact fresh h k j (by assumption) h1
  · have := kept h (j - 607) (k - (j - 607 + 1)) (by omega)
    rw [show j - 607 + 1 + (k - (j - 607 + 1)) = k by omega] at this
    rw [← this, show r.cell j = r.cell (j - 607) by unfold cell; omega]

theorem hist_rec {r : Rng} (h : r.Valid) (k : Nat) : r.hist (k + 607) = (r.hist k + r.hist (k + 334)) % 2 ^ 64 := by
  rw [← hist_vec h k k (by omega) (by omega), ← hist_vec h k (k + 334) (by omega) (by omega)]
  unfold hist
  rw [if_neg (by omega), show k + 607 - 607 = k by omega, out_eq h]
  rw [show (r.tap + 606 * (k + 1)) % 607 = r.cell (k + 334) by unfold cell; omega]

/-- 273 more numbers from the last 607. -/
def more (l : List Nat) : List Nat := (List.zipWith (fun a b => (a + b) % 2 ^ 64) (l.take 273) (l.drop 334))

theorem more_eq {r : Rng} (h : r.Valid) {l : List Nat} {k N : Nat} (hN : N = 607)
    (hl : l = (List.range N).map fun i => r.hist (k + i)) :
    l.drop 273 ++ more l = (List.range N).map fun i => r.hist (k + 273 + i) := by
  subst hl
  refine List.ext_getElem? fun i => ?_
  rw [List.getElem?_append]
  simp only [List.length_drop, List.length_map, List.length_range, List.getElem?_drop, List.getElem?_map, more,
    List.getElem?_zipWith, List.getElem?_take]
  by_cases h1 : i < 334
  · rw [if_pos (by omega), List.getElem?_range (by omega), List.getElem?_range (by omega)]
    simp only [Option.map_some]
    rw [show k + (273 + i) = k + 273 + i by omega]
  · rw [if_neg (by omega)]
    by_cases h2 : i < 607
    · rw [if_pos (by omega), List.getElem?_range (by omega), List.getElem?_range (by omega), List.getElem?_range (by omega)]
      simp only [Option.map_some]
      rw [show k + 273 + i = k + (i - 334) + 607 by omega, hist_rec h]
      rw [show k + (334 + (i - (N - 273))) = k + (i - 334) + 334 by omega, show k + (i - (N - 273)) = k + (i - 334) by omega]
    · have hn : (List.range N)[i]? = none := List.getElem?_eq_none (by rw [List.length_range]; omega)
      rw [if_neg (by omega), hn]
      rfl

end Rng

theorem seedrandN_add (a b : Nat) (x : Int) : seedrandN (a + b) x = seedrandN b (seedrandN a x) := by
  induction a generalizing x with
  | zero => rw [Nat.zero_add]; rfl
  | succ a ih => rw [show a + 1 + b = a + b + 1 by omega]; exact ih _

/-- One entry of the seeded state. -/
def entry (c : Nat) (x1 x2 x3 : Int) : Nat := (x1.toNat * 2 ^ 40 % 2 ^ 64) ^^^ (x2.toNat * 2 ^ 20) ^^^ x3.toNat ^^^ c

/-- The entries of the seeded state, one after the other. -/
def entries : List Nat → Int → List Nat
  | [], _ => []
  | c :: cs, x =>
    let x1 := seedrand x
    let x2 := seedrand x1
    let x3 := seedrand x2
    entry c x1 x2 x3 :: entries cs x3

attribute [local irreducible] seedrand entry
theorem entries_eq (cs : List Nat) (x : Int) : entries cs x = (List.range cs.length).map fun i =>
    entry (cs.getD i 0) (seedrandN (3 * i + 1) x) (seedrandN (3 * i + 2) x) (seedrandN (3 * i + 3) x) := by
  induction cs generalizing x with
  | nil => rfl
  | cons c cs ih =>
    have hs : ∀ m, seedrandN m (seedrand (seedrand (seedrand x))) = seedrandN (m + 3) x := by
      intro m; rw [Nat.add_comm]; exact (seedrandN_add 3 m x).symm
    rw [List.length_cons, List.range_succ_eq_map, List.map_cons, List.map_map, entries, ih]
    have e1 : seedrandN 1 x = seedrand x := by rw [seedrandN, seedrandN]
    have e2 : seedrandN 2 x = seedrand (seedrand x) := by rw [seedrandN, seedrandN, seedrandN]
    have e3 : seedrandN 3 x = seedrand (seedrand (seedrand x)) := by rw [seedrandN, seedrandN, seedrandN, seedrandN]
    rw [List.cons.injEq]
    constructor
    · simp only [Nat.mul_zero, Nat.zero_add, e1, e2, e3, List.getD_cons_zero]
    · refine List.map_congr_left fun i _ => ?_
      have hm : ∀ a, 3 * i.succ + a = 3 * i + a + 3 := fun a => by omega
      have hg : (c :: cs).getD i.succ 0 = cs.getD i 0 := List.getD_cons_succ
      rw [Function.comp_apply, hs, hs, hs, hm, hm, hm, hg]

theorem rngCooked_length : rngCooked.length = 607 := by decide +kernel

/-- The state after seeding as a list. -/
theorem newSource_vec (t : Int) (i : Nat) (hi : i < 607) :
    (entries rngCooked (seedrandN 20 (seedStart t)))[i]? = some ((newSource t).vec i) := by
  have hv : (newSource t).vec i = entry (rngCooked.getD i 0) (seedrandN (20 + (3 * i + 1)) (seedStart t))
      (seedrandN (20 + (3 * i + 2)) (seedStart t)) (seedrandN (20 + (3 * i + 3)) (seedStart t)) := by
    unfold newSource entry
    rfl
  rw [entries_eq, rngCooked_length, List.getElem?_map, List.getElem?_range hi, Option.map_some, hv, seedrandN_add 20, seedrandN_add 20,
    seedrandN_add 20]

/-- The numbers before the start. -/
theorem newSource_hist (t : Int) {N : Nat} (hN : N = 607) : (List.range N).map (fun i => (newSource t).hist (0 + i)) =
    ((entries rngCooked (seedrandN 20 (seedStart t))).take 334).reverse ++
      ((entries rngCooked (seedrandN 20 (seedStart t))).drop 334).reverse := by
  have hlen : (entries rngCooked (seedrandN 20 (seedStart t))).length = 607 := by
    rw [entries_eq, List.length_map, List.length_range, rngCooked_length]
  have hv := newSource_vec t
  generalize entries rngCooked (seedrandN 20 (seedStart t)) = l at *
  refine List.ext_getElem? fun i => ?_
  by_cases hi : i < N
  · rw [List.getElem?_map, List.getElem?_range hi, Option.map_some]
    have e : (newSource t).hist (0 + i) = (newSource t).vec ((334 + 606 * (i + 1)) % 607) := by
      unfold Rng.hist Rng.cell
      rw [if_pos (by omega), show (newSource t).tap = 0 from rfl, show 0 + 334 + 606 * (0 + i + 1) = 334 + 606 * (i + 1) by omega]
    rw [e, ← hv _ (Nat.mod_lt _ (by decide)), List.getElem?_append]
    simp only [List.length_reverse, List.length_take, hlen]
    by_cases h1 : i < 334
    · rw [if_pos (by omega), List.getElem?_reverse (by rw [List.length_take, hlen]; omega), List.getElem?_take, List.length_take, hlen,
        if_pos (by omega), show min 334 607 - 1 - i = (334 + 606 * (i + 1)) % 607 by omega]
    · rw [if_neg (by omega), List.getElem?_reverse (by rw [List.length_drop, hlen]; omega), List.getElem?_drop, List.length_drop, hlen,
        show 334 + (607 - 334 - 1 - (i - min 334 607)) = (334 + 606 * (i + 1)) % 607 by omega]
  · rw [List.getElem?_eq_none (by simp; omega), List.getElem?_eq_none (by simp [hlen]; omega)]

/-- The first 819 numbers. -/
def first819 (t : Int) : List Nat :=
  let e := entries rngCooked (seedrandN 20 (seedStart t))
  let l0 := (e.take 334).reverse ++ (e.drop 334).reverse
  let l1 := l0.drop 273 ++ Rng.more l0
  let l2 := l1.drop 273 ++ Rng.more l1
  Rng.more l0 ++ (Rng.more l1 ++ Rng.more l2)

theorem more_get {r : Rng} (h : r.Valid) {l : List Nat} {k N : Nat} (hN : N = 607)
    (hl : l = (List.range N).map fun i => r.hist (k + i)) {M : Nat} (hM : M = 273) :
    Rng.more l = (List.range M).map fun i => r.hist (k + 607 + i) := by
  have h1 := congrArg (List.drop 334) (Rng.more_eq h hN hl)
  have hlen : (l.drop 273).length = 334 := by rw [List.length_drop, hl, List.length_map, List.length_range]; omega
  rw [List.drop_append_of_le_length (by omega), List.drop_of_length_le (by omega), List.nil_append] at h1
  rw [h1]
  refine List.ext_getElem? fun i => ?_
  rw [List.getElem?_drop, List.getElem?_map, List.getElem?_map]
  by_cases hi : i < M
  · rw [List.getElem?_range (by omega), List.getElem?_range hi, Option.map_some, Option.map_some,
      show k + 273 + (334 + i) = k + 607 + i by omega]
  · have n1 : (List.range N)[334 + i]? = none := List.getElem?_eq_none (by rw [List.length_range]; omega)
    have n2 : (List.range M)[i]? = none := List.getElem?_eq_none (by rw [List.length_range]; omega)
    rw [n1, n2]
    rfl

theorem first819_mem (t : Int) {i : Nat} (hi : i < 819) : (newSource t).out i ∈ first819 t := by
  have hv := newSource_valid t
  obtain ⟨N, hN⟩ : ∃ N, N = 607 := ⟨_, rfl⟩
  obtain ⟨M, hM⟩ : ∃ M, M = 273 := ⟨_, rfl⟩
  have e0 := (newSource_hist t hN).symm
  unfold first819
  dsimp only
  generalize (List.take 334 (entries rngCooked (seedrandN 20 (seedStart t)))).reverse ++
    (List.drop 334 (entries rngCooked (seedrandN 20 (seedStart t)))).reverse = l0 at *
  have e1 := Rng.more_eq hv hN e0
  generalize List.drop 273 l0 ++ Rng.more l0 = l1 at *
  have e2 := Rng.more_eq hv hN e1
  generalize List.drop 273 l1 ++ Rng.more l1 = l2 at *
  have m0 := more_get hv hN e0 hM
  have m1 := more_get hv hN e1 hM
  have m2 := more_get hv hN e2 hM
  have key : ∀ (k j : Nat) (l : List Nat) (M : Nat), M = 273 → l = (List.range M).map (fun i => (newSource t).hist (k + 607 + i)) →
      k ≤ j → j < k + 273 → (newSource t).out j ∈ l := by
    intro k j l M hM hl h1 h2
    rw [hl]
    refine List.mem_map.2 ⟨j - k, List.mem_range.2 (by omega), ?_⟩
    unfold Rng.hist
    rw [if_neg (by omega), show k + 607 + (j - k) - 607 = j by omega]
  rw [List.mem_append, List.mem_append]
  rcases Nat.lt_or_ge i 273 with h1 | h1
  · exact .inl (key 0 i _ _ hM m0 (by omega) (by omega))
  · rcases Nat.lt_or_ge i 546 with h2 | h2
    · exact .inr (.inl (key _ i _ _ hM m1 (by omega) (by omega)))
    · exact .inr (.inr (key _ i _ _ hM m2 (by omega) (by omega)))

end GoIdentity
