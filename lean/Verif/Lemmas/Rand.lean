import Verif.Spec.Rand
/-!
# math/rand: lemmas for C99 and C100
-/
namespace GoIdentity

/-! ## The seed -/

theorem seedrand_eq {x : Int} (h0 : 0 ≤ x) (h1 : x < 2 ^ 31 - 1) : seedrand x = 48271 * x % (2 ^ 31 - 1) := by
  unfold seedrand
  rw [Int.tdiv_eq_ediv_of_nonneg h0, Int.tmod_eq_emod_of_nonneg h0]
  dsimp only
  split <;> omega

theorem seedrand_range {x : Int} (h0 : 0 ≤ x) (h1 : x < 2 ^ 31 - 1) : 0 ≤ seedrand x ∧ seedrand x < 2 ^ 31 - 1 := by
  rw [seedrand_eq h0 h1]
  omega

theorem seedrandN_range (n : Nat) {x : Int} (h0 : 0 ≤ x) (h1 : x < 2 ^ 31 - 1) :
    0 ≤ seedrandN n x ∧ seedrandN n x < 2 ^ 31 - 1 := by
  induction n generalizing x with
  | zero => exact ⟨h0, h1⟩
  | succ n ih => exact ih (seedrand_range h0 h1).1 (seedrand_range h0 h1).2

theorem seedStart_eq (t : Int) : seedStart t = if t % (2 ^ 31 - 1) = 0 then 89482311 else t % (2 ^ 31 - 1) := by
  have h : t.tmod (2 ^ 31 - 1) = t % (2 ^ 31 - 1) ∨ (t.tmod (2 ^ 31 - 1) < 0 ∧ t.tmod (2 ^ 31 - 1) + (2 ^ 31 - 1) = t % (2 ^ 31 - 1)) := by
    rcases (by omega : t < 0 ∨ 0 ≤ t) with ht | ht
    · have := Int.tmod_eq_emod (a := t) (b := 2 ^ 31 - 1)
      rw [this]
      split <;> omega
    · exact .inl (Int.tmod_eq_emod_of_nonneg ht)
  unfold seedStart
  dsimp only
  rcases h with h | ⟨h1, h2⟩
  · rw [h]
    rw [if_neg (show ¬ t % (2 ^ 31 - 1) < 0 by omega)]
  · rw [if_pos h1, h2]

theorem seedStart_range (t : Int) : 1 ≤ seedStart t ∧ seedStart t < 2 ^ 31 - 1 := by
  rw [seedStart_eq]
  split <;> omega

namespace Rng

/-! ## The recurrence -/

/-- The states that occur: the two positions are 334 apart, the entries are 64 bits. -/
structure Valid (r : Rng) : Prop where
  tap_lt : r.tap < 607
  feed_eq : r.feed = (r.tap + 334) % 607
  vec_lt : ∀ i, r.vec i < 2 ^ 64

theorem uint64_valid {r : Rng} (h : r.Valid) : r.uint64.2.Valid := by
  obtain ⟨h1, h2, h3⟩ := h
  refine ⟨?_, ?_, ?_⟩
  · simp only [uint64]; split <;> omega
  · simp only [uint64]; split <;> split <;> omega
  · intro i
    show (if i = _ then _ % 2 ^ 64 else r.vec i) < 2 ^ 64
    by_cases hi : i = (if r.feed = 0 then 606 else r.feed - 1)
    · rw [if_pos hi]
      exact Nat.mod_lt _ (by decide)
    · rw [if_neg hi]
      exact h3 i

theorem after_valid {r : Rng} (h : r.Valid) (k : Nat) : (r.after k).Valid := by
  induction k with
  | zero => exact h
  | succ k ih => exact uint64_valid ih

theorem after_add (r : Rng) (j k : Nat) : (r.after j).after k = r.after (j + k) := by
  induction k with
  | zero => rfl
  | succ k ih => show ((r.after j).after k).uint64.2 = (r.after (j + k)).uint64.2; rw [ih]

theorem out_after (r : Rng) (j k : Nat) : (r.after j).out k = r.out (j + k) := by unfold out; rw [after_add]

/-- Where step `k` writes. -/
def cell (r : Rng) (k : Nat) : Nat := (r.tap + 334 + 606 * (k + 1)) % 607

theorem after_tap {r : Rng} (h : r.Valid) (k : Nat) : (r.after k).tap = (r.tap + 606 * k) % 607 := by
  induction k with
  | zero => show r.tap = _; have := h.tap_lt; omega
  | succ k ih =>
    show (r.after k).uint64.2.tap = _
    simp only [uint64]
    have := (after_valid h k).tap_lt
    rw [ih] at *
    split <;> omega

theorem step_feed {r : Rng} (h : r.Valid) (k : Nat) :
    (if (r.after k).feed = 0 then 606 else (r.after k).feed - 1) = r.cell k := by
  rw [(after_valid h k).feed_eq, after_tap h k]
  unfold cell
  split <;> omega

theorem step_tap {r : Rng} (h : r.Valid) (k : Nat) :
    (if (r.after k).tap = 0 then 606 else (r.after k).tap - 1) = (r.tap + 606 * (k + 1)) % 607 := by
  rw [after_tap h k]
  split <;> omega

theorem after_vec {r : Rng} (h : r.Valid) (k i : Nat) :
    (r.after (k + 1)).vec i = if i = r.cell k then r.out k else (r.after k).vec i := by
  show (r.after k).uint64.2.vec i = _
  rw [← step_feed h k]
  rfl

theorem out_eq {r : Rng} (h : r.Valid) (k : Nat) :
    r.out k = ((r.after k).vec (r.cell k) + (r.after k).vec ((r.tap + 606 * (k + 1)) % 607)) % 2 ^ 64 := by
  rw [← step_feed h k, ← step_tap h k]
  rfl

theorem kept {r : Rng} (h : r.Valid) (k j : Nat) (hj : j < 607) : (r.after (k + 1 + j)).vec (r.cell k) = r.out k := by
  induction j with
  | zero => rw [Nat.add_zero, after_vec h, if_pos rfl]
  | succ j ih =>
    rw [show k + 1 + (j + 1) = (k + 1 + j) + 1 by omega, after_vec h, if_neg, ih (by omega)]
    unfold cell
    omega

/-- The generator's recurrence. -/
theorem out_rec {r : Rng} (h : r.Valid) (k : Nat) : r.out (k + 607) = (r.out k + r.out (k + 334)) % 2 ^ 64 := by
  rw [out_eq h (k + 607)]
  have h1 : r.cell (k + 607) = r.cell k := by unfold cell; omega
  have h2 : (r.tap + 606 * (k + 607 + 1)) % 607 = r.cell (k + 334) := by unfold cell; omega
  rw [h1, h2]
  have h3 := kept h k 606 (by omega)
  have h4 := kept h (k + 334) 272 (by omega)
  rw [show k + 1 + 606 = k + 607 by omega] at h3
  rw [show k + 334 + 1 + 272 = k + 607 by omega] at h4
  rw [h3, h4]

/-! ## No run of large numbers is long -/

theorem not_all_large {r : Rng} (h : r.Valid) {T : Nat} (hT : T ≤ 2 ^ 62) :
    ∃ k, k ≤ 607 * 63 ∧ r.out k % 2 ^ 63 < 2 ^ 63 - T := by
  apply Classical.byContradiction
  intro hc
  have hl : ∀ k ≤ 607 * 63, 2 ^ 63 - T ≤ r.out k % 2 ^ 63 := by
    intro k hk
    apply Classical.byContradiction
    intro h2
    exact hc ⟨k, hk, by omega⟩
  have grow : ∀ j k : Nat, 607 * j ≤ k → k ≤ 607 * 63 → 2 ^ j ≤ 2 ^ 63 - r.out k % 2 ^ 63 := by
    intro j
    induction j with
    | zero =>
      intro k _ _
      have := Nat.mod_lt (r.out k) (show 2 ^ 63 > 0 by decide)
      omega
    | succ j ih =>
      intro k h1 h2
      obtain ⟨k', rfl⟩ : ∃ k', k = k' + 607 := ⟨k - 607, by omega⟩
      have e1 := ih k' (by omega) (by omega)
      have e2 := ih (k' + 334) (by omega) (by omega)
      have l0 := hl (k' + 607) h2
      have l1 := hl k' (by omega)
      have l2 := hl (k' + 334) (by omega)
      rw [out_rec h] at l0 ⊢
      rw [Nat.pow_succ]
      generalize 2 ^ j = P at *
      generalize r.out k' = a at *
      generalize r.out (k' + 334) = b at *
      omega
  have h1 := grow 63 (607 * 63) (Nat.le_refl _) (Nat.le_refl _)
  have h2 := hl (607 * 63) (Nat.le_refl _)
  omega

/-! ## Retrying -/

theorem int63_eq (r : Rng) : r.int63 = (r.out 0 % 2 ^ 63, r.after 1) := rfl
theorem int31_eq (r : Rng) : r.int31 = (r.out 0 % 2 ^ 63 / 2 ^ 32, r.after 1) := rfl

/-- `retry` returns the first number that is not too large. -/
theorem retry_first {f : Nat → Nat} {step : Rng → Nat × Rng} (hf : ∀ r, step r = (f (r.out 0), r.after 1)) {max : Nat} {k : Nat}
    {r : Rng} {fuel : Nat} (hk : f (r.out k) ≤ max) (hb : ∀ j < k, max < f (r.out j)) (hfuel : k < fuel) :
    retry step max fuel r = some (f (r.out k), r.after (k + 1)) := by
  induction k generalizing r fuel with
  | zero =>
    obtain ⟨fuel, rfl⟩ : ∃ n, fuel = n + 1 := ⟨fuel - 1, by omega⟩
    rw [retry, hf, if_neg (by show ¬ f (r.out 0) > max; omega)]
  | succ k ih =>
    obtain ⟨fuel, rfl⟩ : ∃ n, fuel = n + 1 := ⟨fuel - 1, by omega⟩
    rw [retry, hf, if_pos (hb 0 (by omega))]
    show retry step max fuel (r.after 1) = _
    have := ih (r := r.after 1) (fuel := fuel) (by rw [out_after, Nat.add_comm]; exact hk)
      (fun j hj => by rw [out_after, Nat.add_comm]; exact hb (j + 1) (by omega)) (by omega)
    rw [this, out_after, after_add, Nat.add_comm 1 k, show 1 + (k + 1) = k + 1 + 1 by omega]

theorem retry_none {f : Nat → Nat} {step : Rng → Nat × Rng} (hf : ∀ r, step r = (f (r.out 0), r.after 1)) {max : Nat} {k : Nat}
    {r : Rng} (hb : ∀ j < k, max < f (r.out j)) : retry step max k r = none := by
  induction k generalizing r with
  | zero => rfl
  | succ k ih =>
    rw [retry, hf, if_pos (hb 0 (by omega))]
    exact ih fun j hj => by rw [out_after, Nat.add_comm]; exact hb (j + 1) (by omega)

/-- The first index, if there is one. -/
theorem first_below {P : Nat → Prop} [DecidablePred P] {n : Nat} (h : P n) : ∃ k ≤ n, P k ∧ ∀ j < k, ¬ P j := by
  induction n using Nat.strongRecOn with
  | ind n ih =>
    by_cases hx : ∃ m, m < n ∧ P m
    · obtain ⟨m, hm, hp⟩ := hx
      obtain ⟨k, hk, h1, h2⟩ := ih m hm hp
      exact ⟨k, by omega, h1, h2⟩
    · exact ⟨n, Nat.le_refl _, h, fun j hj hp => hx ⟨j, hj, hp⟩⟩

theorem rest_le {n B : Nat} (h0 : 0 < n) (h1 : n < B) : 2 * (B % n) ≤ B := by
  have h2 := Nat.mod_lt B h0
  have h3 := Nat.div_add_mod B n
  have h4 : 1 ≤ B / n := Nat.div_pos (Nat.le_of_lt h1) h0
  have h5 : n * 1 ≤ n * (B / n) := Nat.mul_le_mul_left n h4
  generalize n * (B / n) = q at *
  omega

theorem out31_lt (r : Rng) (k : Nat) : r.out31 k < 2 ^ 31 := by unfold out31; omega

theorem int31n_run {r : Rng} (h : r.Valid) {n : Nat} (h0 : 0 < n) (h1 : n < 2 ^ 31) (hp : n &&& (n - 1) ≠ 0) :
    ∃ k ≤ 607 * 63, r.out31 k ≤ 2 ^ 31 - 1 - 2 ^ 31 % n ∧ (∀ j < k, 2 ^ 31 - 1 - 2 ^ 31 % n < r.out31 j) ∧
      ∀ fuel, k < fuel → r.int31n n fuel = some (r.out31 k % n, r.after (k + 1)) := by
  have hr := rest_le h0 h1
  obtain ⟨k0, hk0, hl⟩ := not_all_large h (T := 2 ^ 31 % n * 2 ^ 32) (by omega)
  have hP : r.out31 k0 ≤ 2 ^ 31 - 1 - 2 ^ 31 % n := by unfold out31; omega
  obtain ⟨k, hk, h2, h3⟩ := first_below (P := fun k => r.out31 k ≤ 2 ^ 31 - 1 - 2 ^ 31 % n) hP
  have h3' : ∀ j < k, 2 ^ 31 - 1 - 2 ^ 31 % n < r.out31 j := fun j hj => Nat.lt_of_not_le (h3 j hj)
  refine ⟨k, by omega, h2, h3', fun fuel hf => ?_⟩
  unfold int31n
  rw [if_neg hp, retry_first (f := fun v => v % 2 ^ 63 / 2 ^ 32) int31_eq h2 h3' hf]
  rfl

theorem int63n_run {r : Rng} (h : r.Valid) {n : Nat} (h0 : 0 < n) (h1 : n < 2 ^ 63) (hp : n &&& (n - 1) ≠ 0) :
    ∃ k ≤ 607 * 63, ∀ fuel, k < fuel → r.int63n n fuel = some (r.out k % 2 ^ 63 % n, r.after (k + 1)) := by
  have hr := rest_le h0 h1
  obtain ⟨k0, hk0, hl⟩ := not_all_large h (T := 2 ^ 63 % n) (by omega)
  have hP : r.out k0 % 2 ^ 63 ≤ 2 ^ 63 - 1 - 2 ^ 63 % n := by omega
  obtain ⟨k, hk, h2, h3⟩ := first_below (P := fun k => r.out k % 2 ^ 63 ≤ 2 ^ 63 - 1 - 2 ^ 63 % n) hP
  refine ⟨k, by omega, fun fuel hf => ?_⟩
  unfold int63n
  rw [if_neg hp, retry_first (f := fun v => v % 2 ^ 63) int63_eq h2 (fun j hj => Nat.lt_of_not_le (h3 j hj)) hf]
  rfl

theorem intn_run {r : Rng} (h : r.Valid) {n : Nat} (h0 : 0 < n) (h1 : n < 2 ^ 63) :
    ∃ k ≤ 607 * 63, ∃ v < n, ∀ fuel, k < fuel → r.intn n fuel = some (v, r.after (k + 1)) := by
  by_cases hp : n &&& (n - 1) = 0
  · have hle : ∀ a, a &&& (n - 1) < n := fun a => Nat.lt_of_le_of_lt Nat.and_le_right (by omega)
    by_cases hn : n ≤ 2 ^ 31 - 1
    · refine ⟨0, by omega, r.int31.1 &&& (n - 1), hle _, fun fuel _ => ?_⟩
      unfold intn int31n
      rw [if_pos hn, if_pos hp]
      rfl
    · refine ⟨0, by omega, r.int63.1 &&& (n - 1), hle _, fun fuel _ => ?_⟩
      unfold intn int63n
      rw [if_neg hn, if_pos hp]
      rfl
  · by_cases hn : n ≤ 2 ^ 31 - 1
    · obtain ⟨k, hk, _, _, hf⟩ := int31n_run h h0 (by omega) hp
      refine ⟨k, hk, r.out31 k % n, Nat.mod_lt _ h0, fun fuel hfuel => ?_⟩
      unfold intn
      rw [if_pos hn]
      exact hf fuel hfuel
    · obtain ⟨k, hk, hf⟩ := int63n_run h h0 h1 hp
      refine ⟨k, hk, r.out k % 2 ^ 63 % n, Nat.mod_lt _ h0, fun fuel hfuel => ?_⟩
      unfold intn
      rw [if_neg hn]
      exact hf fuel hfuel

theorem afterDraws_run {r : Rng} (h : r.Valid) {n : Nat} (h0 : 0 < n) (h1 : n < 2 ^ 63) (k : Nat) :
    ∃ j, ∀ fuel, 607 * 63 < fuel → afterDraws n fuel r k = some (r.after j) := by
  induction k with
  | zero => exact ⟨0, fun _ _ => rfl⟩
  | succ k ih =>
    obtain ⟨j, hj⟩ := ih
    obtain ⟨m, hm, v, _, hf⟩ := intn_run (after_valid h j) h0 h1
    refine ⟨j + (m + 1), fun fuel hfuel => ?_⟩
    rw [afterDraws, hj fuel hfuel, Option.bind_some, hf fuel (by omega), Option.map_some, after_add]

theorem drawAt_run {r : Rng} (h : r.Valid) {n : Nat} (h0 : 0 < n) (h1 : n < 2 ^ 63) (k : Nat) :
    ∃ v < n, ∀ fuel, 607 * 63 < fuel → drawAt n fuel r k = some v := by
  obtain ⟨j, hj⟩ := afterDraws_run h h0 h1 k
  obtain ⟨m, hm, v, hv, hf⟩ := intn_run (after_valid h j) h0 h1
  refine ⟨v, hv, fun fuel hfuel => ?_⟩
  rw [drawAt, hj fuel hfuel, Option.bind_some, hf fuel (by omega), Option.map_some]

/-! ## Powers of two -/

theorem pow_of_and {n : Nat} (h0 : 0 < n) (h : n &&& (n - 1) = 0) : ∃ k, n = 2 ^ k := by
  refine ⟨n.log2, ?_⟩
  have h1 := Nat.log2_self_le (n := n) (by omega)
  have h2 := Nat.lt_log2_self (n := n)
  apply Classical.byContradiction
  intro hne
  have hb : ∀ m, 2 ^ n.log2 ≤ m → m < 2 ^ (n.log2 + 1) → m.testBit n.log2 = true := by
    intro m hm1 hm2
    rw [Nat.testBit_eq_decide_div_mod_eq]
    rw [Nat.pow_succ] at hm2
    have : m / 2 ^ n.log2 = 1 := by
      rw [Nat.div_eq_iff (Nat.pow_pos (by decide))]
      generalize 2 ^ n.log2 = P at *
      omega
    rw [this]
    rfl
  have h3 := congrArg (fun m => m.testBit n.log2) h
  simp only [Nat.testBit_and, Nat.zero_testBit] at h3
  rw [hb n h1 h2, hb (n - 1) (by omega) (by omega)] at h3
  simp at h3

/-! ## No draw is repeated -/

theorem intn62 {r : Rng} {fuel : Nat} (hf : 0 < fuel) (h : r.out31 0 ≤ 2147483645) : r.intn 62 fuel = some (r.out31 0 % 62, r.after 1) := by
  unfold intn int31n
  rw [if_pos (by decide), if_neg (by decide),
    retry_first (f := fun v => v % 2 ^ 63 / 2 ^ 32) (k := 0) int31_eq h (fun j hj => by omega) hf]
  rfl

theorem afterDraws62 {r : Rng} {fuel N : Nat} (hf : 0 < fuel) (h : ∀ i < N, r.out31 i ≤ 2147483645) {k : Nat} (hk : k ≤ N) :
    afterDraws 62 fuel r k = some (r.after k) := by
  induction k with
  | zero => rfl
  | succ k ih =>
    rw [afterDraws, ih (by omega), Option.bind_some, intn62 hf (by unfold out31; rw [out_after]; exact h k (by omega)), Option.map_some,
      after_add]

theorem drawAt62 {r : Rng} {fuel N : Nat} (hf : 0 < fuel) (h : ∀ i < N, r.out31 i ≤ 2147483645) {k : Nat} (hk : k < N) :
    drawAt 62 fuel r k = some (r.out31 k % 62) := by
  have : (r.after k).out31 0 = r.out31 k := by unfold out31; rw [out_after]; rfl
  rw [drawAt, afterDraws62 hf h (by omega), Option.bind_some, intn62 hf (by rw [this]; exact h k hk), Option.map_some, this]

theorem out31_rec {r : Rng} (h : r.Valid) (k : Nat) :
    ∃ e, (e = 0 ∨ e = 1 ∨ e = 60 ∨ e = 61) ∧ r.out31 (k + 607) % 62 = (r.out31 k % 62 + r.out31 (k + 334) % 62 + e) % 62 := by
  unfold out31
  rw [out_rec h]
  generalize r.out k = a
  generalize r.out (k + 334) = b
  have h1 : ∃ c, (c = 0 ∨ c = 1) ∧ ((a + b) % 2 ^ 64 % 2 ^ 63 / 2 ^ 32 = a % 2 ^ 63 / 2 ^ 32 + b % 2 ^ 63 / 2 ^ 32 + c ∨
      (a + b) % 2 ^ 64 % 2 ^ 63 / 2 ^ 32 + 2 ^ 31 = a % 2 ^ 63 / 2 ^ 32 + b % 2 ^ 63 / 2 ^ 32 + c) := by
    refine ⟨(a % 2 ^ 32 + b % 2 ^ 32) / 2 ^ 32, ?_, ?_⟩ <;> omega
  obtain ⟨c, hc, h2⟩ := h1
  generalize (a + b) % 2 ^ 64 % 2 ^ 63 / 2 ^ 32 = z at *
  generalize a % 2 ^ 63 / 2 ^ 32 = x at *
  generalize b % 2 ^ 63 / 2 ^ 32 = y at *
  rcases h2 with h2 | h2
  · exact ⟨c, by omega, by omega⟩
  · refine ⟨60 + c, by omega, by omega⟩

end Rng

/-! ## The state after seeding -/

theorem rngCooked_lt : ∀ x ∈ rngCooked, x < 2 ^ 64 := by decide +kernel

theorem newSource_valid (t : Int) : (newSource t).Valid := by
  refine ⟨by show 0 < 607; decide, by show 334 = (0 + 334) % 607; decide, fun i => ?_⟩
  have hx : ∀ k, (seedrandN (20 + k) (seedStart t)).toNat < 2 ^ 31 := by
    intro k
    obtain ⟨h1, h2⟩ := seedStart_range t
    have := seedrandN_range (20 + k) (show 0 ≤ seedStart t by omega) h2
    omega
  have hc : rngCooked.getD i 0 < 2 ^ 64 := by
    rw [List.getD_eq_getElem?_getD]
    cases h : rngCooked[i]? with
    | none => decide
    | some v => exact rngCooked_lt v (List.mem_of_getElem? h)
  unfold newSource
  dsimp only
  refine Nat.xor_lt_two_pow (Nat.xor_lt_two_pow (Nat.xor_lt_two_pow (Nat.mod_lt _ (by decide)) ?_) ?_) hc
  · have := hx (3 * i + 2); omega
  · have := hx (3 * i + 3); omega

end GoIdentity
