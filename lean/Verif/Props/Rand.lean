import Mathlib.Data.Int.CardIntervalMod
import Verif.Lemmas.RandEval
import Verif.Props.Generator
/-!
# math/rand as the program uses it: C99, C100
-/
set_option linter.unusedSectionVars false
namespace GoIdentity
open Toy

/-! ## C99 -/

/-- C99: from whatever state the generator has reached, `Intn` returns a number below `n`, after at most 38242 rounds of its
retry loop. -/
theorem C99_returns (t : Int) (k : Nat) {n : Nat} (h0 : 0 < n) (h1 : n < 2 ^ 63) :
    ∃ v < n, ∃ k', k < k' ∧ k' ≤ k + 38242 ∧
      ∀ fuel, 38242 ≤ fuel → ((newSource t).after k).intn n fuel = some (v, (newSource t).after k') := by
  obtain ⟨j, hj, v, hv, hf⟩ := Rng.intn_run (Rng.after_valid (newSource_valid t) k) h0 h1
  refine ⟨v, hv, k + (j + 1), by omega, by omega, fun fuel hfuel => ?_⟩
  rw [hf fuel (by omega), Rng.after_add]

/-- C99: so any number of characters can be drawn. -/
theorem C99_draws (t : Int) : ∃ d : Nat → Nat, (∀ k, d k < 62) ∧ ∀ fuel, 38242 ≤ fuel → ∀ k, (newSource t).drawAt 62 fuel k = some (d k) := by
  have h := fun k => Rng.drawAt_run (newSource_valid t) (n := 62) (by decide) (by decide) k
  exact ⟨fun k => (h k).choose, fun k => (h k).choose_spec.1, fun fuel hf k => (h k).choose_spec.2 fuel (by omega)⟩

/-- C99: each number is the sum of those 607 and 273 places before it. -/
theorem C99_recurrence (t : Int) (k : Nat) :
    (newSource t).out (k + 607) = ((newSource t).out k + (newSource t).out (k + 334)) % 2 ^ 64 :=
  Rng.out_rec (newSource_valid t) k

/-- C99: `Intn` takes the first 31-bit number that is not refused, and every value below `n` is the image of the same number of
31-bit numbers: the choice adds no bias. -/
theorem C99_unbiased {n : Nat} (h0 : 0 < n) (h1 : n < 2 ^ 31) :
    ∃ pick : Nat → Option Nat,
      (∀ c < n, ((Finset.range (2 ^ 31)).filter fun v => pick v = some c).card = 2 ^ 31 / n) ∧
      ∀ (t : Int) (k : Nat), ∃ k' c, k ≤ k' ∧ (∀ j, k ≤ j → j < k' → pick ((newSource t).out31 j) = none) ∧
        pick ((newSource t).out31 k') = some c ∧
        ∀ fuel, 38242 ≤ fuel → ((newSource t).after k).intn n fuel = some (c, (newSource t).after (k' + 1)) := by
  by_cases hp : n &&& (n - 1) = 0
  · obtain ⟨e, rfl⟩ := Rng.pow_of_and h0 hp
    refine ⟨fun v => some (v &&& (2 ^ e - 1)), ?_, ?_⟩
    · intro c hc
      have he : e ≤ 31 := (Nat.pow_lt_pow_iff_right (by decide)).1 h1 |>.le
      have hf : ((Finset.range (2 ^ 31)).filter fun v => some (v &&& (2 ^ e - 1)) = some c) =
          (Finset.range (2 ^ 31)).filter fun v => v ≡ c [MOD 2 ^ e] := by
        refine Finset.filter_congr fun v _ => ?_
        rw [Option.some.injEq, Nat.and_two_pow_sub_one_eq_mod]
        unfold Nat.ModEq
        rw [Nat.mod_eq_of_lt hc]
      rw [hf, ← Nat.count_eq_card_filter_range, Nat.count_modEq_card _ h0,
        Nat.mod_eq_zero_of_dvd (Nat.pow_dvd_pow 2 he)]
      simp
    · intro t k
      refine ⟨k, _, Nat.le_refl _, fun j h1 h2 => absurd h1 (by omega), rfl, fun fuel _ => ?_⟩
      unfold Rng.intn Rng.int31n
      rw [if_pos (by omega), if_pos hp]
      rfl
  · refine ⟨fun v => if v ≤ 2 ^ 31 - 1 - 2 ^ 31 % n then some (v % n) else none, ?_, ?_⟩
    · intro c hc
      have hm := Nat.mod_lt (2 ^ 31) h0
      have hd := Nat.div_add_mod (2 ^ 31) n
      have hf : ((Finset.range (2 ^ 31)).filter fun v => (if v ≤ 2 ^ 31 - 1 - 2 ^ 31 % n then some (v % n) else none) = some c) =
          (Finset.range (n * (2 ^ 31 / n))).filter fun v => v ≡ c [MOD n] := by
        ext v
        simp only [Finset.mem_filter, Finset.mem_range, Nat.ModEq, Nat.mod_eq_of_lt hc]
        generalize n * (2 ^ 31 / n) = q at *
        split
        · rename_i hle
          rw [Option.some.injEq]
          constructor
          · rintro ⟨_, h⟩; exact ⟨by omega, h⟩
          · rintro ⟨_, h⟩; exact ⟨by omega, h⟩
        · rename_i hle
          constructor
          · rintro ⟨_, h⟩; cases h
          · rintro ⟨h, _⟩; omega
      rw [hf, ← Nat.count_eq_card_filter_range, Nat.count_modEq_card _ h0, Nat.mul_mod_right, Nat.mul_div_cancel_left _ h0]
      simp
    · intro t k
      obtain ⟨j, _, h2, h3, h4⟩ := Rng.int31n_run (Rng.after_valid (newSource_valid t) k) h0 h1 hp
      have ho : ∀ i, ((newSource t).after k).out31 i = (newSource t).out31 (k + i) := fun i => by
        unfold Rng.out31; rw [Rng.out_after]
      rw [ho] at h2
      refine ⟨k + j, (newSource t).out31 (k + j) % n, by omega, ?_, if_pos h2, ?_⟩
      · intro i hi1 hi2
        have := h3 (i - k) (by omega)
        rw [ho, show k + (i - k) = i by omega] at this
        exact if_neg (by omega)
      · intro fuel hfuel
        unfold Rng.intn
        rw [if_pos (by omega), h4 fuel (by omega), ho, Rng.after_add, Nat.add_assoc]

/-- C99: a step of seeding is multiplication by 48271 modulo `2 ^ 31 - 1`, and never leaves 32 bits. -/
theorem C99_seeding {x : Int} (h0 : 0 ≤ x) (h1 : x < 2 ^ 31 - 1) :
    seedrand x = 48271 * x % (2 ^ 31 - 1) ∧ ∀ y ∈ [48271 * (x % 44488), 3399 * (x / 44488), 48271 * (x % 44488) - 3399 * (x / 44488)],
      -2 ^ 31 ≤ y ∧ y < 2 ^ 31 := by
  refine ⟨seedrand_eq h0 h1, ?_⟩
  intro y hy
  simp only [List.mem_cons, List.not_mem_nil, or_false] at hy
  rcases hy with rfl | rfl | rfl <;> omega

theorem seedStart_reduced (t : Int) : seedStart t = reducedSeed t := by
  rw [seedStart_eq]
  unfold reducedSeed
  split <;> omega

/-- C99: the generator is a function of the reduced seed: there are at most `2 ^ 31 - 2` generators. -/
theorem C99_few_generators {t t' : Int} (h : reducedSeed t = reducedSeed t') : newSource t = newSource t' := by
  unfold newSource
  rw [seedStart_reduced, seedStart_reduced, h]

/-- The call draws from the generator of a process that was started at time `t` (in nanoseconds) and has made `pos` draws before. -/
def SeededAt (t : Int) (pos : Nat) (nd : Nondet) : Prop := ∀ i, (newSource t).drawAt 62 38242 (pos + i) = some (nd.seedRand i)

/-- C99: so what C91 says about all generators that are functions of the reduced seed applies to this one. -/
theorem C99_draws_from : ∃ src : Nat → Nat → Nat, ∀ (t : Int) (pos : Nat) (nd : Nondet), SeededAt t pos nd → DrawsFrom src t pos nd := by
  refine ⟨fun x p => ((newSource x).drawAt 62 38242 p).getD 0, fun t pos nd h i => ?_⟩
  have : newSource (reducedSeed t) = newSource t := by
    refine C99_few_generators ?_
    obtain ⟨h1, h2⟩ := C91_seed_range t
    generalize reducedSeed t = x at *
    unfold reducedSeed
    rw [if_neg (by omega)]
    omega
  show nd.seedRand i = ((newSource (reducedSeed t)).drawAt 62 38242 (pos + i)).getD 0
  rw [this, h i]
  rfl

/-- C99: for every number of draws made before there are `2 ^ 31 - 2` strings one of which is accepted as the secret, whenever
the process was started and whatever is in the database. -/
theorem C99_few_secrets [Ext] (pos : Nat) :
    ∃ guesses : List GoString, guesses.length = 2 ^ 31 - 2 ∧
      ∀ (t : Int) (db : Database) (nd : Nondet) (fs : FS) (req : Request), Reach Opened db → SeededAt t pos nd →
        (exec .addAPIKey nd db fs req).Succeeded →
        ∃ s ∈ guesses, ∀ (nd' : Nondet) (fs' : FS) (req' : Request), req'.key.payload = s →
          (exec .lookupAPIKey nd' (exec .addAPIKey nd db fs req).db fs' req').Succeeded := by
  obtain ⟨src, hsrc⟩ := C99_draws_from
  obtain ⟨g, hg, h⟩ := C91_few_secrets src pos
  exact ⟨g, hg, fun t db nd fs req hr hs => h t db nd fs req hr (hsrc t pos nd hs)⟩

-- What Go prints for `rand.Seed(1)` and ten calls of `rand.Intn(100)`.
set_option maxRecDepth 100000 in
example : (List.range 10).map (fun k => (newSource 1).drawAt 100 1 k) = [81, 87, 47, 59, 81, 18, 25, 40, 56, 0].map some := by
  decide +kernel

-- What Go prints for `rand.Seed(1)` and three calls of `rand.Int63()`.
set_option maxRecDepth 100000 in
example : ((newSource 1).int63.1, (newSource 1).int63.2.int63.1, (newSource 1).int63.2.int63.2.int63.1) =
    (5577006791947779410, 8674665223082153551, 6129484611666145821) := by
  decide +kernel

/-- Every process has draws, whenever it was started and however many it has made. -/
example (t : Int) (pos : Nat) : ∃ nd' : Nondet, SeededAt t pos nd' := by
  obtain ⟨d, _, h⟩ := C99_draws t
  exact ⟨{ nd with seedRand := fun i => d (pos + i) }, fun i => h _ (Nat.le_refl _) _⟩

/-! ## C100 -/

/-- No 31-bit number among `N`, from number `k` on, is refused by `Intn(62)`. -/
def NoneRefused (t : Int) (k N : Nat) : Prop := ∀ i < N, (newSource t).out31 (k + i) < 2 ^ 31 - 2 ^ 31 % 62

/-- The characters drawn one after the other from the `k`-th state on, as far as they are drawn. -/
def charsFrom (t : Int) (k n : Nat) : List UInt8 :=
  (List.range n).map fun i => charset.getD ((((newSource t).after k).drawAt 62 38242 i).getD 0) 0

/-- C100: as long as no number is refused, each character is one of four that follow from the characters 607 and 273 places
before: the sum of their positions in the alphabet plus 0, 1, 60 or 61, modulo 62. -/
theorem C100_four_choices {t : Int} {k N : Nat} (h : NoneRefused t k N) {i : Nat} (hi : i + 607 < N) :
    ∃ (a b c e : Nat), e ∈ [0, 1, 60, 61] ∧ c = (a + b + e) % 62 ∧ ∀ fuel, 0 < fuel →
      ((newSource t).after k).drawAt 62 fuel i = some a ∧ ((newSource t).after k).drawAt 62 fuel (i + 334) = some b ∧
      ((newSource t).after k).drawAt 62 fuel (i + 607) = some c := by
  have hv := Rng.after_valid (newSource_valid t) k
  have h' : ∀ i < N, ((newSource t).after k).out31 i ≤ 2147483645 := by
    intro i hi
    have := h i hi
    unfold Rng.out31 at this ⊢
    rw [Rng.out_after]
    omega
  obtain ⟨e, he, hr⟩ := Rng.out31_rec hv i
  refine ⟨_, _, _, e, by simpa using he, hr, fun fuel hf => ?_⟩
  exact ⟨Rng.drawAt62 hf h' (by omega), Rng.drawAt62 hf h' (by omega), Rng.drawAt62 hf h' hi⟩

/-- All ways to choose one element of each list. -/
def choices {α : Type} : List (List α) → List (List α)
  | [] => [[]]
  | l :: ls => l.flatMap fun x => (choices ls).map (x :: ·)

theorem choices_length {α : Type} {m : Nat} (ls : List (List α)) (h : ∀ l ∈ ls, l.length = m) : (choices ls).length = m ^ ls.length := by
  induction ls with
  | nil => rfl
  | cons l ls ih =>
    have h1 : ∀ (l : List α) (c : List (List α)), (l.flatMap fun x => c.map (x :: ·)).length = l.length * c.length := by
      intro l c
      induction l with
      | nil => simp
      | cons x l ih => rw [List.flatMap_cons, List.length_append, ih, List.length_map, List.length_cons, Nat.add_mul, Nat.one_mul, Nat.add_comm]
    rw [choices, h1, ih (fun l hl => h l (List.mem_cons_of_mem _ hl)), h l (by simp), List.length_cons, Nat.pow_succ, Nat.mul_comm]

theorem mem_choices {α β : Type} (f : β → α) (g : β → List α) (l : List β) (h : ∀ x ∈ l, f x ∈ g x) : l.map f ∈ choices (l.map g) := by
  induction l with
  | nil => simp [choices]
  | cons x l ih =>
    rw [List.map_cons, List.map_cons, choices, List.mem_flatMap]
    exact ⟨f x, h x (by simp), List.mem_map.2 ⟨_, ih fun y hy => h y (List.mem_cons_of_mem _ hy), rfl⟩⟩

/-- The candidates for the first 72 characters after the 607 characters `s`. -/
def candidates (s : List UInt8) : List GoString :=
  choices ((List.range 72).map fun i => [0, 1, 60, 61].map fun e =>
    charset.getD ((charset.idxOf (s.getD i 0) + charset.idxOf (s.getD (i + 334) 0) + e) % 62) 0)

theorem charset_idxOf {a : Nat} (ha : a < 62) : charset.idxOf (charset.getD a 0) = a := by
  have : ∀ a : Fin 62, charset.idxOf (charset.getD a.val 0) = a.val := by decide +kernel
  exact this ⟨a, ha⟩

theorem getD_map_range {α : Type} {n i : Nat} (hi : i < n) (f : Nat → α) (d : α) : ((List.range n).map f).getD i d = f i := by
  rw [List.getD_eq_getElem?_getD, List.getElem?_map, List.getElem?_range hi]
  rfl

/-- C100: whoever knows the 607 characters drawn before can name `4 ^ 72` strings (of `62 ^ 72`) one of which is accepted as the
secret of the next API key, provided none of the numbers was refused. -/
theorem C100_secret_from_earlier [Ext] :
    (∀ s, (candidates s).length = 4 ^ 72) ∧
    ∀ (t : Int) (k : Nat) (db : Database) (nd : Nondet) (fs : FS) (req : Request), Reach Opened db → NoneRefused t k 679 →
      (∀ i, ((newSource t).after k).drawAt 62 38242 (607 + i) = some (nd.seedRand i)) →
      (exec .addAPIKey nd db fs req).Succeeded →
      ∃ s ∈ candidates (charsFrom t k 607), ∀ (nd' : Nondet) (fs' : FS) (req' : Request), req'.key.payload = s →
        (exec .lookupAPIKey nd' (exec .addAPIKey nd db fs req).db fs' req').Succeeded := by
  refine ⟨fun s => ?_, ?_⟩
  · unfold candidates
    rw [choices_length (m := 4), List.length_map, List.length_range]
    intro l hl
    obtain ⟨i, _, rfl⟩ := List.mem_map.1 hl
    rfl
  intro t k db nd fs req h hq hd hs
  have hd' : DrawsFrom (fun _ p => nd.seedRand p) t 0 nd := fun i => by simp
  obtain ⟨l, _, _, _, h1, _, _, _, _, hpay, _⟩ := issued_from_draws h hd' hs
  obtain ⟨s, hpay', hacc⟩ := C74_secret_tail_ignored h hs
  rw [hpay, Payload.secret.injEq] at hpay'
  subst hpay'
  refine ⟨chars (fun _ p => nd.seedRand p) (reducedSeed t) 0 72, ?_, ?_⟩
  · unfold candidates chars
    refine mem_choices _ _ _ fun i hi => ?_
    rw [List.mem_range] at hi
    obtain ⟨a, b, c, e, he, hc, hdraw⟩ := C100_four_choices hq (i := i) (by omega)
    obtain ⟨d1, d2, d3⟩ := hdraw 38242 (by decide)
    obtain ⟨va, hva, fa⟩ := Rng.drawAt_run (Rng.after_valid (newSource_valid t) k) (n := 62) (by decide) (by decide) i
    obtain ⟨vb, hvb, fb⟩ := Rng.drawAt_run (Rng.after_valid (newSource_valid t) k) (n := 62) (by decide) (by decide) (i + 334)
    rw [fa 38242 (by decide), Option.some.injEq] at d1
    rw [fb 38242 (by decide), Option.some.injEq] at d2
    subst d1 d2
    rw [Nat.add_comm, hd i, Option.some.injEq] at d3
    have g1 : (charsFrom t k 607).getD i 0 = charset.getD va 0 := by
      unfold charsFrom
      rw [getD_map_range (by omega), fa 38242 (by decide)]
      rfl
    have g2 : (charsFrom t k 607).getD (i + 334) 0 = charset.getD vb 0 := by
      unfold charsFrom
      rw [getD_map_range (by omega), fb 38242 (by decide)]
      rfl
    rw [g1, g2, charset_idxOf hva, charset_idxOf hvb]
    refine List.mem_map.2 ⟨e, he, ?_⟩
    show _ = charset.getD (nd.seedRand (0 + i) % 62) 0
    rw [Nat.zero_add, d3, hc, Nat.mod_mod]
  · intro nd' fs' req' hp
    refine (hacc nd' fs' req' (by rw [hp, chars_length])).1 ?_
    rw [hp, chars_take (Nat.le_refl _), chars_take h1]

/-- C100: the owner of an API key sees at least 112 characters drawn one after the other: the secret, then the identifier. -/
theorem C100_characters_shown [Ext] {db : Database} (h : Reach Opened db) {t : Int} {k : Nat} {nd : Nondet} {fs : FS} {req : Request}
    (hd : ∀ i, ((newSource t).after k).drawAt 62 38242 i = some (nd.seedRand i)) (hs : (exec .addAPIKey nd db fs req).Succeeded) :
    ∃ s, (exec .addAPIKey nd db fs req).req.response.payload = .secret s ∧ 72 ≤ s.length ∧
      ∃ u ∈ db.users, ∃ u' ∈ (exec .addAPIKey nd db fs req).db.users, ∃ key, u'.apiKeys = u.apiKeys ++ [key] ∧ key.id.length = 40 ∧
        s ++ key.id = charsFrom t k (s.length + 40) := by
  have hd' : DrawsFrom (fun _ p => nd.seedRand p) t 0 nd := fun i => by simp
  obtain ⟨l, u, u', key, h1, _, hu, hu', hkeys, hpay, hid⟩ := issued_from_draws h hd' hs
  refine ⟨_, hpay, by rw [chars_length]; exact h1, u, hu, u', hu', key, hkeys, by rw [hid, chars_length], ?_⟩
  rw [chars_length, hid]
  unfold chars charsFrom
  rw [List.range_add, List.map_append, List.map_map]
  have hlt : ∀ i, nd.seedRand i % 62 = nd.seedRand i := by
    intro i
    obtain ⟨v, hv, f⟩ := Rng.drawAt_run (Rng.after_valid (newSource_valid t) k) (n := 62) (by decide) (by decide) i
    have := hd i
    rw [f 38242 (by decide), Option.some.injEq] at this
    omega
  congr 1
  · refine List.map_congr_left fun i _ => ?_
    rw [hd i, Nat.zero_add, hlt]
    rfl
  · refine List.map_congr_left fun i _ => ?_
    rw [Function.comp_apply, hd, Nat.zero_add, hlt]
    rfl

-- For a process seeded with 1, none of the first 819 numbers is refused.
set_option maxRecDepth 100000 in
example : NoneRefused 1 0 679 := by
  have h : ∀ x ∈ first819 1, x % 2 ^ 63 / 2 ^ 32 < 2 ^ 31 - 2 ^ 31 % 62 := by decide +kernel
  intro i hi
  exact h _ (first819_mem 1 (by omega))

end GoIdentity
