import Verif.Props.Random
/-!
# The generator behind API secrets: C91

`random.go:25-27` makes one generator per process and seeds it with the time in nanoseconds.  `rand.NewSource` keeps only the
remainder of the seed modulo `2 ^ 31 - 1`.
-/
set_option linter.unusedSectionVars false
namespace GoIdentity
open Toy

/-! ## C91 -/

/-- What is left of a seed in `rngSource.Seed` of math/rand. -/
def reducedSeed (t : Int) : Nat := if t % (2 ^ 31 - 1) = 0 then 89482311 else (t % (2 ^ 31 - 1)).toNat

/-- The call draws from the generator of a process that was started at time `t` (in nanoseconds) and has made `pos` draws before.
`src` is the generator: any function of the reduced seed and the number of the draw. -/
def DrawsFrom (src : Nat → Nat → Nat) (t : Int) (pos : Nat) (nd : Nondet) : Prop :=
  ∀ i, nd.seedRand i = src (reducedSeed t) (pos + i)

/-- `n` characters from draw `pos` on. -/
def chars (src : Nat → Nat → Nat) (x pos n : Nat) : GoString := (List.range n).map fun i => charset.getD (src x (pos + i) % 62) 0

/-- C91: at most `2 ^ 31 - 2` seeds are different. -/
theorem C91_seed_range (t : Int) : 1 ≤ reducedSeed t ∧ reducedSeed t ≤ 2 ^ 31 - 2 := by
  unfold reducedSeed
  split <;> omega

/-- C91: times that are a multiple of 2.147483647 seconds apart are the same seed. -/
theorem C91_seed_period (t k : Int) : reducedSeed (t + k * 2147483647) = reducedSeed t := by
  unfold reducedSeed
  rw [show (2 : Int) ^ 31 - 1 = 2147483647 from rfl, Int.add_mul_emod_self_right]

theorem gen_chars {src : Nat → Nat → Nat} {t : Int} {pos : Nat} {nd : Nondet} (h : DrawsFrom src t pos nd) (start n : Nat) :
    gen nd.seedRand start n charset = chars src (reducedSeed t) (pos + start) n := by
  unfold gen chars
  refine List.map_congr_left fun i _ => ?_
  rw [h, show charset.length = 62 by decide, Nat.add_assoc]

theorem chars_take {src : Nat → Nat → Nat} {x pos n m : Nat} (h : m ≤ n) : (chars src x pos n).take m = chars src x pos m := by
  unfold chars
  rw [← List.map_take, List.take_range, Nat.min_eq_left h]

theorem chars_length (src : Nat → Nat → Nat) (x pos n : Nat) : (chars src x pos n).length = n := by simp [chars]

/-- The secret and the identifier that `AddAPIKey` makes, as draws. -/
theorem issued_from_draws [Ext] {db : Database} (h : Reach Opened db) {nd : Nondet} {fs : FS} {req : Request} {src : Nat → Nat → Nat}
    {t : Int} {pos : Nat} (hd : DrawsFrom src t pos nd) (hs : (exec .addAPIKey nd db fs req).Succeeded) :
    ∃ (l : Nat) (u u' : User) (key : APIKey), 72 ≤ l ∧ l < 96 ∧ u ∈ db.users ∧ u' ∈ (exec .addAPIKey nd db fs req).db.users ∧
      u'.apiKeys = u.apiKeys ++ [key] ∧
      (exec .addAPIKey nd db fs req).req.response.payload = .secret (chars src (reducedSeed t) pos l) ∧
      key.id = chars src (reducedSeed t) (pos + l) 40 := by
  obtain ⟨i, u, s, n, hk, key, hv, hsec, hnone, hpw, hkey, husers, hpay⟩ := addAPIKey_success hs
  obtain ⟨h1, h2, _⟩ := secret_shape hsec
  unfold getRandomStringFromRange at hsec
  rw [if_neg (by omega), if_neg (by omega)] at hsec
  simp only [Res.ok.injEq] at hsec
  rw [gen_chars hd, Nat.add_zero] at hsec
  have hl : s.length = nd.globalRand 0 % (96 - 72) + 72 := by rw [← hsec, chars_length]
  obtain ⟨hu, _⟩ := (validate_iff (reach_inv h)).1 hv
  have hlt := (List.getElem?_eq_some_iff.1 hu).1
  refine ⟨s.length, u, User.revise (nd.now.skip 2) { u with apiKeys := u.apiKeys ++ [key] }, key, h1, h2, List.mem_of_getElem? hu, ?_, rfl, ?_, ?_⟩
  · rw [husers]
    exact List.mem_set hlt _
  · rw [hpay, hl, hsec]
  · rw [(newAPIKey_ok hkey).2.2]
    show getRandomString nd.seedRand s.length 40 = _
    unfold getRandomString
    exact gen_chars hd _ _

/-- C91: whatever the generator, for every number of draws made before there are `2 ^ 31 - 2` strings one of which is accepted as the
secret, whenever the process was started and whatever is in the database. -/
theorem C91_few_secrets [Ext] (src : Nat → Nat → Nat) (pos : Nat) :
    ∃ guesses : List GoString, guesses.length = 2 ^ 31 - 2 ∧
      ∀ (t : Int) (db : Database) (nd : Nondet) (fs : FS) (req : Request), Reach Opened db → DrawsFrom src t pos nd →
        (exec .addAPIKey nd db fs req).Succeeded →
        ∃ s ∈ guesses, ∀ (nd' : Nondet) (fs' : FS) (req' : Request), req'.key.payload = s →
          (exec .lookupAPIKey nd' (exec .addAPIKey nd db fs req).db fs' req').Succeeded := by
  refine ⟨(List.range (2 ^ 31 - 2)).map fun x => chars src (x + 1) pos 72, by rw [List.length_map, List.length_range], ?_⟩
  intro t db nd fs req h hd hs
  obtain ⟨l, _, _, _, h1, _, _, _, _, hpay, _⟩ := issued_from_draws h hd hs
  obtain ⟨s, hpay', hacc⟩ := C74_secret_tail_ignored h hs
  rw [hpay, Payload.secret.injEq] at hpay'
  subst hpay'
  obtain ⟨r1, r2⟩ := C91_seed_range t
  refine ⟨chars src (reducedSeed t) pos 72, List.mem_map.2 ⟨reducedSeed t - 1, List.mem_range.2 (by omega), ?_⟩, ?_⟩
  · rw [Nat.sub_add_cancel r1]
  · intro nd' fs' req' hp
    refine (hacc nd' fs' req' (by rw [hp, chars_length]; omega)).1 ?_
    rw [hp, chars_take (Nat.le_refl _), chars_take h1]

/-- C91: two processes started a multiple of 2.147483647 seconds apart issue the same secrets: the one made with the same number
of draws before is accepted by either. -/
theorem C91_same_secret_elsewhere [Ext] {src : Nat → Nat → Nat} {t k : Int} {pos : Nat} {db db' : Database} {nd nd' : Nondet}
    {fs fs' : FS} {req req' : Request} (h : Reach Opened db) (h' : Reach Opened db') (hd : DrawsFrom src t pos nd)
    (hd' : DrawsFrom src (t + k * 2147483647) pos nd') (hs : (exec .addAPIKey nd db fs req).Succeeded)
    (hs' : (exec .addAPIKey nd' db' fs' req').Succeeded) :
    ∃ s, (exec .addAPIKey nd db fs req).req.response.payload = .secret s ∧
      ∀ (nd2 : Nondet) (fs2 : FS) (req2 : Request), req2.key.payload = s →
        (exec .lookupAPIKey nd2 (exec .addAPIKey nd' db' fs' req').db fs2 req2).Succeeded := by
  obtain ⟨l, _, _, _, h1, _, _, _, _, hpay, _⟩ := issued_from_draws h hd hs
  obtain ⟨l', _, _, _, h1', _, _, _, _, hpay', _⟩ := issued_from_draws h' hd' hs'
  rw [C91_seed_period] at hpay'
  obtain ⟨s, hpay2, hacc⟩ := C74_secret_tail_ignored h' hs'
  rw [hpay', Payload.secret.injEq] at hpay2
  subst hpay2
  refine ⟨_, hpay, fun nd2 fs2 req2 hp => (hacc nd2 fs2 req2 (by rw [hp, chars_length]; exact h1)).1 ?_⟩
  rw [hp, chars_take h1, chars_take h1']

/-- C91: if 40 characters tell where they come from (as is to be expected of a good generator), then the identifier of an API key,
which `GetAPIKeys` shows, gives away the secret: there is one function that maps every identifier to 24 strings one of which
is accepted. -/
theorem C91_identifier_gives_secret [Ext] (src : Nat → Nat → Nat) (N : Nat)
    (hsrc : ∀ x y pos pos', 1 ≤ x → x ≤ 2 ^ 31 - 2 → 1 ≤ y → y ≤ 2 ^ 31 - 2 → pos < N → pos' < N →
      chars src x pos 40 = chars src y pos' 40 → x = y ∧ pos = pos') :
    ∃ crack : GoString → List GoString, (∀ id, (crack id).length ≤ 24) ∧
      ∀ (t : Int) (pos : Nat) (db : Database) (nd : Nondet) (fs : FS) (req : Request), Reach Opened db → DrawsFrom src t pos nd →
        pos + 96 ≤ N → (exec .addAPIKey nd db fs req).Succeeded →
        ∃ u ∈ db.users, ∃ u' ∈ (exec .addAPIKey nd db fs req).db.users, ∃ key, u'.apiKeys = u.apiKeys ++ [key] ∧
          ∃ s ∈ crack key.id, ∀ (nd' : Nondet) (fs' : FS) (req' : Request), req'.key.payload = s →
            (exec .lookupAPIKey nd' (exec .addAPIKey nd db fs req).db fs' req').Succeeded := by
  classical
  let P : GoString → Nat × Nat → Prop := fun id q => 1 ≤ q.1 ∧ q.1 ≤ 2 ^ 31 - 2 ∧ q.2 < N ∧ chars src q.1 q.2 40 = id
  refine ⟨fun id => if h : ∃ q, P id q then (List.range 24).map fun l => chars src h.choose.1 (h.choose.2 - (72 + l)) 72 else [], ?_, ?_⟩
  · intro id
    dsimp only
    split <;> simp
  intro t pos db nd fs req h hd hN hs
  obtain ⟨l, u, u', key, h1, h2, hu, hu', hkeys, hpay, hid⟩ := issued_from_draws h hd hs
  refine ⟨u, hu, u', hu', key, hkeys, chars src (reducedSeed t) pos 72, ?_, ?_⟩
  · obtain ⟨r1, r2⟩ := C91_seed_range t
    have hex : ∃ q, P key.id q := ⟨(reducedSeed t, pos + l), r1, r2, by show pos + l < N; omega, hid.symm⟩
    dsimp only
    rw [dif_pos hex]
    obtain ⟨c1, c2, c3, c4⟩ := hex.choose_spec
    obtain ⟨e1, e2⟩ := hsrc _ _ _ _ c1 c2 r1 r2 c3 (show pos + l < N by omega) (c4.trans hid)
    refine List.mem_map.2 ⟨l - 72, List.mem_range.2 (by omega), ?_⟩
    rw [e1, e2, show pos + l - (72 + (l - 72)) = pos by omega]
  · obtain ⟨s, hpay', hacc⟩ := C74_secret_tail_ignored h hs
    rw [hpay, Payload.secret.injEq] at hpay'
    subst hpay'
    intro nd' fs' req' hp
    refine (hacc nd' fs' req' (by rw [hp, chars_length]; omega)).1 ?_
    rw [hp, chars_take (Nat.le_refl _), chars_take h1]

/-! ## Concrete cases -/

example : reducedSeed 1600000000123456789 = reducedSeed 1600000002270940436 ∧ reducedSeed 2147483647 = 89482311 := by decide

/-- The toy calls draw from some generator. -/
example : DrawsFrom (fun _ p => ndA.seedRand p) 0 0 ndA ∧ (exec .addAPIKey ndA db2 fs3 reqApi).Succeeded :=
  ⟨fun i => by simp, by unfold Result.Succeeded; decide +kernel⟩

theorem charset_getD_inj {a b : Nat} (ha : a < 62) (hb : b < 62) (h : charset.getD a 0 = charset.getD b 0) : a = b := by
  have : ∀ a b : Fin 62, charset.getD a.val 0 = charset.getD b.val 0 → a = b := by decide +kernel
  exact congrArg Fin.val (this ⟨a, ha⟩ ⟨b, hb⟩ h)

/-- There are generators for which 40 characters tell where they come from. -/
example : ∃ src : Nat → Nat → Nat, ∀ x y pos pos', 1 ≤ x → x ≤ 2 ^ 31 - 2 → 1 ≤ y → y ≤ 2 ^ 31 - 2 → pos < 100 → pos' < 100 →
      chars src x pos 40 = chars src y pos' 40 → x = y ∧ pos = pos' := by
  refine ⟨fun x p => p / 5 % 31 * 2 + x / 2 ^ (p % 31) % 2, ?_⟩
  intro x y pos pos' hx hx' hy hy' hp hp' h
  have key : ∀ i < 40, (pos + i) / 5 = (pos' + i) / 5 ∧ x / 2 ^ ((pos + i) % 31) % 2 = y / 2 ^ ((pos' + i) % 31) % 2 := by
    intro i hi
    have hi' := congrArg (fun l : GoString => l[i]?) h
    simp only [chars, List.getElem?_map, List.getElem?_range hi, Option.map_some, Option.some.injEq] at hi'
    have h1 := Nat.mod_lt (x / 2 ^ ((pos + i) % 31)) (show 2 > 0 by decide)
    have h2 := Nat.mod_lt (y / 2 ^ ((pos' + i) % 31)) (show 2 > 0 by decide)
    have := charset_getD_inj (Nat.mod_lt _ (by decide)) (Nat.mod_lt _ (by decide)) hi'
    generalize x / 2 ^ ((pos + i) % 31) % 2 = a at *
    generalize y / 2 ^ ((pos' + i) % 31) % 2 = b at *
    omega
  have hpos : pos = pos' := by
    have h0 := (key 0 (by omega)).1
    have h1 := (key 1 (by omega)).1
    have h2 := (key 2 (by omega)).1
    have h3 := (key 3 (by omega)).1
    have h4 := (key 4 (by omega)).1
    omega
  subst hpos
  refine ⟨Nat.eq_of_testBit_eq fun j => ?_, rfl⟩
  rcases Nat.lt_or_ge j 31 with hj | hj
  · obtain ⟨i, hi, he⟩ : ∃ i < 40, (pos + i) % 31 = j := ⟨(j + 31 - pos % 31) % 31, by omega, by omega⟩
    have := (key i hi).2
    rw [he] at this
    rw [Nat.testBit_eq_decide_div_mod_eq, Nat.testBit_eq_decide_div_mod_eq, this]
  · have hle : 2 ^ 31 ≤ 2 ^ j := Nat.pow_le_pow_right (by decide) hj
    rw [Nat.testBit_lt_two_pow (by omega), Nat.testBit_lt_two_pow (by omega)]

end GoIdentity
