import Verif.Props.Rand
/-!
# The global generator is never seeded: C107
-/
namespace GoIdentity
open Toy

/-- The values that `rand.Intn(n)` gives in a process that has made `pos` such calls before, has made no other draws and has
called `rand.Seed` nowhere: before Go 1.20 the global generator is then the one of seed 1. -/
def Unseeded (n pos : Nat) (draw : Nat → Nat) : Prop := ∀ i, (newSource 1).drawAt n 38242 (pos + i) = some (draw i)

theorem Unseeded.eq {n pos : Nat} {draw draw' : Nat → Nat} (h : Unseeded n pos draw) (h' : Unseeded n pos draw') : draw = draw' := by
  funext i
  have := h i
  rw [h' i, Option.some.injEq] at this
  exact this.symm

/-- Such a process exists for every number of calls. -/
theorem unseeded_exists {n : Nat} (h0 : 0 < n) (h1 : n < 2 ^ 63) (pos : Nat) : ∃ draw, Unseeded n pos draw ∧ ∀ i, draw i < n := by
  have h := fun k => Rng.drawAt_run (newSource_valid 1) h0 h1 k
  exact ⟨fun i => (h (pos + i)).choose, fun i => (h (pos + i)).choose_spec.2 _ (by decide),
    fun i => (h (pos + i)).choose_spec.1⟩

/-- C107: `NewRandomString` reads off one fixed endless text, the same in all such processes: the characters of a string of
length `n` made after `pos` draws are those at the places `pos`, …, `pos + n - 1`. -/
theorem C107_one_text : ∃ text : Nat → UInt8, ∀ (pos n : Nat) (draw : Nat → Nat), 0 < n → Unseeded 36 pos draw →
    newRandomString draw n = (List.range n).map fun i => text (pos + i) := by
  obtain ⟨d, hd, hlt⟩ := unseeded_exists (n := 36) (by decide) (by decide) 0
  refine ⟨fun k => (gs! "abcdefghijklmnopqrstuvwxyz0123456789").getD (d k) 0, fun pos n draw hn h => ?_⟩
  unfold newRandomString gen
  rw [if_neg (by omega), Int.toNat_natCast]
  refine List.map_congr_left fun i _ => ?_
  have h1 := h i
  have h2 := hd (pos + i)
  rw [Nat.zero_add, h1, Option.some.injEq] at h2
  rw [Nat.zero_add, h2, show (gs! "abcdefghijklmnopqrstuvwxyz0123456789" : GoString).length = 36 from rfl,
    Nat.mod_eq_of_lt (hlt _)]

/-- C107: so two processes that have drawn equally often return the same string. -/
theorem C107_same_string {pos : Nat} {draw draw' : Nat → Nat} (h : Unseeded 36 pos draw) (h' : Unseeded 36 pos draw') (n : Int) :
    newRandomString draw n = newRandomString draw' n := by rw [h.eq h']

/-- C107: the length of the secret that `AddAPIKey` issues is `72` plus what `Intn(24)` gives. -/
theorem C107_secret_length [Ext] {db : Database} {nd : Nondet} {fs : FS} {req : Request} {k : Nat}
    (hg : Unseeded 24 k nd.globalRand) (hs : (exec .addAPIKey nd db fs req).Succeeded) :
    ∃ s v, (exec .addAPIKey nd db fs req).req.response.payload = .secret s ∧ s.length = 72 + v ∧
      ∀ fuel, 38242 ≤ fuel → (newSource 1).drawAt 24 fuel k = some v := by
  obtain ⟨i, u, s, n, hk, key, hv, hsec, hnone, hpw, hkey, husers, hpay⟩ := addAPIKey_success hs
  unfold getRandomStringFromRange at hsec
  rw [if_neg (by omega), if_neg (by omega)] at hsec
  simp only [Res.ok.injEq] at hsec
  obtain ⟨v, hv24, hrun⟩ := Rng.drawAt_run (newSource_valid 1) (n := 24) (by decide) (by decide) k
  have h0 := hg 0
  rw [Nat.add_zero, hrun 38242 (by decide), Option.some.injEq] at h0
  refine ⟨s, v, hpay, ?_, fun fuel hf => hrun fuel (by omega)⟩
  rw [← hsec, gen_length, ← h0, Nat.mod_eq_of_lt (by omega)]
  omega

/-- C107: so the `k`-th secrets of all such processes have one length, and there are `2 ^ 31 - 2` candidates for the secret to
the letter, not only for the part of it that counts (C91, C99). -/
theorem C107_exact_secrets [Ext] (pos k : Nat) :
    ∃ guesses : List GoString, guesses.length = 2 ^ 31 - 2 ∧
      (∀ s ∈ guesses, ∀ s' ∈ guesses, s.length = s'.length) ∧
      ∀ (t : Int) (db : Database) (nd : Nondet) (fs : FS) (req : Request), Reach Opened db → SeededAt t pos nd →
        Unseeded 24 k nd.globalRand → (exec .addAPIKey nd db fs req).Succeeded →
        ∃ s ∈ guesses, (exec .addAPIKey nd db fs req).req.response.payload = .secret s := by
  obtain ⟨src, hsrc⟩ := C99_draws_from
  obtain ⟨v, _, hrun⟩ := Rng.drawAt_run (newSource_valid 1) (n := 24) (by decide) (by decide) k
  refine ⟨(List.range (2 ^ 31 - 2)).map fun x => chars src (x + 1) pos (72 + v), by rw [List.length_map, List.length_range], ?_, ?_⟩
  · intro s hs s' hs'
    obtain ⟨x, _, rfl⟩ := List.mem_map.1 hs
    obtain ⟨x', _, rfl⟩ := List.mem_map.1 hs'
    rw [chars_length, chars_length]
  · intro t db nd fs req h hd hg hs
    obtain ⟨l, _, _, _, _, _, _, _, _, hpay, _⟩ := issued_from_draws h (hsrc t pos nd hd) hs
    obtain ⟨s, v', hpay', hl, hv'⟩ := C107_secret_length hg hs
    have hvv := hv' 38242 (by decide)
    rw [hrun 38242 (by decide), Option.some.injEq] at hvv
    rw [hpay, Payload.secret.injEq] at hpay'
    have hl' : l = 72 + v := by rw [← chars_length src (reducedSeed t) pos l, hpay', hl, hvv]
    subst hl'
    obtain ⟨r1, r2⟩ := C91_seed_range t
    refine ⟨_, List.mem_map.2 ⟨reducedSeed t - 1, List.mem_range.2 (by omega), ?_⟩, hpay⟩
    show chars src (reducedSeed t - 1 + 1) pos (72 + v) = _
    rw [Nat.sub_add_cancel r1]

-- The first string of 32 characters of every such process, and the lengths of its first ten secrets.
set_option maxRecDepth 100000 in
example {draw : Nat → Nat} (h : Unseeded 36 0 draw) : newRandomString draw 0 = gs! "fpllngzieyoh43e0133ols6k1hh2gdny" := by
  have key : (List.range 32).map (fun k => (newSource 1).drawAt 36 38242 k) =
      ((gs! "fpllngzieyoh43e0133ols6k1hh2gdny").map fun b =>
        some ((gs! "abcdefghijklmnopqrstuvwxyz0123456789").idxOf b)) := by decide +kernel
  have h2 : (List.range 32).map (fun k => some (draw k)) = ((gs! "fpllngzieyoh43e0133ols6k1hh2gdny").map fun b =>
      some ((gs! "abcdefghijklmnopqrstuvwxyz0123456789").idxOf b)) := by
    rw [← key]
    exact List.map_congr_left fun k _ => by rw [← h k, Nat.zero_add]
  have h3 : (List.range 32).map draw = ((gs! "fpllngzieyoh43e0133ols6k1hh2gdny").map fun b =>
      (gs! "abcdefghijklmnopqrstuvwxyz0123456789").idxOf b) := by
    have := congrArg (List.map (Option.getD · 0)) h2
    simpa only [List.map_map, Function.comp_def, Option.getD_some] using this
  have h4 : newRandomString draw 0 = ((List.range 32).map draw).map fun v =>
      (gs! "abcdefghijklmnopqrstuvwxyz0123456789").getD (v % 36) 0 := by
    rw [List.map_map]
    unfold newRandomString gen
    exact List.map_congr_left fun i _ => by rw [Nat.zero_add]; rfl
  rw [h4, h3]
  decide +kernel
set_option maxRecDepth 100000 in
example : (List.range 10).map (fun k => ((newSource 1).drawAt 24 38242 k).map (72 + ·)) =
    [89, 87, 95, 83, 73, 78, 73, 92, 88, 84].map some := by
  decide +kernel
-- The premises of the theorems hold for some process at every moment.
example (k : Nat) : ∃ draw, Unseeded 24 k draw := by
  obtain ⟨d, h, _⟩ := unseeded_exists (n := 24) (by decide) (by decide) k
  exact ⟨d, h⟩

end GoIdentity
