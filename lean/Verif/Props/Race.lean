import Verif.Lemmas.SharedRand
import Verif.Props.Freeze
/-!
# The generator shared without a lock: C102
-/
set_option linter.unusedSectionVars false
namespace GoIdentity
open Toy

/-! ## C102 -/

/-- The generator of a process started at `t`, after `k` numbers. -/
def rngAt (t : Int) (k : Nat) : Rng := (newSource t).after k

theorem rngAt_valid (t : Int) (k : Nat) : (rngAt t k).Valid := Rng.after_valid (newSource_valid t) k

theorem rngAt_out (t : Int) (k i : Nat) : (rngAt t k).out i = (newSource t).out (k + i) := Rng.out_after ..

/-- At every moment of the schedule at most the goroutine that runs is in the middle of a call: what a lock around the calls
ensures. -/
def Exclusive (c : Race.Conf) (sched : List Nat) : Prop :=
  ∀ a t b, sched = a ++ t :: b → ∀ t', t' ≠ t → ((c.run a).gor t').pc = .readTap

/-- C102: as long as the calls exclude each other (as they do if they are all made on one database), none panics, and the numbers
go to the goroutines in the order in which their calls end, each number to one of them: goroutine `t` gets the numbers of the
places of `t` in that order. -/
theorem C102_exclusive (t : Int) (k : Nat) {sched : List Nat} (h : Exclusive (Race.initialOn (rngAt t k)) sched) :
    ∃ order : List Nat, ∀ g,
      (((Race.initialOn (rngAt t k)).run sched).gor g).pc ≠ .panicked ∧
      (((Race.initialOn (rngAt t k)).run sched).gor g).got =
        ((List.range order.length).filter fun i => order[i]? = some g).map fun i => (newSource t).out (k + i) := by
  have h0 : Race.SInv (rngAt t k) (Race.initialOn (rngAt t k)) [] := ⟨0, rfl, rfl, fun _ _ => ⟨rfl, rfl⟩⟩
  obtain ⟨ts, u, h1, h2, h3⟩ := Race.sinv_run (rngAt_valid t k) sched h0 h
  refine ⟨ts, fun g => ?_⟩
  have hs : ∀ g, Race.share (rngAt t k) ts g =
      ((List.range ts.length).filter fun i => ts[i]? = some g).map fun i => (newSource t).out (k + i) := by
    intro g
    unfold Race.share
    exact List.map_congr_left fun i _ => rngAt_out t k i
  by_cases hg : g = u
  · subst hg
    refine ⟨fun hc => ?_, by rw [h2, hs]⟩
    unfold Race.At at h1
    rw [hc] at h1
    exact h1
  · refine ⟨fun hc => ?_, by rw [(h3 g hg).2, hs]⟩
    rw [(h3 g hg).1] at hc
    cases hc

/-- C102: without a lock (calls on two databases, or the exported constructors) the program can panic: whenever the process was
started and however many numbers were drawn, two goroutines can be scheduled so that one of them indexes the array with -1. -/
theorem C102_can_panic (t : Int) (k : Nat) :
    ∃ sched : List Nat, (∀ g ∈ sched, g < 2) ∧ (((Race.initialOn (rngAt t k)).run sched).gor 0).pc = .panicked := by
  have hv := rngAt_valid t k
  obtain ⟨n, hn⟩ : ∃ n, ((rngAt t k).tap + 606 * n) % 607 = 1 := by
    have := hv.tap_lt
    exact ⟨(rngAt t k).tap + 606, by omega⟩
  obtain ⟨N, h1, h2, h3⟩ := Race.solo hv n 0 (Race.initialOn (rngAt t k)) rfl rfl
  refine ⟨List.replicate N 0 ++ [0, 0, 0, 1, 1, 0, 0, 0, 0, 0], ?_, ?_⟩
  · intro g hg
    rcases List.mem_append.1 hg with hg | hg
    · rw [List.eq_of_mem_replicate hg]; decide
    · simp only [List.mem_cons, List.not_mem_nil, or_false] at hg
      omega
  · rw [Race.run_append]
    have ht := Rng.after_tap hv n
    have hf := (Rng.after_valid hv n).feed_eq
    rw [hn] at ht
    rw [ht] at hf
    exact Race.crash ht hf _ h1 h2 (by rw [h3 1 (by decide)]; rfl)

/-- C102: nor are the numbers distributed among the goroutines: two of them can get the same numbers, as many as one likes. -/
theorem C102_same_numbers (t : Int) (k n : Nat) :
    ∃ sched : List Nat, ∀ g < 2,
      (((Race.initialOn (rngAt t k)).run sched).gor g).pc = .readTap ∧
      (((Race.initialOn (rngAt t k)).run sched).gor g).got = (List.range n).map fun i => (newSource t).out (k + i) := by
  obtain ⟨N, h1, h2, h3, h4, h5⟩ := Race.lockstep (rngAt_valid t k) n (Race.initialOn (rngAt t k)) rfl rfl rfl
  have hs : (List.range n).map (rngAt t k).out = (List.range n).map fun i => (newSource t).out (k + i) :=
    List.map_congr_left fun i _ => rngAt_out t k i
  refine ⟨Race.rounds N, fun g hg => ?_⟩
  match g, hg with
  | 0, _ => exact ⟨h2, by rw [h4, hs]; rfl⟩
  | 1, _ => exact ⟨h3, by rw [h5, hs]; rfl⟩

/-- What `Intn(62)` makes of a number: a value, or nothing if the number is refused. -/
def pick62 (x : Nat) : Option Nat :=
  if x % 2 ^ 63 / 2 ^ 32 < 2 ^ 31 - 2 ^ 31 % 62 then some (x % 2 ^ 63 / 2 ^ 32 % 62) else none

/-- The first 96 draws of a call are made from the numbers `nums`. -/
def DrawnFrom (nums : List Nat) (nd : Nondet) : Prop := ∀ i < 96, (nums.filterMap pick62)[i]? = some (nd.seedRand i)

/-- `DrawnFrom` means the draws that `Intn(62)` makes of the generator: enough numbers give the draws of C99. -/
theorem drawn_from {r : Rng} (h : r.Valid) (K : Nat) : ∃ (m : Nat) (d : Nat → Nat),
    (∀ i, ∀ fuel, 607 * 63 < fuel → r.drawAt 62 fuel i = some (d i)) ∧
    (∀ fuel, 607 * 63 < fuel → r.afterDraws 62 fuel K = some (r.after m)) ∧
    ((List.range m).map r.out).filterMap pick62 = (List.range K).map d := by
  have hd := fun k => Rng.drawAt_run h (n := 62) (by decide) (by decide) k
  obtain ⟨d, hd'⟩ : ∃ d : Nat → Nat, ∀ i fuel, 607 * 63 < fuel → r.drawAt 62 fuel i = some (d i) :=
    ⟨fun i => (hd i).choose, fun i => (hd i).choose_spec.2⟩
  clear hd
  have main : ∃ m, (∀ fuel, 607 * 63 < fuel → r.afterDraws 62 fuel K = some (r.after m)) ∧
      ((List.range m).map r.out).filterMap pick62 = (List.range K).map d := by
    induction K with
    | zero => exact ⟨0, fun _ _ => rfl, rfl⟩
    | succ K ih =>
      obtain ⟨m, h1, h2⟩ := ih
      obtain ⟨j, hj, h3, h4, h5⟩ := Rng.int31n_run (Rng.after_valid h m) (n := 62) (by decide) (by decide) (by decide)
      have hi : ∀ fuel, 607 * 63 < fuel → (r.after m).intn 62 fuel = some ((r.after m).out31 j % 62, (r.after m).after (j + 1)) := by
        intro fuel hf
        unfold Rng.intn
        rw [if_pos (by decide), h5 fuel (by omega)]
      have hdK : d K = (r.after m).out31 j % 62 := by
        have := hd' K (607 * 63 + 1) (by omega)
        rw [Rng.drawAt, h1 _ (by omega), Option.bind_some, hi _ (by omega), Option.map_some, Option.some.injEq] at this
        exact this.symm
      have ho : ∀ i, (r.after m).out31 i = r.out (m + i) % 2 ^ 63 / 2 ^ 32 := fun i => by
        unfold Rng.out31; rw [Rng.out_after]
      refine ⟨m + (j + 1), fun fuel hf => ?_, ?_⟩
      · rw [Rng.afterDraws, h1 fuel hf, Option.bind_some, hi fuel hf, Option.map_some, Rng.after_add]
      · rw [List.range_add, List.map_append, List.filterMap_append, h2, List.range_succ, List.range_succ, List.map_append, List.map_append, List.map_append,
          List.filterMap_append]
        have e1 : List.filterMap pick62 (List.map r.out (List.map (fun x => m + x) (List.range j))) = [] := by
          rw [List.filterMap_eq_nil_iff]
          intro x hx
          obtain ⟨y, hy, rfl⟩ := List.mem_map.1 hx
          obtain ⟨i, hi', rfl⟩ := List.mem_map.1 hy
          have := h4 i (List.mem_range.1 hi')
          rw [ho] at this
          unfold pick62
          rw [if_neg (by omega)]
        have e2 : pick62 (r.out (m + j)) = some (d K) := by
          unfold pick62
          rw [hdK, ho, if_pos]
          rw [ho] at h3
          omega
        rw [e1, List.nil_append]
        simp [e2]
  obtain ⟨m, h1, h2⟩ := main
  exact ⟨m, d, hd', h1, h2⟩

/-- C102: two databases of one process that draw from the same numbers issue secrets that are accepted by each other. -/
theorem C102_same_secret [Ext] {nums : List Nat} {db db' : Database} {nd nd' : Nondet} {fs fs' : FS} {req req' : Request}
    (h' : Reach Opened db') (hd : DrawnFrom nums nd) (hd' : DrawnFrom nums nd')
    (hs : (exec .addAPIKey nd db fs req).Succeeded) (hs' : (exec .addAPIKey nd' db' fs' req').Succeeded) :
    ∃ s, (exec .addAPIKey nd db fs req).req.response.payload = .secret s ∧
      ∀ (nd2 : Nondet) (fs2 : FS) (req2 : Request), req2.key.payload = s →
        (exec .lookupAPIKey nd2 (exec .addAPIKey nd' db' fs' req').db fs2 req2).Succeeded := by
  obtain ⟨i, u, s, n, hk, key, hv, hsec, hnone, hpw, hkey, husers, hpay⟩ := addAPIKey_success hs
  obtain ⟨i', u', s', n', hk', key', hv', hsec', hnone', hpw', hkey', husers', hpay'⟩ := addAPIKey_success hs'
  obtain ⟨s2, hpay2, hacc⟩ := C74_secret_tail_ignored h' hs'
  rw [hpay', Payload.secret.injEq] at hpay2
  subst hpay2
  obtain ⟨l1, _⟩ := secret_shape hsec
  refine ⟨s, hpay, fun nd2 fs2 req2 hp => (hacc nd2 fs2 req2 (by rw [hp]; exact l1)).1 ?_⟩
  rw [hp]
  unfold getRandomStringFromRange at hsec hsec'
  rw [if_neg (by omega), if_neg (by omega), Res.ok.injEq] at hsec hsec'
  rw [← hsec, ← hsec']
  unfold gen
  rw [← List.map_take, ← List.map_take, List.take_range, List.take_range, Nat.min_eq_left (by omega), Nat.min_eq_left (by omega)]
  refine List.map_congr_left fun j hj => ?_
  have hj := List.mem_range.1 hj
  have e1 := hd (0 + j) (by omega)
  rw [hd' (0 + j) (by omega), Option.some.injEq] at e1
  rw [e1]

/-- C102: so it can happen, whenever the process was started and however many numbers were drawn: there is a schedule under which
two calls of `AddAPIKey`, on two databases, draw from the same numbers. -/
theorem C102_two_databases (t : Int) (k : Nat) :
    ∃ (sched : List Nat) (nums : List Nat), (∃ nd, DrawnFrom nums nd) ∧
      ∀ g < 2, (((Race.initialOn (rngAt t k)).run sched).gor g).got = nums := by
  obtain ⟨m, d, _, _, h⟩ := drawn_from (rngAt_valid t k) 96
  obtain ⟨sched, hs⟩ := C102_same_numbers t k m
  refine ⟨sched, (List.range m).map (rngAt t k).out, ⟨{ nd with seedRand := d }, fun i hi => ?_⟩, fun g hg => ?_⟩
  · rw [h]
    rw [List.getElem?_map, List.getElem?_range hi]
    rfl
  · rw [(hs g hg).2]
    exact List.map_congr_left fun i _ => (rngAt_out t k i).symm

/-- A call of one goroutine followed by accesses of another is exclusive. -/
example (t : Int) (k n : Nat) :
    Exclusive (Race.initialOn (rngAt t k)) (List.replicate (Race.len (rngAt t k)) 0 ++ List.replicate n 1) := by
  intro a x b he x' hx
  obtain ⟨g', e1, e2, _⟩ := Race.alone_uint64 (rngAt_valid t k) Race.Gor.start rfl
  rcases List.append_eq_append_iff.1 he with ⟨a', h1, h2⟩ | ⟨c', h1, h2⟩
  · have ha : a' = List.replicate a'.length 1 ∧ x = 1 := by
      have hm : ∀ y ∈ a' ++ x :: b, y = 1 := fun y hy => List.eq_of_mem_replicate (h2 ▸ hy)
      exact ⟨List.eq_replicate_iff.2 ⟨rfl, fun y hy => hm y (by simp [hy])⟩, hm x (by simp)⟩
    rw [h1, Race.run_append, Race.run_alone, ha.1, Race.run_alone, show (Race.initialOn (rngAt t k)).gor 0 = Race.Gor.start from rfl,
      show (Race.initialOn (rngAt t k)).mem = Race.memOf (rngAt t k) from rfl, e1]
    have hx1 : x' ≠ 1 := by rw [← ha.2]; exact hx
    by_cases h0 : x' = 0
    · subst h0; simpa [upd] using e2
    · simp [upd, h0, hx1, Race.initialOn, Race.Gor.start]
  · cases c' with
    | nil =>
      rw [List.append_nil] at h1
      have hx1 : x = 1 := List.eq_of_mem_replicate (show x ∈ List.replicate n 1 by
        have h2 : x :: b = List.replicate n 1 := h2
        rw [← h2]; simp)
      rw [← h1, Race.run_alone, show (Race.initialOn (rngAt t k)).gor 0 = Race.Gor.start from rfl,
        show (Race.initialOn (rngAt t k)).mem = Race.memOf (rngAt t k) from rfl, e1]
      by_cases h0 : x' = 0
      · subst h0; simpa [upd] using e2
      · simp [upd, h0, Race.initialOn, Race.Gor.start]
    | cons y c' =>
      have hm : ∀ z ∈ a ++ y :: c', z = 0 := fun z hz => List.eq_of_mem_replicate (h1 ▸ hz)
      have ha : a = List.replicate a.length 0 := List.eq_replicate_iff.2 ⟨rfl, fun z hz => hm z (by simp [hz])⟩
      have hx0 : x = 0 := by
        rw [List.cons_append, List.cons.injEq] at h2
        rw [h2.1]
        exact hm y (by simp)
      rw [ha, Race.run_alone]
      have : x' ≠ 0 := by rw [← hx0]; exact hx
      simp [upd, this, Race.initialOn, Race.Gor.start]

/-- Both calls can succeed: for Joe, in two copies of a database. -/
example (t : Int) (k : Nat) : ∃ (nums : List Nat) (nd1 : Nondet), DrawnFrom nums nd1 ∧
    (exec .addAPIKey nd1 db2 fs3 reqApi).Succeeded := by
  obtain ⟨_, nums, ⟨x, hx⟩, _⟩ := C102_two_databases t k
  exact ⟨nums, { nd with seedRand := x.seedRand }, hx, joe_gets_key rfl rfl rfl⟩

end GoIdentity
