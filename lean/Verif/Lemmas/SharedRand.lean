import Verif.Model.SharedRand
import Verif.Lemmas.Rand
/-!
# Interleaved calls of the generator
-/
set_option linter.unusedSectionVars false
namespace GoIdentity.Race

/-- `n` accesses of one goroutine with nobody else running. -/
def alone : Nat → Mem → Gor → Mem × Gor
  | 0, m, g => (m, g)
  | n + 1, m, g => alone n (step m g).1 (step m g).2

theorem upd_upd {α β : Type} [DecidableEq α] (f : α → β) (k : α) (v w : β) : upd (upd f k v) k w = upd f k w := by
  funext x; unfold upd; split <;> rfl

theorem upd_self {α β : Type} [DecidableEq α] (f : α → β) (k : α) : upd f k (f k) = f := by
  funext x; unfold upd; split
  · rename_i h; rw [h]
  · rfl

theorem upd_comm {α β : Type} [DecidableEq α] (f : α → β) {k k' : α} (h : k ≠ k') (v w : β) :
    upd (upd f k v) k' w = upd (upd f k' w) k v := by
  funext x; unfold upd
  by_cases h1 : x = k
  · subst h1; simp [h]
  · simp [h1]

theorem run_append (c : Conf) (a b : List Nat) : c.run (a ++ b) = (c.run a).run b := by
  induction a generalizing c with
  | nil => rfl
  | cons t ts ih => exact ih _

theorem run_alone (n : Nat) (t : Nat) (c : Conf) :
    c.run (List.replicate n t) = { mem := (alone n c.mem (c.gor t)).1, gor := upd c.gor t (alone n c.mem (c.gor t)).2 } := by
  induction n generalizing c with
  | zero => simp [Conf.run, alone, upd_self]
  | succ n ih =>
    rw [List.replicate_succ, Conf.run, ih]
    simp only [Conf.step, alone, upd_upd]
    simp [upd]

theorem alone_add (a b : Nat) (m : Mem) (g : Gor) :
    alone (a + b) m g = alone b (alone a m g).1 (alone a m g).2 := by
  induction a generalizing m g with
  | zero => rw [Nat.zero_add]; rfl
  | succ a ih => rw [Nat.succ_add]; exact ih _ _

/-- An index is moved down by one, around the end of the array. -/
def down (a : Nat) : Nat := if a = 0 then 606 else a - 1

/-- How many accesses that takes. -/
def cost (a : Nat) : Nat := if a = 0 then 5 else 3

theorem alone_tap (m : Mem) (a : Nat) (ha : m.tap = a) (g : Gor) (hg : g.pc = .readTap) :
    ∃ reg, alone (cost a) m g = ({ m with tap := down a }, { g with pc := .readFeed, reg := reg }) := by
  cases g with | mk pc reg x got =>
  cases m with | mk vec tap feed =>
  dsimp only at ha hg
  subst ha hg
  unfold cost down
  by_cases h0 : a = 0
  · subst h0
    exact ⟨-1, by simp [alone, step]⟩
  · refine ⟨a, ?_⟩
    have h1 : ¬ (a : Int) - 1 < 0 := by omega
    have h2 : ((a - 1 : Nat) : Int) = (a : Int) - 1 := by omega
    simp [h0, alone, step, h1, h2]

theorem alone_feed (m : Mem) (a : Nat) (ha : m.feed = a) (g : Gor) (hg : g.pc = .readFeed) :
    ∃ reg, alone (cost a) m g = ({ m with feed := down a }, { g with pc := .getFeed, reg := reg }) := by
  cases g with | mk pc reg x got =>
  cases m with | mk vec tap feed =>
  dsimp only at ha hg
  subst ha hg
  unfold cost down
  by_cases h0 : a = 0
  · subst h0
    exact ⟨-1, by simp [alone, step]⟩
  · refine ⟨a, ?_⟩
    have h1 : ¬ (a : Int) - 1 < 0 := by omega
    have h2 : ((a - 1 : Nat) : Int) = (a : Int) - 1 := by omega
    simp [h0, alone, step, h1, h2]

theorem get_nat {m : Mem} {a : Nat} (ha : a < 607) : m.get a = some (m.vec a) := by
  unfold Mem.get
  rw [if_pos (by omega), Int.toNat_natCast]

theorem alone_vec (m : Mem) (a b : Nat) (ha : m.tap = a) (hb : m.feed = b) (ha' : a < 607) (hb' : b < 607) (g : Gor)
    (hg : g.pc = .getFeed) :
    ∃ x, x = (m.vec b + m.vec a) % 2 ^ 64 ∧
      alone 3 m g = ({ m with vec := upd m.vec b x }, { g with pc := .readTap, x := x, got := g.got ++ [x] }) := by
  cases g with | mk pc reg x got =>
  cases m with | mk vec tap feed =>
  dsimp only at ha hb hg
  subst ha hb hg
  refine ⟨_, rfl, ?_⟩
  have h1 : (0 : Int) ≤ b ∧ (b : Int) < 607 := by omega
  simp [alone, step, get_nat ha', get_nat hb', h1]

theorem down_lt {a : Nat} (h : a < 607) : down a < 607 := by unfold down; split <;> omega

theorem memOf_next (r : Rng) :
    memOf r.uint64.2 = { vec := upd r.vec (down r.feed) ((r.vec (down r.feed) + r.vec (down r.tap)) % 2 ^ 64), tap := down r.tap, feed := down r.feed } := rfl

/-- How many accesses one call takes. -/
def len (r : Rng) : Nat := cost r.tap + cost r.feed + 3

theorem alone_uint64 {r : Rng} (h : r.Valid) (g : Gor) (hg : g.pc = .readTap) :
    ∃ g', alone (len r) (memOf r) g = (memOf r.uint64.2, g') ∧ g'.pc = .readTap ∧ g'.got = g.got ++ [r.uint64.1] := by
  have hf : r.feed < 607 := by rw [h.feed_eq]; exact Nat.mod_lt _ (by decide)
  unfold len
  rw [alone_add, alone_add]
  obtain ⟨r1, e1⟩ := alone_tap (memOf r) r.tap rfl g hg
  rw [e1]
  obtain ⟨r2, e2⟩ := alone_feed { memOf r with tap := down r.tap } r.feed rfl { g with pc := .readFeed, reg := r1 } rfl
  dsimp only at e2 ⊢
  rw [e2]
  obtain ⟨x, hx, e3⟩ := alone_vec { memOf r with tap := down r.tap, feed := down r.feed } (down r.tap) (down r.feed) rfl rfl (down_lt h.tap_lt)
    (down_lt hf) { g with pc := .getFeed, reg := r2 } rfl
  dsimp only at e3 ⊢
  rw [e3, memOf_next, ← show x = (r.vec (down r.feed) + r.vec (down r.tap)) % 2 ^ 64 from hx]
  exact ⟨_, rfl, rfl, by rw [hx]; rfl⟩

/-- Rounds in which goroutines 0 and 1 make one access each. -/
def rounds : Nat → List Nat
  | 0 => []
  | n + 1 => 0 :: 1 :: rounds n

theorem rounds_add (a b : Nat) : rounds (a + b) = rounds a ++ rounds b := by
  induction a with
  | zero => rw [Nat.zero_add]; rfl
  | succ a ih => rw [Nat.succ_add, rounds, ih]; rfl

/-- Two goroutines in step: `n` rounds. -/
def both : Nat → Mem → Gor → Gor → Mem × Gor × Gor
  | 0, m, g, g' => (m, g, g')
  | n + 1, m, g, g' => both n (step (step m g).1 g').1 (step m g).2 (step (step m g).1 g').2

theorem both_add (a b : Nat) (m : Mem) (g g' : Gor) :
    both (a + b) m g g' = both b (both a m g g').1 (both a m g g').2.1 (both a m g g').2.2 := by
  induction a generalizing m g g' with
  | zero => rw [Nat.zero_add]; rfl
  | succ a ih => rw [Nat.succ_add]; exact ih _ _ _

theorem run_rounds (n : Nat) (c : Conf) :
    c.run (rounds n) = { mem := (both n c.mem (c.gor 0) (c.gor 1)).1,
                         gor := upd (upd c.gor 0 (both n c.mem (c.gor 0) (c.gor 1)).2.1) 1 (both n c.mem (c.gor 0) (c.gor 1)).2.2 } := by
  induction n generalizing c with
  | zero =>
    show c = { mem := c.mem, gor := upd (upd c.gor 0 (c.gor 0)) 1 (c.gor 1) }
    rw [upd_self, upd_self]
  | succ n ih =>
    rw [rounds, Conf.run, Conf.run, ih]
    have h0 : ((c.step 0).step 1).gor 0 = (step c.mem (c.gor 0)).2 := by simp [Conf.step, upd]
    have h1 : ((c.step 0).step 1).gor 1 = (step (step c.mem (c.gor 0)).1 (c.gor 1)).2 := by simp [Conf.step, upd]
    have hm : ((c.step 0).step 1).mem = (step (step c.mem (c.gor 0)).1 (c.gor 1)).1 := by simp [Conf.step, upd]
    rw [h0, h1, hm, both]
    congr 1
    have hg : ((c.step 0).step 1).gor = upd (upd c.gor 0 (step c.mem (c.gor 0)).2) 1 (step (step c.mem (c.gor 0)).1 (c.gor 1)).2 := by
      simp [Conf.step, upd]
    rw [hg, upd_comm _ (show (1 : Nat) ≠ 0 by decide), upd_upd, upd_upd]

theorem both_tap (m : Mem) (a : Nat) (ha : m.tap = a) (g g' : Gor) (hg : g.pc = .readTap) (hg' : g'.pc = .readTap) :
    ∃ reg, both (cost a) m g g' =
      ({ m with tap := down a }, { g with pc := .readFeed, reg := reg }, { g' with pc := .readFeed, reg := reg }) := by
  cases g with | mk pc reg x got =>
  cases g' with | mk pc' reg' x' got' =>
  cases m with | mk vec tap feed =>
  dsimp only at ha hg hg'
  subst ha hg hg'
  unfold cost down
  by_cases h0 : a = 0
  · subst h0
    exact ⟨-1, by simp [both, step]⟩
  · refine ⟨a, ?_⟩
    have h1 : ¬ (a : Int) - 1 < 0 := by omega
    have h2 : ((a - 1 : Nat) : Int) = (a : Int) - 1 := by omega
    simp [h0, both, step, h1, h2]

theorem both_feed (m : Mem) (a : Nat) (ha : m.feed = a) (g g' : Gor) (hg : g.pc = .readFeed) (hg' : g'.pc = .readFeed) :
    ∃ reg, both (cost a) m g g' =
      ({ m with feed := down a }, { g with pc := .getFeed, reg := reg }, { g' with pc := .getFeed, reg := reg }) := by
  cases g with | mk pc reg x got =>
  cases g' with | mk pc' reg' x' got' =>
  cases m with | mk vec tap feed =>
  dsimp only at ha hg hg'
  subst ha hg hg'
  unfold cost down
  by_cases h0 : a = 0
  · subst h0
    exact ⟨-1, by simp [both, step]⟩
  · refine ⟨a, ?_⟩
    have h1 : ¬ (a : Int) - 1 < 0 := by omega
    have h2 : ((a - 1 : Nat) : Int) = (a : Int) - 1 := by omega
    simp [h0, both, step, h1, h2]

theorem both_vec (m : Mem) (a b : Nat) (ha : m.tap = a) (hb : m.feed = b) (ha' : a < 607) (hb' : b < 607) (g g' : Gor)
    (hg : g.pc = .getFeed) (hg' : g'.pc = .getFeed) :
    ∃ x, x = (m.vec b + m.vec a) % 2 ^ 64 ∧
      both 3 m g g' = ({ m with vec := upd m.vec b x }, { g with pc := .readTap, x := x, got := g.got ++ [x] },
        { g' with pc := .readTap, x := x, got := g'.got ++ [x] }) := by
  cases g with | mk pc reg x got =>
  cases g' with | mk pc' reg' x' got' =>
  cases m with | mk vec tap feed =>
  dsimp only at ha hb hg hg'
  subst ha hb hg hg'
  refine ⟨_, rfl, ?_⟩
  have h1 : (0 : Int) ≤ b ∧ (b : Int) < 607 := by omega
  simp [both, step, get_nat ha', get_nat hb', h1, upd_upd]

theorem both_uint64 {r : Rng} (h : r.Valid) (g g' : Gor) (hg : g.pc = .readTap) (hg' : g'.pc = .readTap) :
    ∃ k k', both (len r) (memOf r) g g' = (memOf r.uint64.2, k, k') ∧ k.pc = .readTap ∧ k.got = g.got ++ [r.uint64.1] ∧
      k'.pc = .readTap ∧ k'.got = g'.got ++ [r.uint64.1] := by
  have hf : r.feed < 607 := by rw [h.feed_eq]; exact Nat.mod_lt _ (by decide)
  unfold len
  rw [both_add, both_add]
  obtain ⟨r1, e1⟩ := both_tap (memOf r) r.tap rfl g g' hg hg'
  rw [e1]
  obtain ⟨r2, e2⟩ := both_feed { memOf r with tap := down r.tap } r.feed rfl { g with pc := .readFeed, reg := r1 }
    { g' with pc := .readFeed, reg := r1 } rfl rfl
  dsimp only at e2 ⊢
  rw [e2]
  obtain ⟨x, hx, e3⟩ := both_vec { memOf r with tap := down r.tap, feed := down r.feed } (down r.tap) (down r.feed) rfl rfl (down_lt h.tap_lt)
    (down_lt hf) { g with pc := .getFeed, reg := r2 } { g' with pc := .getFeed, reg := r2 } rfl rfl
  dsimp only at e3 ⊢
  rw [e3, memOf_next, ← show x = (r.vec (down r.feed) + r.vec (down r.tap)) % 2 ^ 64 from hx]
  exact ⟨_, _, rfl, rfl, by rw [hx]; rfl, rfl, by rw [hx]; rfl⟩

/-- In step, two goroutines get the same numbers, call after call. -/
theorem lockstep {r : Rng} (h : r.Valid) (n : Nat) (c : Conf) (hm : c.mem = memOf r) (h0 : (c.gor 0).pc = .readTap)
    (h1 : (c.gor 1).pc = .readTap) :
    ∃ N, let c' := c.run (rounds N)
      c'.mem = memOf (r.after n) ∧ (c'.gor 0).pc = .readTap ∧ (c'.gor 1).pc = .readTap ∧
      (c'.gor 0).got = (c.gor 0).got ++ (List.range n).map r.out ∧ (c'.gor 1).got = (c.gor 1).got ++ (List.range n).map r.out := by
  induction n with
  | zero => exact ⟨0, by simp [rounds, Conf.run, hm, h0, h1, Rng.after]⟩
  | succ n ih =>
    obtain ⟨N, e1, e2, e3, e4, e5⟩ := ih
    refine ⟨N + len (r.after n), ?_⟩
    dsimp only
    rw [rounds_add, run_append]
    generalize c.run (rounds N) = d at *
    obtain ⟨k, k', f1, f2, f3, f4, f5⟩ := both_uint64 (Rng.after_valid h n) (d.gor 0) (d.gor 1) e2 e3
    rw [run_rounds, e1, f1]
    refine ⟨rfl, ?_, ?_, ?_, ?_⟩
    · show ((upd (upd d.gor 0 k) 1 k') 0).pc = _
      simpa [upd] using f2
    · show ((upd (upd d.gor 0 k) 1 k') 1).pc = _
      simpa [upd] using f4
    · show ((upd (upd d.gor 0 k) 1 k') 0).got = _
      simp [upd, f3, e4, List.range_succ, Rng.out]
    · show ((upd (upd d.gor 0 k) 1 k') 1).got = _
      simp [upd, f5, e5, List.range_succ, Rng.out]

/-- One goroutine on its own goes through the numbers. -/
theorem solo {r : Rng} (h : r.Valid) (n t : Nat) (c : Conf) (hm : c.mem = memOf r) (h0 : (c.gor t).pc = .readTap) :
    ∃ N, let c' := c.run (List.replicate N t)
      c'.mem = memOf (r.after n) ∧ (c'.gor t).pc = .readTap ∧ ∀ t', t' ≠ t → c'.gor t' = c.gor t' := by
  induction n with
  | zero => exact ⟨0, by simp [Conf.run, hm, h0, Rng.after]⟩
  | succ n ih =>
    obtain ⟨N, e1, e2, e3⟩ := ih
    refine ⟨N + len (r.after n), ?_⟩
    dsimp only
    rw [← List.replicate_append_replicate, run_append]
    generalize c.run (List.replicate N t) = d at *
    obtain ⟨k, f1, f2, f3⟩ := alone_uint64 (Rng.after_valid h n) (d.gor t) e2
    rw [run_alone, e1, f1]
    refine ⟨rfl, ?_, ?_⟩
    · show ((upd d.gor t k) t).pc = _
      simpa [upd] using f2
    · intro t' ht
      show (upd d.gor t k) t' = _
      rw [← e3 t' ht]
      simp [upd, ht]

/-- With the index one step from the end of the array, another goroutine can take it below zero between test and use. -/
theorem crash {r : Rng} (h1 : r.tap = 1) (h2 : r.feed = 335) (c : Conf) (hm : c.mem = memOf r) (h0 : (c.gor 0).pc = .readTap)
    (h0' : (c.gor 1).pc = .readTap) : ((c.run [0, 0, 0, 1, 1, 0, 0, 0, 0, 0]).gor 0).pc = .panicked := by
  obtain ⟨mem, gor⟩ := c
  dsimp only at hm h0 h0'
  subst hm
  have hg : ∃ reg x got, gor 0 = ⟨.readTap, reg, x, got⟩ := by
    cases hc : gor 0 with | mk pc reg x got =>
    rw [hc] at h0
    dsimp only at h0
    subst h0
    exact ⟨_, _, _, rfl⟩
  have hg' : ∃ reg x got, gor 1 = ⟨.readTap, reg, x, got⟩ := by
    cases hc : gor 1 with | mk pc reg x got =>
    rw [hc] at h0'
    dsimp only at h0'
    subst h0'
    exact ⟨_, _, _, rfl⟩
  obtain ⟨a, b, l, hg⟩ := hg
  obtain ⟨a', b', l', hg'⟩ := hg'
  simp [Conf.run, Conf.step, step, upd, hg, hg', memOf, h1, h2, Mem.get]

/-- A goroutine in the middle of a call on `r` with nobody else in one. -/
def At (r : Rng) (m : Mem) (g : Gor) : Prop :=
  match g.pc with
  | .readTap => m = memOf r
  | .writeTap => m = memOf r ∧ g.reg = r.tap
  | .testTap => m = { memOf r with tap := r.tap - 1 }
  | .readTap2 => m = { memOf r with tap := r.tap - 1 } ∧ r.tap = 0
  | .writeTap2 => m = { memOf r with tap := r.tap - 1 } ∧ r.tap = 0 ∧ g.reg = -1
  | .readFeed => m = { memOf r with tap := down r.tap }
  | .writeFeed => m = { memOf r with tap := down r.tap } ∧ g.reg = r.feed
  | .testFeed => m = { memOf r with tap := down r.tap, feed := r.feed - 1 }
  | .readFeed2 => m = { memOf r with tap := down r.tap, feed := r.feed - 1 } ∧ r.feed = 0
  | .writeFeed2 => m = { memOf r with tap := down r.tap, feed := r.feed - 1 } ∧ r.feed = 0 ∧ g.reg = -1
  | .getFeed => m = { memOf r with tap := down r.tap, feed := down r.feed }
  | .getTap => m = { memOf r with tap := down r.tap, feed := down r.feed } ∧ g.x = r.vec (down r.feed)
  | .put => m = { memOf r with tap := down r.tap, feed := down r.feed } ∧ g.x = r.uint64.1
  | .panicked => False

theorem down_cast {a : Nat} (h : ¬ (a : Int) - 1 < 0) : (down a : Int) = a - 1 := by
  unfold down; rw [if_neg (by omega)]; omega

theorem at_step {r : Rng} (hv : r.Valid) {m : Mem} {g : Gor} (h : At r m g) :
    (At r (step m g).1 (step m g).2 ∧ (step m g).2.got = g.got) ∨
    (g.pc = .put ∧ (step m g).1 = memOf r.uint64.2 ∧ (step m g).2.pc = .readTap ∧ (step m g).2.got = g.got ++ [r.uint64.1]) := by
  have ht := down_lt hv.tap_lt
  have hf : down r.feed < 607 := down_lt (by rw [hv.feed_eq]; exact Nat.mod_lt _ (by decide))
  obtain ⟨pc, reg, x, got⟩ := g
  cases pc with
  | readTap =>
    have h : m = memOf r := h
    subst h
    exact .inl ⟨⟨rfl, rfl⟩, rfl⟩
  | writeTap =>
    obtain ⟨h, h2⟩ : m = memOf r ∧ reg = r.tap := h
    subst h h2
    exact .inl ⟨rfl, rfl⟩
  | testTap =>
    have h : m = { memOf r with tap := r.tap - 1 } := h
    subst h
    refine .inl ⟨?_, rfl⟩
    by_cases hc : (r.tap : Int) - 1 < 0
    · simp only [step, hc, if_true]
      exact ⟨rfl, by omega⟩
    · simp only [step, hc, if_false]
      show _ = _
      rw [down_cast hc]
  | readTap2 =>
    obtain ⟨h, h2⟩ : m = { memOf r with tap := r.tap - 1 } ∧ r.tap = 0 := h
    subst h
    exact .inl ⟨⟨rfl, h2, by show (r.tap : Int) - 1 = -1; omega⟩, rfl⟩
  | writeTap2 =>
    obtain ⟨h, h2, h3⟩ : m = { memOf r with tap := r.tap - 1 } ∧ r.tap = 0 ∧ reg = -1 := h
    subst h h3
    refine .inl ⟨?_, rfl⟩
    show _ = _
    unfold down
    rw [if_pos h2]
    rfl
  | readFeed =>
    have h : m = { memOf r with tap := down r.tap } := h
    subst h
    exact .inl ⟨⟨rfl, rfl⟩, rfl⟩
  | writeFeed =>
    obtain ⟨h, h2⟩ : m = { memOf r with tap := down r.tap } ∧ reg = r.feed := h
    subst h h2
    exact .inl ⟨rfl, rfl⟩
  | testFeed =>
    have h : m = { memOf r with tap := down r.tap, feed := r.feed - 1 } := h
    subst h
    refine .inl ⟨?_, rfl⟩
    by_cases hc : (r.feed : Int) - 1 < 0
    · simp only [step, hc, if_true]
      exact ⟨rfl, by omega⟩
    · simp only [step, hc, if_false]
      show _ = _
      rw [down_cast hc]
  | readFeed2 =>
    obtain ⟨h, h2⟩ : m = { memOf r with tap := down r.tap, feed := r.feed - 1 } ∧ r.feed = 0 := h
    subst h
    exact .inl ⟨⟨rfl, h2, by show (r.feed : Int) - 1 = -1; omega⟩, rfl⟩
  | writeFeed2 =>
    obtain ⟨h, h2, h3⟩ : m = { memOf r with tap := down r.tap, feed := r.feed - 1 } ∧ r.feed = 0 ∧ reg = -1 := h
    subst h h3
    refine .inl ⟨?_, rfl⟩
    show _ = _
    rw [show (down r.feed : Int) = -1 + 607 by unfold down; rw [if_pos h2]; rfl]
    rfl
  | getFeed =>
    have h : m = { memOf r with tap := down r.tap, feed := down r.feed } := h
    subst h
    simp only [step, get_nat hf]
    exact .inl ⟨⟨rfl, rfl⟩, trivial⟩
  | getTap =>
    obtain ⟨h, h2⟩ : m = { memOf r with tap := down r.tap, feed := down r.feed } ∧ x = r.vec (down r.feed) := h
    subst h h2
    simp only [step, get_nat ht]
    exact .inl ⟨⟨rfl, rfl⟩, trivial⟩
  | put =>
    obtain ⟨h, h2⟩ : m = { memOf r with tap := down r.tap, feed := down r.feed } ∧ x = r.uint64.1 := h
    subst h h2
    have hb : (0 : Int) ≤ (down r.feed : Nat) ∧ ((down r.feed : Nat) : Int) < 607 := by omega
    refine .inr ⟨rfl, ?_, ?_, ?_⟩
    · simp only [step]
      rw [if_pos hb, memOf_next, Int.toNat_natCast]
      rfl
    · simp only [step]; rw [if_pos hb]
    · simp only [step]; rw [if_pos hb]
  | panicked => exact h.elim

/-- The numbers that fall to goroutine `t` if the calls are made in the order `ts`. -/
def share (r : Rng) (ts : List Nat) (t : Nat) : List Nat :=
  ((List.range ts.length).filter fun i => ts[i]? = some t).map r.out

theorem share_append (r : Rng) (ts : List Nat) (t t' : Nat) :
    share r (ts ++ [t]) t' = share r ts t' ++ (if t' = t then [r.out ts.length] else []) := by
  unfold share
  rw [List.length_append, List.length_singleton, List.range_succ, List.filter_append, List.map_append]
  congr 1
  · congr 1
    refine List.filter_congr fun i hi => ?_
    rw [List.getElem?_append_left (List.mem_range.1 hi)]
  · by_cases h : t' = t
    · subst h; simp
    · have : ¬ t = t' := fun hc => h hc.symm
      simp [h, this]

/-- What holds while no two goroutines are in the middle of a call. -/
def SInv (r : Rng) (c : Conf) (ts : List Nat) : Prop :=
  ∃ t, At (r.after ts.length) c.mem (c.gor t) ∧ (c.gor t).got = share r ts t ∧
    ∀ t', t' ≠ t → (c.gor t').pc = .readTap ∧ (c.gor t').got = share r ts t'

theorem sinv_step {r : Rng} (hv : r.Valid) {c : Conf} {ts : List Nat} (h : SInv r c ts) {t : Nat}
    (hex : ∀ t', t' ≠ t → (c.gor t').pc = .readTap) : SInv r (c.step t) ts ∨ SInv r (c.step t) (ts ++ [t]) := by
  have hAt : At (r.after ts.length) c.mem (c.gor t) ∧ (c.gor t).got = share r ts t := by
    obtain ⟨u, h1, h2, h3⟩ := h
    by_cases hu : u = t
    · subst hu; exact ⟨h1, h2⟩
    · have hp := hex u hu
      unfold At at h1
      rw [hp] at h1
      have hq := (h3 t fun hc => hu hc.symm)
      refine ⟨?_, hq.2⟩
      unfold At
      rw [hq.1]
      exact h1
  have hothers : ∀ t', t' ≠ t → (c.gor t').got = share r ts t' := by
    intro t' ht
    obtain ⟨u, h1, h2, h3⟩ := h
    by_cases hu : t' = u
    · subst hu; exact h2
    · exact (h3 t' hu).2
  have hother : ∀ t', t' ≠ t → (c.step t).gor t' = c.gor t' := fun t' ht => by simp [Conf.step, upd, ht]
  have hself : (c.step t).gor t = (step c.mem (c.gor t)).2 := by simp [Conf.step, upd]
  have hmem : (c.step t).mem = (step c.mem (c.gor t)).1 := rfl
  rcases at_step (Rng.after_valid hv ts.length) hAt.1 with ⟨h1, h2⟩ | ⟨_, h1, h2, h3⟩
  · refine .inl ⟨t, by rw [hmem, hself]; exact h1, by rw [hself, h2, hAt.2], fun t' ht => ?_⟩
    rw [hother t' ht]
    exact ⟨hex t' ht, hothers t' ht⟩
  · refine .inr ⟨t, ?_, ?_, fun t' ht => ?_⟩
    · rw [hmem, hself]
      unfold At
      rw [h2, h1, List.length_append, List.length_singleton]
      rfl
    · rw [hself, h3, hAt.2, share_append, if_pos rfl]
      rfl
    · rw [hother t' ht, share_append, if_neg ht, List.append_nil]
      exact ⟨hex t' ht, hothers t' ht⟩

theorem sinv_run {r : Rng} (hv : r.Valid) (sched : List Nat) {c : Conf} {ts : List Nat} (h : SInv r c ts)
    (hex : ∀ a t b, sched = a ++ t :: b → ∀ t', t' ≠ t → ((c.run a).gor t').pc = .readTap) : ∃ ts', SInv r (c.run sched) ts' := by
  induction sched generalizing c ts with
  | nil => exact ⟨ts, h⟩
  | cons x xs ih =>
    have h1 := hex [] x xs rfl
    rcases sinv_step hv h h1 with h2 | h2 <;>
      exact ih h2 fun a t b he => hex (x :: a) t b (by rw [he]; rfl)

end GoIdentity.Race
