import Verif.Model.Rand
/-!
# The sequence of a generator
-/
namespace GoIdentity.Rng

/-- The state after `k` steps. -/
def after (r : Rng) : Nat → Rng
  | 0 => r
  | k + 1 => (r.after k).uint64.2

/-- The `k`-th number (from 0). -/
def out (r : Rng) (k : Nat) : Nat := (r.after k).uint64.1

/-- The numbers as `Int31` returns them: 31 bits. -/
def out31 (r : Rng) (k : Nat) : Nat := r.out k % 2 ^ 63 / 2 ^ 32

end GoIdentity.Rng
