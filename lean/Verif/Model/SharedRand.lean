import Verif.Model.Rand
import Verif.Model.Database
/-!
# The generator without a lock

`seed` (random.go:25-27) is one variable for the whole process, and `rand.New(rand.NewSource(...))` is not safe for use by several
goroutines.  The lock of a database (database.go:100) orders the calls on that database only: calls on two databases, and the
exported `GetRandomString`, `NewAPIKey`, `NewPublicKey`, `NewMfaToken`, reach `rngSource.Uint64` without any order.  Here its
statements are taken apart into reads and writes of memory, which goroutines may interleave in any way.
-/
namespace GoIdentity.Race

/-- The memory of an `rngSource`: the indices are of type int and may be negative for a moment. -/
structure Mem where
  vec : Nat → Nat
  tap : Int
  feed : Int

/-- Where a goroutine stands in math/rand `rngSource.Uint64`.

`rng.tap--` is `readTap`, `writeTap`; `if rng.tap < 0 { rng.tap += rngLen }` is `testTap`, `readTap2`, `writeTap2`; the same for
`feed`; `x := rng.vec[rng.feed] + rng.vec[rng.tap]` is `getFeed`, `getTap`; `rng.vec[rng.feed] = x` is `put`. -/
inductive Pc
  | readTap | writeTap | testTap | readTap2 | writeTap2
  | readFeed | writeFeed | testFeed | readFeed2 | writeFeed2
  | getFeed | getTap | put
  | panicked
  deriving DecidableEq, Repr

/-- A goroutine that calls `Uint64` again and again: a register for an index, one for the sum, and the numbers obtained. -/
structure Gor where
  pc : Pc
  reg : Int
  x : Nat
  got : List Nat

/-- Before the first call. -/
def Gor.start : Gor := { pc := .readTap, reg := 0, x := 0, got := [] }

/-- `vec[i]`; outside the array the runtime panics. -/
def Mem.get (m : Mem) (i : Int) : Option Nat := if 0 ≤ i ∧ i < 607 then some (m.vec i.toNat) else none

/-- One memory access of a goroutine. -/
def step (m : Mem) (g : Gor) : Mem × Gor :=
  match g.pc with
  | .readTap => (m, { g with reg := m.tap, pc := .writeTap })
  | .writeTap => ({ m with tap := g.reg - 1 }, { g with pc := .testTap })
  | .testTap => (m, { g with pc := if m.tap < 0 then .readTap2 else .readFeed })
  | .readTap2 => (m, { g with reg := m.tap, pc := .writeTap2 })
  | .writeTap2 => ({ m with tap := g.reg + 607 }, { g with pc := .readFeed })
  | .readFeed => (m, { g with reg := m.feed, pc := .writeFeed })
  | .writeFeed => ({ m with feed := g.reg - 1 }, { g with pc := .testFeed })
  | .testFeed => (m, { g with pc := if m.feed < 0 then .readFeed2 else .getFeed })
  | .readFeed2 => (m, { g with reg := m.feed, pc := .writeFeed2 })
  | .writeFeed2 => ({ m with feed := g.reg + 607 }, { g with pc := .getFeed })
  | .getFeed =>
    match m.get m.feed with
    | some v => (m, { g with x := v, pc := .getTap })
    | none => (m, { g with pc := .panicked })
  | .getTap =>
    match m.get m.tap with
    | some v => (m, { g with x := (g.x + v) % 2 ^ 64, pc := .put })
    | none => (m, { g with pc := .panicked })
  | .put =>
    if 0 ≤ m.feed ∧ m.feed < 607 then
      ({ m with vec := upd m.vec m.feed.toNat g.x }, { g with got := g.got ++ [g.x], pc := .readTap })
    else (m, { g with pc := .panicked })
  | .panicked => (m, g)

/-- The memory and all goroutines. -/
structure Conf where
  mem : Mem
  gor : Nat → Gor

/-- The scheduler lets goroutine `t` make one memory access. -/
def Conf.step (c : Conf) (t : Nat) : Conf :=
  let (m, g) := Race.step c.mem (c.gor t)
  { mem := m, gor := upd c.gor t g }

/-- The scheduler's choices one after the other. -/
def Conf.run (c : Conf) : List Nat → Conf
  | [] => c
  | t :: ts => (c.step t).run ts

/-- The memory that holds the generator `r`. -/
def memOf (r : Rng) : Mem := { vec := r.vec, tap := r.tap, feed := r.feed }

/-- All goroutines are about to call `Uint64` on `r` for the first time. -/
def initialOn (r : Rng) : Conf := { mem := memOf r, gor := fun _ => Gor.start }

end GoIdentity.Race
