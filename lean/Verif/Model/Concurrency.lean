import Verif.Model.Database
/-!
# Goroutines and the `sync.RWMutex` of a database

Every call locks `db.mu` on entry and unlocks it by `defer` (database.go:252-253, 303-304, 319-320, 331-332, 354-355,
431-432, 438-439, 445-446, 485-486, 502-503, 524-525, 541-542, 580-581, 598-599, 620-621, 642-643, 673-674, 690-691,
707-708, 726-727); `GetPath` (246-248) does not lock.  A call is a list of micro-steps on the shared state and
goroutine-local data; goroutines interleave at micro-step granularity.  The shared state `σ` and the local data `τ` are
arbitrary.
-/
namespace GoIdentity.Conc

/-- How a call locks. -/
inductive LockKind
  | none | read | write
  deriving DecidableEq, Repr

/-- The code of one call: its lock and the micro-steps of its critical section. -/
structure Prog (σ τ : Type) where
  kind : LockKind
  steps : List (σ → τ → σ × τ)

/-- Where a goroutine stands: before the lock, inside with the remaining micro-steps, or after the unlock. -/
inductive Status (σ τ : Type)
  | waiting (l : τ)
  | inside (rest : List (σ → τ → σ × τ)) (l : τ)
  | done (l : τ)

/-- A configuration: shared state, the RWMutex (a writer flag and a reader count), the goroutines, and the order in which
they entered (a history variable). -/
structure Config (σ τ : Type) where
  shared : σ
  writer : Bool
  readers : Nat
  threads : Nat → Status σ τ
  order : List Nat

/-- One scheduling decision: goroutine `t` of program `progs t` makes its next step.  `none` means that it is blocked or
finished. -/
def step {σ τ : Type} (progs : Nat → Prog σ τ) (t : Nat) (c : Config σ τ) : Option (Config σ τ) :=
  match c.threads t with
  | .waiting l =>
    match (progs t).kind with
    | .none => some { c with threads := upd c.threads t (.inside (progs t).steps l), order := c.order ++ [t] }
    | .read =>
      if c.writer then none
      else some { c with
        readers := c.readers + 1, threads := upd c.threads t (.inside (progs t).steps l), order := c.order ++ [t] }
    | .write =>
      if c.writer ∨ c.readers ≠ 0 then none
      else some { c with
        writer := true, threads := upd c.threads t (.inside (progs t).steps l), order := c.order ++ [t] }
  | .inside (f :: rest) l =>
    let (s, l) := f c.shared l
    some { c with shared := s, threads := upd c.threads t (.inside rest l) }
  | .inside [] l =>
    match (progs t).kind with
    | .none => some { c with threads := upd c.threads t (.done l) }
    | .read => some { c with readers := c.readers - 1, threads := upd c.threads t (.done l) }
    | .write => some { c with writer := false, threads := upd c.threads t (.done l) }
  | .done _ => none

/-- Run a schedule; a decision that picks a blocked or finished goroutine has no effect. -/
def runSched {σ τ : Type} (progs : Nat → Prog σ τ) : List Nat → Config σ τ → Config σ τ
  | [], c => c
  | t :: ts, c => runSched progs ts ((step progs t c).getD c)

/-- All goroutines before their call. -/
def initial {σ τ : Type} (s : σ) (locals : Nat → τ) : Config σ τ :=
  { shared := s, writer := false, readers := 0, threads := fun t => .waiting (locals t), order := [] }

/-- The lock each call takes (the line numbers above). -/
def lockOf : Call → LockKind
  | .getUsers | .getUser | .authenticateUser | .getPublicKeys | .getAPIKeys | .getMfaTokens => .read
  | _ => .write

end GoIdentity.Conc
