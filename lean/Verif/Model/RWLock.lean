import Verif.Model.Concurrency
/-!
# `sync.RWMutex` in more detail

`Model/Concurrency` takes the lock of a database (database.go:100, 116) as a flag and a counter.  Go's mutex
gives writers precedence: `Lock` first takes an inner mutex, which keeps other writers out, and announces itself; from then
on `RLock` queues instead of entering.  The writer enters when the last active reader has left.  `Unlock` admits all queued
readers at once and releases the inner mutex.  Taking the inner mutex and announcing are one step here, as are withdrawing the
announcement, admitting the queue and releasing the inner mutex.
-/
namespace GoIdentity.Conc

/-- The inner mutex: free, or held by a goroutine that waits for the readers to leave, or by the writer inside. -/
inductive Owner
  | free
  | pending (t : Nat)
  | held (t : Nat)
  deriving DecidableEq, Repr

/-- Where a goroutine stands. -/
inductive FStatus (σ τ : Type)
  | waiting (l : τ)
  | queued (l : τ)
  | announced (l : τ)
  | inside (rest : List (σ → τ → σ × τ)) (l : τ)
  | done (l : τ)

/-- A configuration of the detailed mutex: `queue` lists the readers that wait for the writer to leave. -/
structure FConfig (σ τ : Type) where
  shared : σ
  owner : Owner
  readers : Nat
  queue : List Nat
  threads : Nat → FStatus σ τ
  order : List Nat

/-- `Unlock` lets every queued reader in. -/
def admit {σ τ : Type} (progs : Nat → Prog σ τ) (th : Nat → FStatus σ τ) : Nat → FStatus σ τ := fun t =>
  match th t with
  | .queued l => .inside (progs t).steps l
  | s => s

/-- One scheduling decision; `none` means that the goroutine is blocked or finished. -/
def fstep {σ τ : Type} (progs : Nat → Prog σ τ) (t : Nat) (c : FConfig σ τ) : Option (FConfig σ τ) :=
  match c.threads t with
  | .waiting l =>
    match (progs t).kind with
    | .none => some { c with threads := upd c.threads t (.inside (progs t).steps l), order := c.order ++ [t] }
    | .read =>
      if c.owner = .free then
        some { c with
          readers := c.readers + 1, threads := upd c.threads t (.inside (progs t).steps l), order := c.order ++ [t] }
      else some { c with threads := upd c.threads t (.queued l), queue := c.queue ++ [t] }
    | .write =>
      if c.owner = .free then some { c with owner := .pending t, threads := upd c.threads t (.announced l) }
      else none
  | .queued _ => none
  | .announced l =>
    if c.readers = 0 then
      some { c with
        owner := .held t, threads := upd c.threads t (.inside (progs t).steps l), order := c.order ++ [t] }
    else none
  | .inside (f :: rest) l =>
    let (s, l) := f c.shared l
    some { c with shared := s, threads := upd c.threads t (.inside rest l) }
  | .inside [] l =>
    match (progs t).kind with
    | .none => some { c with threads := upd c.threads t (.done l) }
    | .read => some { c with readers := c.readers - 1, threads := upd c.threads t (.done l) }
    | .write =>
      some { c with
        owner := .free, readers := c.readers + c.queue.length, queue := []
        threads := admit progs (upd c.threads t (.done l)), order := c.order ++ c.queue }
  | .done _ => none

/-- Run a schedule; a decision that picks a blocked or finished goroutine has no effect. -/
def runFine {σ τ : Type} (progs : Nat → Prog σ τ) : List Nat → FConfig σ τ → FConfig σ τ
  | [], c => c
  | t :: ts, c => runFine progs ts ((fstep progs t c).getD c)

/-- All goroutines before their call. -/
def finitial {σ τ : Type} (s : σ) (locals : Nat → τ) : FConfig σ τ :=
  { shared := s, owner := .free, readers := 0, queue := [], threads := fun t => .waiting (locals t), order := [] }

end GoIdentity.Conc
