import Verif.Lemmas.Conc
import Verif.Lemmas.Frame
import Verif.Props.Identity
import Verif.Spec.Toy
/-!
# Concurrent calls: C51, C52
-/
namespace GoIdentity.Conc
open Toy

/-! ## C51 -/

/-- C51, for any shared data: whatever the schedule, each goroutine that has returned from a locked call holds what it would
hold if the goroutines had made their calls one at a time in the order of locking; and when no locked call is under way the
shared state is the one this leaves.  Goroutines that take no lock may run at any time provided they only read.  The state is
compared through a view `π`, so that parts no call depends on (caches) may be written by readers. -/
theorem C51_serialisable {σ τ ρ : Type} {progs : Nat → Prog σ τ} {π : σ → ρ} (hd : Discipline progs π) (locals : Nat → τ)
    (s : σ) (sched : List Nat) :
    let c := runSched progs sched (initial s locals)
    (∀ t before after l, lockOrder progs c = before ++ t :: after → c.threads t = .done l →
      l = serialResult progs locals before t s) ∧
    ((∀ t, (progs t).kind ≠ .none → ¬ Inside (c.threads t)) →
      π c.shared = π (serialState progs locals (lockOrder progs c) s)) := by
  have h := run_inv hd (initial_inv progs π locals s) sched
  refine ⟨h.done, fun hq => h.quiet ?_⟩
  cases hw : (runSched progs sched (initial s locals)).writer with
  | false => rfl
  | true =>
    obtain ⟨w, hk, hin, _⟩ := h.locked hw
    exact absurd hin (hq w (by rw [hk]; simp))

/-- C51: every goroutine that has returned from a locked call is in the order exactly once. -/
theorem C51_order_complete {σ τ ρ : Type} {progs : Nat → Prog σ τ} {π : σ → ρ} (hd : Discipline progs π) (locals : Nat → τ)
    (s : σ) (sched : List Nat) :
    let c := runSched progs sched (initial s locals)
    (lockOrder progs c).Nodup ∧
    ∀ t l, c.threads t = .done l → (progs t).kind ≠ .none → t ∈ lockOrder progs c := by
  have h := run_inv hd (initial_inv progs π locals s) sched
  refine ⟨h.nodup.filter _, fun t l hl hk => mem_lockOrder.2 ⟨(h.entered t).2 ?_, hk⟩⟩
  intro l' hl'
  rw [hl] at hl'
  simp at hl'

/-- C51: the order respects real time: if one call has returned when another has not yet begun, it comes first. -/
theorem C51_real_time_order {σ τ ρ : Type} {progs : Nat → Prog σ τ} {π : σ → ρ} (hd : Discipline progs π) (locals : Nat → τ)
    (s : σ) (sched later : List Nat) {t t' : Nat} {l l' : τ}
    (hdone : (runSched progs sched (initial s locals)).threads t = .done l) (hk : (progs t).kind ≠ .none)
    (hwait : (runSched progs sched (initial s locals)).threads t' = .waiting l') :
    let c := runSched progs later (runSched progs sched (initial s locals))
    ∃ before after, lockOrder progs c = before ++ after ∧ t ∈ before ∧ t' ∉ before := by
  have h := run_inv hd (initial_inv progs π locals s) sched
  obtain ⟨b, hb⟩ := order_prefix progs later (runSched progs sched (initial s locals))
  refine ⟨lockOrder progs (runSched progs sched (initial s locals)), b.filter fun t => (progs t).kind ≠ .none, ?_, ?_, ?_⟩
  · unfold lockOrder; rw [← hb, List.filter_append]
  · refine mem_lockOrder.2 ⟨(h.entered t).2 ?_, hk⟩
    intro l' hl'; rw [hdone] at hl'; simp at hl'
  · intro hm
    exact (h.entered t').1 (mem_lockOrder.1 hm).1 _ hwait

/-- Shared state with a cache of derived values, none of them stale (`MfaToken.pubkey`, mfa_token.go:64, filled from the
token's parameters, which never change). -/
def WithCache (σ κ : Type) (derive : σ → Nat → κ) : Type := { p : σ × (Nat → Option κ) // ∀ i k, p.2 i = some k → k = derive p.1 i }

/-- Take a derived value from the cache, or derive it and fill the cache (mfa_token.go:310-314, run under the read lock). -/
def readThrough {σ κ τ : Type} (derive : σ → Nat → κ) (i : Nat) (use : κ → τ → τ) :
    WithCache σ κ derive → τ → WithCache σ κ derive × τ := fun p l =>
  match p.1.2 i with
  | some k => (p, use k l)
  | none => (⟨(p.1.1, upd p.1.2 i (some (derive p.1.1 i))), fun j k h => by
      by_cases hj : j = i
      · subst hj; simp only [upd, if_true, Option.some.injEq] at h; exact h.symm
      · simp only [upd, if_neg hj] at h; exact p.2 j k h⟩, use (derive p.1.1 i) l)

/-- C51: filling the cache while others read is no hazard to the results: seen through the view that leaves out the cache, such
a step only reads, and what it yields does not depend on the cache.  (In Go this unsynchronised write is a data race on the
pointer; the model takes pointer writes to be atomic.) -/
theorem C51_cache_invisible {σ κ τ : Type} (derive : σ → Nat → κ) (i : Nat) (use : κ → τ → τ) (s s' : WithCache σ κ derive)
    (l : τ) :
    (readThrough derive i use s l).1.1.1 = s.1.1 ∧
    (s.1.1 = s'.1.1 → (readThrough derive i use s l).2 = (readThrough derive i use s' l).2) := by
  have hval : ∀ p : WithCache σ κ derive, (readThrough derive i use p l).2 = use (derive p.1.1 i) l ∧
      (readThrough derive i use p l).1.1.1 = p.1.1 := by
    intro p
    unfold readThrough
    cases hp : p.1.2 i with
    | none => exact ⟨rfl, rfl⟩
    | some k => exact ⟨by rw [p.2 i k hp], rfl⟩
  refine ⟨(hval s).2, fun h => ?_⟩
  rw [(hval s).1, (hval s').1, h]

/-- A program that performs a `Database` call: it locks as the call does, its micro-steps together do what the call does,
and while it holds the lock for reading it only reads.  How the call is divided into micro-steps is left open. -/
structure Performs [Ext] {τ : Type} (op : Op) (p : Prog (Database × FS) τ) (start : τ) (result : τ → Option (Request × Outcome)) :
    Prop where
  kind : p.kind = lockOf op.call
  readOnly : p.kind = .read → ∀ f ∈ p.steps, ∀ s l, (f s l).1 = s
  whole : ∀ db fs, (runSteps p.steps (db, fs) start).1 =
      ((exec op.call op.nd db fs op.req).db, (exec op.call op.nd db fs op.req).fs) ∧
    result (runSteps p.steps (db, fs) start).2 =
      some ((exec op.call op.nd db fs op.req).req, (exec op.call op.nd db fs op.req).out)

/-- The database and the files after some calls, one at a time. -/
def oneAtATime [Ext] : List Op → Database × FS → Database × FS
  | [], s => s
  | o :: os, s => oneAtATime os ((exec o.call o.nd s.1 s.2 o.req).db, (exec o.call o.nd s.1 s.2 o.req).fs)

theorem Performs.lock_ne_none [Ext] {τ : Type} {op : Op} {p : Prog (Database × FS) τ} {start : τ}
    {result : τ → Option (Request × Outcome)} (h : Performs op p start result) : p.kind ≠ .none := by
  rw [h.kind]; unfold lockOf; split <;> simp

theorem serialState_oneAtATime [Ext] {τ : Type} {ops : Nat → Op} {progs : Nat → Prog (Database × FS) τ} {locals : Nat → τ}
    {result : τ → Option (Request × Outcome)} (h : ∀ t, Performs (ops t) (progs t) (locals t) result) (ts : List Nat)
    (s : Database × FS) : serialState progs locals ts s = oneAtATime (ts.map ops) s := by
  induction ts generalizing s with
  | nil => rfl
  | cons t ts ih =>
    simp only [serialState, List.map_cons, oneAtATime]
    rw [((h t).whole s.1 s.2).1, ih]

/-- C51: any number of goroutines calling a database, each call divided into micro-steps in any way, under any schedule: the
request and error of each call that has returned are those of the call made after the calls before it in the order of
locking, one at a time; and when no call is under way, database and files are what all of them leave, one at a time. -/
theorem C51_database_calls_serialisable [Ext] {τ : Type} {ops : Nat → Op} {progs : Nat → Prog (Database × FS) τ}
    {locals : Nat → τ} {result : τ → Option (Request × Outcome)} (h : ∀ t, Performs (ops t) (progs t) (locals t) result)
    (db : Database) (fs : FS) (sched : List Nat) :
    let c := runSched progs sched (initial (db, fs) locals)
    (∀ t before after l, c.order = before ++ t :: after → c.threads t = .done l →
      let s := oneAtATime (before.map ops) (db, fs)
      let r := exec (ops t).call (ops t).nd s.1 s.2 (ops t).req
      result l = some (r.req, r.out)) ∧
    ((∀ t, ¬ Inside (c.threads t)) → c.shared = oneAtATime (c.order.map ops) (db, fs)) := by
  have hnw : ∀ t, (progs t).kind ≠ .write → (progs t).kind = .read := by
    intro t hk
    have hn := (h t).lock_ne_none
    cases e : (progs t).kind with
    | none => exact absurd e hn
    | read => rfl
    | write => exact absurd e hk
  have hd : Discipline progs (fun s => s) :=
    ⟨fun t f _ s s' l hs => by have : s = s' := hs; rw [this]; exact ⟨rfl, rfl⟩,
     fun t hk f hf s l => (h t).readOnly (hnw t hk) f hf s l⟩
  obtain ⟨h1, h2⟩ := C51_serialisable hd locals (db, fs) sched
  intro c
  have ho : lockOrder progs c = c.order := by
    unfold lockOrder
    rw [List.filter_eq_self]
    intro t _
    simpa using (h t).lock_ne_none
  refine ⟨fun t before after l hs hl => ?_, fun hq => ?_⟩
  · have := h1 t before after l (by rw [ho]; exact hs) hl
    rw [this, serialResult, serialState_oneAtATime h]
    exact ((h t).whole _ _).2
  · rw [h2 fun t _ => hq t]
    show serialState progs locals (lockOrder progs c) (db, fs) = _
    rw [ho, serialState_oneAtATime h]

/-- C51: reading calls can be performed under a shared lock: they change neither database nor files. -/
theorem C51_read_locked_calls_only_read [Ext] {c : Call} (hc : lockOf c = .read) (nd : Nondet) (db : Database) (fs : FS)
    (req : Request) : (exec c nd db fs req).Unchanged db fs :=
  C43_read_only_calls (by cases c <;> first | rfl | simp [lockOf] at hc) nd db fs req

/-- A call done in one micro-step. -/
def callProg [Ext] (op : Op) : Prog (Database × FS) (Option (Request × Outcome)) :=
  { kind := lockOf op.call
    steps := [fun s _ =>
      let r := exec op.call op.nd s.1 s.2 op.req
      ((r.db, r.fs), some (r.req, r.out))] }

/-- Every call has such a program, so the theorem above is not about nothing. -/
theorem callProg_performs [Ext] (op : Op) : Performs op (callProg op) none id := by
  refine ⟨rfl, fun hk f hf s l => ?_, fun db fs => ⟨rfl, rfl⟩⟩
  simp only [callProg, List.mem_singleton] at hf
  subst hf
  obtain ⟨h1, h2⟩ := C51_read_locked_calls_only_read hk op.nd s.1 s.2 op.req
  show ((exec op.call op.nd s.1 s.2 op.req).db, (exec op.call op.nd s.1 s.2 op.req).fs) = s
  rw [h1, h2]

/-- `Copy` (database.go:444-453) in the five micro-steps of its source lines. -/
structure CopyLocal where
  path : GoString
  err : Option GoErr
  result : Option (Request × Outcome)

def copyProg [Ext] (nd : Nondet) (fp : GoString) (req : Request) : Prog (Database × FS) CopyLocal :=
  { kind := .write
    steps := [
      fun s l => (s, { l with path := s.1.path }),
      fun s l => (({ s.1 with path := fp }, s.2), l),
      fun s l => let r := s.1.commit nd s.2; ((r.1, r.2.1), { l with err := r.2.2 }),
      fun s l => (({ s.1 with path := l.path }, s.2), l),
      fun s l => (s, { l with result := some (req, .done l.err) })] }

theorem copyProg_performs [Ext] (nd : Nondet) (fp : GoString) (req : Request) (l : CopyLocal) :
    Performs ⟨.copy fp, req, nd⟩ (copyProg nd fp req) l CopyLocal.result := by
  refine ⟨rfl, fun hk => absurd hk (by simp [copyProg]), fun db fs => ?_⟩
  simp only [copyProg, runSteps, exec, Database.copy]
  rcases ({ db with path := fp } : Database).commit nd fs with ⟨db', fs', _ | e⟩ <;> exact ⟨rfl, rfl⟩

-- Three goroutines interleaved: `AddUser` waits until `GetUsers` has left, and the schedule ends with everything done in the
-- order 1, 0, 2.
example : (runSched (fun t => callProg (if t = 0 then ⟨.addUser, reqJoe, nd⟩ else if t = 1 then ⟨.getUsers, reqJoe, nd⟩
      else ⟨.addUser, reqAnn, nd2⟩)) [1, 0, 1, 0, 1, 0, 2, 0, 0, 2, 2, 2] (initial (db0, fs1) fun _ => none)).order =
    [1, 0, 2] := by decide +kernel

/-! ## C52 -/

/-- `GetPath` (database.go:246-248): no lock, one read. -/
def getPathProg : Prog (Database × FS) CopyLocal :=
  { kind := .none, steps := [fun s l => (s, { l with path := s.1.getPath })] }

/-- C52, the property fails: while goroutine 0 is in `Copy(fp)`, goroutine 1's `GetPath` returns `fp`, for every database
and every `fp`. -/
theorem C52_getPath_sees_copy_target [Ext] (nd : Nondet) (db : Database) (fs : FS) (fp : GoString) (req : Request) :
    ∃ sched l,
      (runSched (fun t => if t = 0 then copyProg nd fp req else getPathProg) sched
        (initial (db, fs) fun _ => ⟨[], none, none⟩)).threads 1 = .done l ∧ l.path = fp := by
  refine ⟨[0, 0, 0, 1, 1, 1], ⟨fp, none, none⟩, ?_, rfl⟩
  simp [runSched, step, initial, copyProg, getPathProg, upd, Database.getPath]

/-- C52, hence it is false that `GetPath` always returns the path the database was opened with. -/
theorem C52_getPath_unstable [Ext] (nd : Nondet) (db : Database) (fs : FS) (req : Request) :
    ¬ ∀ fp sched l,
      (runSched (fun t => if t = 0 then copyProg nd fp req else getPathProg) sched
        (initial (db, fs) fun _ => ⟨[], none, none⟩)).threads 1 = .done l → l.path = db.path := by
  intro h
  obtain ⟨sched, l, h1, h2⟩ := C52_getPath_sees_copy_target nd db fs (db.path ++ [0]) req
  have := h _ sched l h1
  rw [h2] at this
  have hlen := congrArg List.length this
  simp at hlen

/-- C52, what does hold: `GetPath` between calls returns the path the database was opened with, after any history. -/
theorem C52_getPath_between_calls [Ext] (ops : List Op) (s : Database × FS) :
    (oneAtATime ops s).1.getPath = s.1.getPath := by
  induction ops generalizing s with
  | nil => rfl
  | cons o os ih =>
    simp only [oneAtATime]
    rw [ih]
    exact (exec_path _ _ _ _ _).1

/-- C52, what does hold: if no program assigns to the path (every call but `Copy`), `GetPath` returns it under any schedule. -/
theorem C52_getPath_stable_without_copy {progs : Nat → Prog (Database × FS) CopyLocal}
    (h : ∀ t, ∀ f ∈ (progs t).steps, ∀ s l, (f s l).1.1.path = s.1.path) (locals : Nat → CopyLocal)
    (db : Database) (fs : FS) (sched : List Nat) {t : Nat} {l : CopyLocal} (ht : progs t = getPathProg)
    (hdone : (runSched progs sched (initial (db, fs) locals)).threads t = .done l) : l.path = db.path := by
  have key : ∀ (sched : List Nat) (c : Config (Database × FS) CopyLocal), c.shared.1.path = db.path →
      (∀ x rest l, c.threads x = .inside rest l → rest <:+ (progs x).steps) →
      (∀ l, c.threads t = .inside [] l → l.path = db.path) → (∀ l, c.threads t = .done l → l.path = db.path) →
      ∀ l, (runSched progs sched c).threads t = .done l → l.path = db.path := by
    intro sched
    induction sched with
    | nil => intro c _ _ _ h4 l hl; exact h4 l hl
    | cons x xs ih =>
      intro c h1 h2 h3 h4 l hl
      unfold runSched at hl
      refine ih _ ?_ ?_ ?_ ?_ l hl
      all_goals
        cases hs : step progs x c with
        | none => simpa only [Option.getD_none] using by assumption
        | some c' =>
          dsimp only [Option.getD_some]
          have hother : ∀ y, y ≠ x → c'.threads y = c.threads y := by
            intro y hy
            unfold step at hs
            repeat' split at hs
            all_goals first
              | (simp at hs; done)
              | (simp only [Option.some.injEq] at hs; subst hs; simp [upd, hy])
          have hcases : (∃ l, c.threads x = .waiting l ∧ c'.shared = c.shared ∧ c'.threads x = .inside (progs x).steps l) ∨
              (∃ f rest l, c.threads x = .inside (f :: rest) l ∧ c'.shared = (f c.shared l).1 ∧
                c'.threads x = .inside rest (f c.shared l).2) ∨
              (∃ l, c.threads x = .inside [] l ∧ c'.shared = c.shared ∧ c'.threads x = .done l) := by
            unfold step at hs
            split at hs
            · rename_i l hl
              left
              refine ⟨l, hl, ?_⟩
              repeat' split at hs
              all_goals first
                | (simp at hs; done)
                | (simp only [Option.some.injEq] at hs; subst hs; simp [upd])
            · rename_i f rest l hl
              right; left
              simp only [Option.some.injEq] at hs
              subst hs
              exact ⟨f, rest, l, hl, rfl, by simp [upd]⟩
            · rename_i l hl
              right; right
              refine ⟨l, hl, ?_⟩
              repeat' split at hs
              all_goals first
                | (simp at hs; done)
                | (simp only [Option.some.injEq] at hs; subst hs; simp [upd])
            · simp at hs
          first
          | (show c'.shared.1.path = db.path
             rcases hcases with ⟨l, _, e, _⟩ | ⟨f, rest, l, e0, e, _⟩ | ⟨l, _, e, _⟩
             · rw [e]; exact h1
             · rw [e, h x f ((h2 x _ _ e0).mem (by simp))]; exact h1
             · rw [e]; exact h1)
          | (intro y rest l hy
             by_cases hyx : y = x
             · subst hyx
               rcases hcases with ⟨l, _, _, e⟩ | ⟨f, rest, l, e0, _, e⟩ | ⟨l, _, _, e⟩
               · rw [e] at hy; simp only [Status.inside.injEq] at hy; rw [← hy.1]; exact List.suffix_refl _
               · rw [e] at hy; simp only [Status.inside.injEq] at hy; rw [← hy.1]
                 exact (List.suffix_cons _ _).trans (h2 y _ _ e0)
               · rw [e] at hy; simp at hy
             · rw [hother y hyx] at hy; exact h2 y rest l hy)
          | (intro l hy
             by_cases hyx : t = x
             · subst hyx
               rcases hcases with ⟨l, _, _, e⟩ | ⟨f, rest, l, e0, _, e⟩ | ⟨l, e0, _, e⟩
               · rw [e, ht] at hy; simp [getPathProg] at hy
               · rw [e] at hy
                 have hsuf := h2 t _ _ e0
                 rw [ht] at hsuf
                 have hlen := hsuf.length_le
                 simp only [getPathProg, List.length_cons, List.length_nil] at hlen
                 have hr : rest = [] := List.length_eq_zero_iff.1 (by omega)
                 subst hr
                 have hf := hsuf.eq_of_length rfl
                 simp only [getPathProg, List.cons.injEq, and_true] at hf
                 subst hf
                 simp only [Status.inside.injEq, true_and, reduceCtorEq] at hy
                 try (rw [← hy]; exact h1)
               · rw [e] at hy
                 simp only [Status.done.injEq, reduceCtorEq] at hy
                 try (rw [← hy]; exact h3 _ e0)
             · rw [hother t hyx] at hy
               first | exact h3 l hy | exact h4 l hy)
  refine key sched _ rfl ?_ ?_ ?_ l hdone
  · intro x rest l hx; simp [initial] at hx
  · intro l hx; simp [initial] at hx
  · intro l hx; simp [initial] at hx

-- Before and after a `Copy` the path is the database's own.
example : ∃ l, (runSched (fun t => if t = 0 then copyProg nd (gs! "/tmp/copy.json") reqJoe else getPathProg)
    [0, 0, 0, 0, 0, 0, 0, 0, 1, 1, 1] (initial (db0, fs1) fun _ => ⟨[], none, none⟩)).threads 1 = .done l ∧
    l.path = path := ⟨⟨path, none, none⟩, by
      simp [runSched, step, initial, copyProg, getPathProg, upd, Database.getPath]; rfl, rfl⟩

end GoIdentity.Conc
