import Verif.Props.Locking
import Verif.Props.Refinement
/-!
# Goroutines share a plain list of accounts: C95
-/
namespace GoIdentity.Conc
open Toy

theorem order_prefix_fine {σ τ : Type} (progs : Nat → Prog σ τ) (sched : List Nat) (c : FConfig σ τ) :
    ∃ b, c.order ++ b = (runFine progs sched c).order := by
  induction sched generalizing c with
  | nil => exact ⟨[], by simp [runFine]⟩
  | cons t ts ih =>
    rw [runFine]
    obtain ⟨b, hb⟩ := ih ((fstep progs t c).getD c)
    have h1 : ∃ b', ((fstep progs t c).getD c).order = c.order ++ b' := by
      unfold fstep
      split
      · split
        · exact ⟨_, rfl⟩
        · split
          · exact ⟨_, rfl⟩
          · exact ⟨[], (List.append_nil _).symm⟩
        · split
          · exact ⟨[], (List.append_nil _).symm⟩
          · exact ⟨[], (List.append_nil _).symm⟩
      · exact ⟨[], (List.append_nil _).symm⟩
      · split
        · exact ⟨_, rfl⟩
        · exact ⟨[], (List.append_nil _).symm⟩
      · exact ⟨[], (List.append_nil _).symm⟩
      · split
        · exact ⟨[], (List.append_nil _).symm⟩
        · exact ⟨[], (List.append_nil _).symm⟩
        · exact ⟨_, rfl⟩
      · exact ⟨[], (List.append_nil _).symm⟩
    obtain ⟨b', hb'⟩ := h1
    exact ⟨b' ++ b, by rw [← List.append_assoc, ← hb', hb]⟩

/-- What the calls answer when they are made one at a time. -/
def answers [Ext] : List Op → Database × FS → List (Request × Outcome)
  | [], _ => []
  | o :: os, s =>
    let r := exec o.call o.nd s.1 s.2 o.req
    (r.req, r.out) :: answers os (r.db, r.fs)

theorem answers_get [Ext] (a b : List Op) (o : Op) (s : Database × FS) :
    (answers (a ++ o :: b) s)[a.length]? =
      some ((exec o.call o.nd (oneAtATime a s).1 (oneAtATime a s).2 o.req).req,
        (exec o.call o.nd (oneAtATime a s).1 (oneAtATime a s).2 o.req).out) := by
  induction a generalizing s with
  | nil => rfl
  | cons x a ih =>
    simp only [List.cons_append, answers, List.length_cons, List.getElem?_cons_succ]
    rw [ih]; rfl

theorem no_hang [Ext] (ops : List Op) : ∀ (db : Database) (fs : FS), (∀ v ∈ transcript db fs ops, v.2 ≠ .stuck) →
    oneAtATime ops (db, fs) = run db fs ops ∧
      (answers ops (db, fs)).map (fun p => (p.1, p.2.verdict)) = transcript db fs ops := by
  induction ops with
  | nil => intro db fs _; exact ⟨rfl, rfl⟩
  | cons o os ih =>
    intro db fs h
    rw [transcript] at h ⊢
    rw [oneAtATime, run, answers]
    dsimp only at h ⊢
    generalize exec o.call o.nd db fs o.req = r at *
    cases ho : r.out with
    | hang => rw [ho] at h; exact absurd rfl (h _ (List.mem_singleton.2 rfl))
    | panic =>
      rw [ho] at h
      obtain ⟨h1, h2⟩ := ih r.db r.fs fun v hv => h v (List.mem_cons_of_mem _ hv)
      refine ⟨h1, ?_⟩
      rw [List.map_cons, h2]
    | done e =>
      rw [ho] at h
      obtain ⟨h1, h2⟩ := ih r.db r.fs fun v hv => h v (List.mem_cons_of_mem _ hv)
      refine ⟨h1, ?_⟩
      rw [List.map_cons, h2]

/-- C95: goroutines call an opened database, each call divided into micro-steps in any way, under any schedule of Go's mutex.
Take the calls in the order in which they got the lock, and let the list of accounts answer them one at a time: each call that
has returned holds the request and the verdict that the list gives at its place; and when no call is under way, the accounts
are those that the list has in the end. -/
theorem C95_linearisable [Ext] {τ : Type} {ops : Nat → Op} {progs : Nat → Prog (Database × FS) τ} {locals : Nat → τ}
    {result : τ → Option (Request × Outcome)} (hp : ∀ t, Performs (ops t) (progs t) (locals t) result)
    {db : Database} (h : Opened db) (hids : ∀ u ∈ db.users, (u.apiKeys.map (·.id)).Nodup) {fs : FS} {dirs : GoString → Bool}
    (hd : ∀ p, fs p = some .dir ↔ dirs p = true) {c : FConfig (Database × FS) τ} (hc : Reached progs (db, fs) locals c)
    (hb : Book.Behaved dirs db.path db.policy db.users (c.order.map ops))
    (hreturn : ∀ v ∈ (Book.play dirs db.path db.policy db.users (c.order.map ops)).2, v.2 ≠ .stuck) :
    (∀ (i t : Nat) (l : τ), c.order[i]? = some t → c.threads t = .done l → ∃ req out, result l = some (req, out) ∧
      (Book.play dirs db.path db.policy db.users (c.order.map ops)).2[i]? = some (req, out.verdict)) ∧
    ((∀ t, ¬ FInside (c.threads t)) →
      c.shared.1.users = (Book.play dirs db.path db.policy db.users (c.order.map ops)).1) := by
  obtain ⟨sched, rfl⟩ := hc
  obtain ⟨sched', ha⟩ := C66_refines_simple_mutex progs (db, fs) locals sched
  obtain ⟨s1, s2⟩ := C51_database_calls_serialisable hp db fs sched'
  rw [← ha] at s1 s2
  generalize runFine progs sched (finitial (db, fs) locals) = c at *
  obtain ⟨b1, b2⟩ := C93_history h hids fs hd hb
  rw [← b2] at hreturn ⊢
  rw [← b1]
  obtain ⟨n1, n2⟩ := no_hang _ db fs hreturn
  refine ⟨fun i t l hi hl => ?_, fun hq => ?_⟩
  · obtain ⟨hlt, hget⟩ := List.getElem?_eq_some_iff.1 hi
    have hsplit : c.order = c.order.take i ++ t :: c.order.drop (i + 1) := by
      rw [← hget, List.getElem_cons_drop, List.take_append_drop]
    have hr := s1 t _ _ l hsplit (by show FStatus.abs _ = _; rw [hl]; rfl)
    refine ⟨_, _, hr, ?_⟩
    rw [← n2, hsplit, List.map_append, List.map_cons]
    have hg := answers_get ((c.order.take i).map ops) ((c.order.drop (i + 1)).map ops) (ops t) (db, fs)
    have hlen : ((c.order.take i).map ops).length = i := by
      rw [List.length_map, List.length_take]; omega
    rw [hlen] at hg
    rw [← hsplit, List.getElem?_map]
    rw [hg]
    rfl
  · have := s2 (by
      rintro t ⟨rest, l, hin⟩
      refine hq t ⟨rest, l, ?_⟩
      have hin : FStatus.abs (c.threads t) = .inside rest l := hin
      cases hcc : c.threads t <;> rw [hcc] at hin <;> simp [FStatus.abs] at hin
      obtain ⟨rfl, rfl⟩ := hin
      rfl)
    have h3 : c.shared = oneAtATime (c.order.map ops) (db, fs) := this
    rw [h3, n1]

theorem performs_discipline [Ext] {τ : Type} {ops : Nat → Op} {progs : Nat → Prog (Database × FS) τ} {locals : Nat → τ}
    {result : τ → Option (Request × Outcome)} (h : ∀ t, Performs (ops t) (progs t) (locals t) result) :
    Discipline progs (fun s => s) := by
  refine ⟨fun t f _ s s' l hs => by have : s = s' := hs; rw [this]; exact ⟨rfl, rfl⟩, fun t hk f hf s l => ?_⟩
  refine (h t).readOnly ?_ f hf s l
  have hn := (h t).lock_ne_none
  cases e : (progs t).kind with
  | none => exact absurd e hn
  | read => rfl
  | write => exact absurd e hk

/-- C95: the order has every call that has returned exactly once. -/
theorem C95_order_complete [Ext] {τ : Type} {ops : Nat → Op} {progs : Nat → Prog (Database × FS) τ} {locals : Nat → τ}
    {result : τ → Option (Request × Outcome)} (hp : ∀ t, Performs (ops t) (progs t) (locals t) result)
    {s : Database × FS} {c : FConfig (Database × FS) τ} (hc : Reached progs s locals c) :
    c.order.Nodup ∧ ∀ t l, c.threads t = .done l → t ∈ c.order := by
  obtain ⟨sched, rfl⟩ := hc
  obtain ⟨sched', ha⟩ := C66_refines_simple_mutex progs s locals sched
  have h := run_inv (performs_discipline hp) (initial_inv progs (fun s => s) locals s) sched'
  rw [← ha] at h
  refine ⟨h.nodup, fun t l hl => (h.entered t).2 fun l' hl' => ?_⟩
  have hl' : FStatus.abs _ = _ := hl'
  rw [hl] at hl'
  simp [FStatus.abs] at hl'

/-- C95: the order respects real time: a call that had returned when another had not begun comes before it. -/
theorem C95_real_time [Ext] {τ : Type} {ops : Nat → Op} {progs : Nat → Prog (Database × FS) τ} {locals : Nat → τ}
    {result : τ → Option (Request × Outcome)} (hp : ∀ t, Performs (ops t) (progs t) (locals t) result)
    {s : Database × FS} {c : FConfig (Database × FS) τ} (hc : Reached progs s locals c) {t t' : Nat} {l l' : τ}
    (hdone : c.threads t = .done l) (hwait : c.threads t' = .waiting l') (later : List Nat) :
    ∃ before after, (runFine progs later c).order = before ++ after ∧ t ∈ before ∧ t' ∉ before := by
  obtain ⟨b, hb⟩ := order_prefix_fine progs later c
  refine ⟨c.order, b, hb.symm, (C95_order_complete hp hc).2 t l hdone, fun hm => ?_⟩
  obtain ⟨sched, rfl⟩ := hc
  obtain ⟨sched', ha⟩ := C66_refines_simple_mutex progs s locals sched
  have h := run_inv (performs_discipline hp) (initial_inv progs (fun s => s) locals s) sched'
  rw [← ha] at h
  refine (h.entered t').1 hm l' ?_
  show FStatus.abs _ = _
  rw [hwait]; rfl

/-- Goroutine 0 registers Joe, 1 logs Joe in, 2 registers Ann, 3 asks for the list of users as Joe. -/
def fourOps (t : Nat) : Op :=
  if t = 0 then ⟨.addUser, reqJoe, nd⟩ else if t = 1 then ⟨.authenticateUser, reqJoe, nd⟩
  else if t = 2 then ⟨.addUser, reqAnn, nd2⟩ else ⟨.getUsers, reqJoe, nd⟩

/-- A schedule in which 1 comes before 0 and the readers overlap. -/
def fourSched : List Nat := [1, 0, 2, 1, 1, 0, 3, 0, 2, 0, 0, 3, 2, 3, 2, 2, 3, 2, 2]

def fourEnd : FConfig (Database × FS) (Option (Request × Outcome)) :=
  runFine (fun t => callProg (fourOps t)) fourSched (finitial (db0, fs1) fun _ => none)

-- The order is 1, 0, 3, 2: the login fails and Joe's list has one user.
example : fourEnd.order = [1, 0, 3, 2] := by decide +kernel
example : (Book.play (fun _ => false) path db0.policy [] (fourEnd.order.map fourOps)).2.map (·.2) =
    [.refused, .ok, .ok, .ok] := by decide +kernel
example : Book.Behaved (fun _ => false) path db0.policy [] ([1, 0, 3, 2].map fourOps) := by
  unfold fourOps
  refine ⟨nofun, by decide +kernel, fun _ => rfl, by decide, fun _ => ?_⟩
  refine ⟨fun _ => ⟨List.replicate 36 98, by decide, by decide +kernel⟩, by decide +kernel, fun _ => rfl, by decide, fun _ => ?_⟩
  refine ⟨nofun, by decide +kernel, fun _ => rfl, by decide, fun _ => ?_⟩
  refine ⟨fun _ => ⟨List.replicate 36 99, by decide, by decide +kernel⟩, by decide +kernel, fun _ => rfl, by decide, fun _ => trivial⟩

end GoIdentity.Conc
