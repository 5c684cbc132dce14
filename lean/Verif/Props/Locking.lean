import Verif.Lemmas.RWLock
import Verif.Props.Concurrency
/-!
# The lock in detail: C66
-/
namespace GoIdentity.Conc
open Toy

/-- A configuration of the detailed mutex reached from the start by some schedule. -/
def Reached {σ τ : Type} (progs : Nat → Prog σ τ) (s : σ) (locals : Nat → τ) (c : FConfig σ τ) : Prop :=
  ∃ sched, c = runFine progs sched (finitial s locals)

theorem Reached.inv {σ τ : Type} {progs : Nat → Prog σ τ} {s : σ} {locals : Nat → τ} {c : FConfig σ τ}
    (h : Reached progs s locals c) : FInv progs c := by
  obtain ⟨sched, rfl⟩ := h
  exact run_finv sched (finitial_inv progs s locals)

/-- C66: Go's writer-preferring mutex shows no behaviour that the simple one of C51 does not: every run looks like one of its
runs, with the same shared state, local data and order of entering. -/
theorem C66_refines_simple_mutex {σ τ : Type} (progs : Nat → Prog σ τ) (s : σ) (locals : Nat → τ) (sched : List Nat) :
    ∃ sched', (runFine progs sched (finitial s locals)).abs = runSched progs sched' (initial s locals) :=
  run_refines sched (finitial_inv progs s locals)

/-- C66: so calls are serialisable under it (C51). -/
theorem C66_serialisable {σ τ ρ : Type} {progs : Nat → Prog σ τ} {π : σ → ρ} (hd : Discipline progs π) (locals : Nat → τ)
    (s : σ) (sched : List Nat) :
    let c := runFine progs sched (finitial s locals)
    let order := c.order.filter fun t => (progs t).kind ≠ .none
    (∀ t before after l, order = before ++ t :: after → c.threads t = .done l → l = serialResult progs locals before t s) ∧
    ((∀ t, (progs t).kind ≠ .none → ¬ FInside (c.threads t)) → π c.shared = π (serialState progs locals order s)) := by
  obtain ⟨sched', h⟩ := C66_refines_simple_mutex progs s locals sched
  obtain ⟨h1, h2⟩ := C51_serialisable hd locals s sched'
  rw [← h] at h1 h2
  refine ⟨fun t before after l ho hl => h1 t before after l ho (by show FStatus.abs _ = _; rw [hl]; rfl), fun hq => h2 ?_⟩
  rintro t hk ⟨rest, l, hin⟩
  refine hq t hk ⟨rest, l, ?_⟩
  have hin : FStatus.abs ((runFine progs sched (finitial s locals)).threads t) = .inside rest l := hin
  cases hc : (runFine progs sched (finitial s locals)).threads t <;> rw [hc] at hin <;> simp [FStatus.abs] at hin
  obtain ⟨rfl, rfl⟩ := hin
  rfl

/-- C66: a writer inside excludes every other call that locks. -/
theorem C66_mutual_exclusion {σ τ : Type} {progs : Nat → Prog σ τ} {s : σ} {locals : Nat → τ} {c : FConfig σ τ}
    (h : Reached progs s locals c) {t t' : Nat} (ht : FInside (c.threads t)) (hk : (progs t).kind = .write)
    (ht' : FInside (c.threads t')) (hk' : (progs t').kind ≠ .none) : t' = t := by
  have hi := h.inv
  have ho := hi.writer t ht hk
  cases hk2 : (progs t').kind with
  | none => exact absurd hk2 hk'
  | write =>
    have := hi.writer t' ht' hk2
    rw [ho] at this
    simp only [Owner.held.injEq] at this
    exact this.symm
  | read =>
    obtain ⟨R, _, h2, h3⟩ := hi.readers
    rw [(hi.held t ho).2.2] at h2
    have := (h3 t').2 ⟨ht', hk2⟩
    rw [List.length_eq_zero_iff.1 h2] at this
    cases this

/-- C66: no deadlock: as long as some call has not returned, that call or one that already holds or has claimed the lock can
make a step. -/
theorem C66_no_deadlock {σ τ : Type} {progs : Nat → Prog σ τ} {s : σ} {locals : Nat → τ} {c : FConfig σ τ}
    (h : Reached progs s locals c) {t : Nat} (ht : ∀ l, c.threads t ≠ .done l) :
    ∃ t', fstep progs t' c ≠ none ∧ (t' = t ∨ FInside (c.threads t') ∨ c.owner = .pending t') := progress h.inv ht

/-- Goroutines that have moved are on the schedule. -/
theorem moved {σ τ : Type} {progs : Nat → Prog σ τ} {n : Nat} (sched : List Nat)
    (hn : ∀ t ∈ sched, t < n) {c : FConfig σ τ} (hc : ∀ t, n ≤ t → ∃ l, c.threads t = .waiting l) :
    ∀ t, n ≤ t → ∃ l, (runFine progs sched c).threads t = .waiting l := by
  induction sched generalizing c with
  | nil => exact hc
  | cons x xs ih =>
    unfold runFine
    refine ih (fun t ht => hn t (by simp [ht])) ?_
    have hx := hn x (by simp)
    cases hs : fstep progs x c with
    | none => exact hc
    | some c' =>
      intro t ht
      obtain ⟨l, hl⟩ := hc t ht
      refine ⟨l, ?_⟩
      have hne : t ≠ x := by omega
      rw [Option.getD_some]
      unfold fstep at hs
      repeat' (first | split at hs)
      all_goals first
        | (simp only [Option.some.injEq] at hs; subst hs; simp only [admit, upd_other hne, hl])
        | simp at hs

/-- How many decisions of a schedule take effect. -/
def effective {σ τ : Type} (progs : Nat → Prog σ τ) : List Nat → FConfig σ τ → Nat
  | [], _ => 0
  | t :: ts, c => (if (fstep progs t c).isSome then 1 else 0) + effective progs ts ((fstep progs t c).getD c)

theorem effective_left {σ τ : Type} (progs : Nat → Prog σ τ) {n : Nat} (sched : List Nat) (hn : ∀ t ∈ sched, t < n)
    (c : FConfig σ τ) : effective progs sched c + left progs n (runFine progs sched c) ≤ left progs n c := by
  induction sched generalizing c with
  | nil => simp [effective, runFine]
  | cons t ts ih =>
    unfold effective runFine
    have := ih (fun x hx => hn x (by simp [hx])) ((fstep progs t c).getD c)
    cases hs : fstep progs t c with
    | none => rw [hs] at this; simp only [Option.getD_none, Option.isSome_none] at *; simpa using this
    | some c' =>
      rw [hs] at this
      have := step_left (hn t (by simp)) hs
      simp only [Option.getD_some, Option.isSome_some, if_true] at *
      omega

/-- The total number of steps of the calls below `n`: each has its own, and at most three for the lock. -/
def total {σ τ : Type} (progs : Nat → Prog σ τ) (n : Nat) : Nat := ((List.range n).map fun t => (progs t).steps.length + 3).sum

theorem left_initial {σ τ : Type} (progs : Nat → Prog σ τ) (n : Nat) (s : σ) (locals : Nat → τ) :
    left progs n (finitial s locals) = total progs n := rfl

/-- C66: whatever the schedule, `n` calls make no more steps than they have, plus three each for the lock: nobody spins. -/
theorem C66_steps_bounded {σ τ : Type} (progs : Nat → Prog σ τ) (s : σ) (locals : Nat → τ) {n : Nat} (sched : List Nat)
    (hn : ∀ t ∈ sched, t < n) : effective progs sched (finitial s locals) ≤ total progs n := by
  have := effective_left progs sched hn (finitial s locals)
  rw [left_initial] at this
  omega

theorem runFine_append {σ τ : Type} (progs : Nat → Prog σ τ) (a b : List Nat) (c : FConfig σ τ) :
    runFine progs (a ++ b) c = runFine progs b (runFine progs a c) := by
  induction a generalizing c with
  | nil => rfl
  | cons t ts ih => exact ih _

theorem runFine_stuck {σ τ : Type} {progs : Nat → Prog σ τ} {sched : List Nat} {c : FConfig σ τ}
    (h : effective progs sched c = 0) : runFine progs sched c = c ∧ ∀ t ∈ sched, fstep progs t c = none := by
  induction sched with
  | nil => exact ⟨rfl, by simp⟩
  | cons t ts ih =>
    unfold effective at h
    cases hs : fstep progs t c with
    | some c' => rw [hs] at h; simp at h
    | none =>
      rw [hs] at h
      simp only [Option.isSome_none, Bool.false_eq_true, if_false, Option.getD_none, Nat.zero_add] at h
      obtain ⟨h1, h2⟩ := ih h
      refine ⟨?_, ?_⟩
      · unfold runFine; rw [hs]; exact h1
      · intro x hx
        rcases List.mem_cons.1 hx with rfl | hx
        · exact hs
        · exact h2 x hx

/-- C66: every fair schedule ends with all calls returned: if each round gives each of the `n` goroutines a turn, in whatever
order and however often, then after as many rounds as there are steps all of them are done. -/
theorem C66_fair_schedules_finish {σ τ : Type} (progs : Nat → Prog σ τ) (s : σ) (locals : Nat → τ) {n : Nat}
    (rounds : List (List Nat)) (hr : ∀ r ∈ rounds, ∀ t, t ∈ r ↔ t < n) (hlen : total progs n < rounds.length) :
    ∀ t < n, ∃ l, (runFine progs rounds.flatten (finitial s locals)).threads t = .done l := by
  have key : ∀ (rounds : List (List Nat)) (c : FConfig σ τ), (∀ r ∈ rounds, ∀ t, t ∈ r ↔ t < n) → FInv progs c →
      (∀ t, n ≤ t → ∃ l, c.threads t = .waiting l) → left progs n c < rounds.length →
      ∀ t < n, ∃ l, (runFine progs rounds.flatten c).threads t = .done l := by
    intro rounds
    induction rounds with
    | nil => intro c _ _ _ h; simp at h
    | cons r rs ih =>
      intro c hr hi hw hlen t ht
      have hrn : ∀ t ∈ r, t < n := fun t h => (hr r (by simp) t).1 h
      by_cases he : effective progs r c = 0
      · -- a round without a step: everybody is done
        obtain ⟨h1, h2⟩ := runFine_stuck he
        have hdone : ∀ t < n, ∃ l, c.threads t = .done l := by
          intro t ht
          apply Classical.byContradiction
          intro hnd
          obtain ⟨t', h3, h4⟩ := progress (t := t) hi (fun l hl => hnd ⟨l, hl⟩)
          have : t' < n := by
            rcases h4 with rfl | h4 | h4
            · exact ht
            · apply Classical.byContradiction
              intro hge
              obtain ⟨l, hl⟩ := hw t' (by omega)
              exact not_finside_waiting hl h4
            · apply Classical.byContradiction
              intro hge
              obtain ⟨l, hl⟩ := hw t' (by omega)
              obtain ⟨_, l', hl'⟩ := hi.pending t' h4
              rw [hl] at hl'
              cases hl'
          exact h3 (h2 t' ((hr r (by simp) t').2 this))
        have hstay : ∀ (sched : List Nat), (∀ x ∈ sched, x < n) → runFine progs sched c = c := by
          intro sched hs
          induction sched with
          | nil => rfl
          | cons x xs ihx =>
            unfold runFine
            obtain ⟨l, hl⟩ := hdone x (hs x (by simp))
            have : fstep progs x c = none := by unfold fstep; rw [hl]
            rw [this]
            exact ihx fun y hy => hs y (by simp [hy])
        rw [hstay]
        · exact hdone t ht
        · intro x hx
          obtain ⟨r', h5, h6⟩ := List.mem_flatten.1 hx
          exact (hr r' h5 x).1 h6
      · rw [List.flatten_cons, runFine_append]
        refine ih _ (fun r' h => hr r' (by simp [h])) (run_finv r hi) (moved r hrn hw) ?_ t ht
        have := effective_left progs r hrn c
        simp only [List.length_cons] at hlen
        omega
  refine key rounds _ hr (finitial_inv progs s locals) (fun t _ => ⟨locals t, rfl⟩) ?_
  rw [left_initial]
  exact hlen

/-- What a step does to another goroutine: nothing, or it lets a queued reader in. -/
theorem step_other {σ τ : Type} {progs : Nat → Prog σ τ} {c c' : FConfig σ τ} {x t : Nat} (hs : fstep progs x c = some c')
    (hne : t ≠ x) : c'.threads t = c.threads t ∨
      (c'.threads = admit progs (upd c.threads x (c'.threads x)) ∧ ∃ l, c.threads x = .inside [] l ∧ (progs x).kind = .write) := by
  unfold fstep at hs
  split at hs
  · repeat' (first | split at hs)
    all_goals first
      | (simp only [Option.some.injEq] at hs; subst hs; exact .inl (upd_other hne))
      | simp at hs
  · simp at hs
  · split at hs
    · simp only [Option.some.injEq] at hs; subst hs; exact .inl (upd_other hne)
    · simp at hs
  · simp only [Option.some.injEq] at hs; subst hs; exact .inl (upd_other hne)
  · rename_i l hl
    split at hs
    · simp only [Option.some.injEq] at hs; subst hs; exact .inl (upd_other hne)
    · simp only [Option.some.injEq] at hs; subst hs; exact .inl (upd_other hne)
    · rename_i hk
      simp only [Option.some.injEq] at hs; subst hs
      refine .inr ⟨?_, l, hl, hk⟩
      simp only [admit, upd_self]
  · simp at hs

/-- Who has entered stays inside until done. -/
theorem step_entered {σ τ : Type} {progs : Nat → Prog σ τ} {c c' : FConfig σ τ} {x t : Nat} (hs : fstep progs x c = some c')
    (h : FInside (c.threads t) ∨ ∃ l, c.threads t = .done l) : FInside (c'.threads t) ∨ ∃ l, c'.threads t = .done l := by
  by_cases hx : t = x
  · subst hx
    rcases h with ⟨rest, l, h⟩ | ⟨l, h⟩
    · unfold fstep at hs
      rw [h] at hs
      cases rest with
      | cons f rest => simp only [Option.some.injEq] at hs; subst hs; exact .inl ⟨_, _, upd_self⟩
      | nil =>
        dsimp only at hs
        split at hs
        · simp only [Option.some.injEq] at hs; subst hs; exact .inr ⟨_, upd_self⟩
        · simp only [Option.some.injEq] at hs; subst hs; exact .inr ⟨_, upd_self⟩
        · simp only [Option.some.injEq] at hs; subst hs; refine .inr ⟨l, ?_⟩; simp only [admit, upd_self]
    · unfold fstep at hs; rw [h] at hs; simp at hs
  · rcases step_other hs hx with h1 | ⟨h1, _⟩
    · rw [h1]; exact h
    · rw [h1]
      unfold admit
      rw [upd_other hx]
      rcases h with ⟨rest, l, h⟩ | ⟨l, h⟩
      · rw [h]; exact .inl ⟨_, _, rfl⟩
      · rw [h]; exact .inr ⟨_, rfl⟩

theorem step_done {σ τ : Type} {progs : Nat → Prog σ τ} {c c' : FConfig σ τ} {x t : Nat} (hs : fstep progs x c = some c')
    {l : τ} (h : c.threads t = .done l) : c'.threads t = .done l := by
  by_cases hx : t = x
  · subst hx; unfold fstep at hs; rw [h] at hs; simp at hs
  · rcases step_other hs hx with h1 | ⟨h1, _⟩
    · rw [h1]; exact h
    · rw [h1]; unfold admit; rw [upd_other hx, h]

/-- Induction over a schedule. -/
theorem run_induct {σ τ : Type} {progs : Nat → Prog σ τ} {P : FConfig σ τ → Prop}
    (hstep : ∀ c c' x, FInv progs c → P c → fstep progs x c = some c' → P c') (sched : List Nat) {c : FConfig σ τ}
    (hi : FInv progs c) (h : P c) : P (runFine progs sched c) := by
  induction sched generalizing c with
  | nil => exact h
  | cons x xs ih =>
    unfold runFine
    cases hs : fstep progs x c with
    | none => exact ih hi h
    | some c' => exact ih (step_finv hi hs) (hstep c c' x hi h hs)

/-- C66: a queued reader is overtaken by no second writer: until it enters, the lock's owner stays the same. -/
theorem C66_reader_waits_for_one_writer {σ τ : Type} {progs : Nat → Prog σ τ} {s : σ} {locals : Nat → τ} {c : FConfig σ τ}
    (h : Reached progs s locals c) {t w : Nat} {l : τ} (ht : c.threads t = .queued l)
    (hw : c.owner = .pending w ∨ c.owner = .held w) (sched : List Nat) :
    let c' := runFine progs sched c
    (FInside (c'.threads t) ∨ ∃ l, c'.threads t = .done l) ∨
      (c'.threads t = .queued l ∧ (c'.owner = .pending w ∨ c'.owner = .held w)) := by
  refine run_induct (P := fun c' => (FInside (c'.threads t) ∨ ∃ l, c'.threads t = .done l) ∨
      (c'.threads t = .queued l ∧ (c'.owner = .pending w ∨ c'.owner = .held w))) ?_ sched h.inv (.inr ⟨ht, hw⟩)
  clear ht hw h c
  intro c c' x hi h hs
  rcases h with h | ⟨ht, hw⟩
  · exact .inl (step_entered hs h)
  · have hxt : t ≠ x := by
      rintro rfl
      unfold fstep at hs; rw [ht] at hs; simp at hs
    rcases step_other hs hxt with h1 | ⟨h1, _⟩
    · right
      refine ⟨h1.trans ht, ?_⟩
      have hnf : c.owner ≠ .free := by rcases hw with hw | hw <;> rw [hw] <;> simp
      unfold fstep at hs
      split at hs
      · simp only [hnf, if_false] at hs
        repeat' (first | split at hs)
        all_goals first
          | (simp only [Option.some.injEq] at hs; subst hs; exact hw)
          | simp at hs
      · simp at hs
      · rename_i l' hl'
        have := hi.announced x l' hl'
        split at hs
        · simp only [Option.some.injEq] at hs; subst hs
          rw [this] at hw
          simp only [Owner.pending.injEq, reduceCtorEq, or_false] at hw
          subst hw
          exact .inr rfl
        · simp at hs
      · simp only [Option.some.injEq] at hs; subst hs; exact hw
      · rename_i l' hl'
        split at hs
        · simp only [Option.some.injEq] at hs; subst hs; exact hw
        · simp only [Option.some.injEq] at hs; subst hs; exact hw
        · simp only [Option.some.injEq] at hs; subst hs
          simp only [admit, upd_other hxt, ht] at h1
          cases h1
      · simp at hs
    · left; left
      rw [h1]; unfold admit; rw [upd_other hxt, ht]
      exact ⟨_, _, rfl⟩

/-- C66: an announced writer is overtaken by nobody: until it enters, whoever holds the lock held it already. -/
theorem C66_writer_waits_for_readers_inside {σ τ : Type} {progs : Nat → Prog σ τ} {s : σ} {locals : Nat → τ}
    {c : FConfig σ τ} (h : Reached progs s locals c) {t : Nat} {l : τ} (ht : c.threads t = .announced l) (sched : List Nat) :
    let c' := runFine progs sched c
    (FInside (c'.threads t) ∨ ∃ l, c'.threads t = .done l) ∨
      (c'.threads t = .announced l ∧ c'.readers ≤ c.readers ∧
        ∀ x, (progs x).kind ≠ .none → FInside (c'.threads x) → FInside (c.threads x)) := by
  refine run_induct (P := fun c' => (FInside (c'.threads t) ∨ ∃ l, c'.threads t = .done l) ∨
      (c'.threads t = .announced l ∧ c'.readers ≤ c.readers ∧
        ∀ x, (progs x).kind ≠ .none → FInside (c'.threads x) → FInside (c.threads x))) ?_ sched h.inv
    (.inr ⟨ht, Nat.le_refl _, fun _ _ h => h⟩)
  intro d d' x hi hP hs
  rcases hP with hP | ⟨hta, hle, hin⟩
  · exact .inl (step_entered hs hP)
  · have hp := hi.announced t l hta
    unfold fstep at hs
    split at hs
    · rename_i l' hl'
      have hxt : t ≠ x := by rintro rfl; rw [hta] at hl'; cases hl'
      right
      have hnf : d.owner ≠ .free := by rw [hp]; simp
      simp only [hnf, if_false] at hs
      split at hs
      · rename_i hk
        simp only [Option.some.injEq] at hs; subst hs
        refine ⟨(upd_other hxt).trans hta, hle, fun y hy hyin => ?_⟩
        by_cases hyx : y = x
        · subst hyx; exact absurd hk hy
        · simp only [upd_other hyx] at hyin; exact hin y hy hyin
      · simp only [Option.some.injEq] at hs; subst hs
        refine ⟨(upd_other hxt).trans hta, hle, fun y hy hyin => ?_⟩
        by_cases hyx : y = x
        · subst hyx; simp only [upd_self] at hyin; exact absurd hyin (not_finside_queued rfl)
        · simp only [upd_other hyx] at hyin; exact hin y hy hyin
      · simp at hs
    · simp at hs
    · rename_i l' hl'
      have hpx := hi.announced x l' hl'
      rw [hp] at hpx
      simp only [Owner.pending.injEq] at hpx
      subst hpx
      split at hs
      · simp only [Option.some.injEq] at hs; subst hs
        exact .inl (.inl ⟨_, _, upd_self⟩)
      · simp at hs
    · rename_i f rest l' hl'
      have hxt : t ≠ x := by rintro rfl; rw [hta] at hl'; cases hl'
      simp only [Option.some.injEq] at hs; subst hs
      refine .inr ⟨(upd_other hxt).trans hta, hle, fun y hy hyin => ?_⟩
      by_cases hyx : y = x
      · subst hyx; exact hin y hy ⟨_, _, hl'⟩
      · simp only [upd_other hyx] at hyin; exact hin y hy hyin
    · rename_i l' hl'
      have hxt : t ≠ x := by rintro rfl; rw [hta] at hl'; cases hl'
      have hfin : ∀ y, (progs y).kind ≠ .none → FInside (upd d.threads x (.done l') y) → FInside (c.threads y) := by
        intro y hy hyin
        by_cases hyx : y = x
        · subst hyx; rw [upd_self] at hyin; exact absurd hyin (not_finside_done rfl)
        · rw [upd_other hyx] at hyin; exact hin y hy hyin
      split at hs
      · simp only [Option.some.injEq] at hs; subst hs
        exact .inr ⟨(upd_other hxt).trans hta, hle, hfin⟩
      · simp only [Option.some.injEq] at hs; subst hs
        exact .inr ⟨(upd_other hxt).trans hta, by dsimp only; omega, hfin⟩
      · rename_i hk
        have := hi.writer x ⟨_, _, hl'⟩ hk
        rw [hp] at this
        cases this
    · simp at hs

/-- C66: a call that does not return from its write section (as `AddAPIKey` may, C23) stops every other call that locks: while
it is inside nobody else enters and nobody else returns. -/
theorem C66_endless_writer_blocks_all {σ τ : Type} {progs : Nat → Prog σ τ} {s : σ} {locals : Nat → τ} {c : FConfig σ τ}
    (h : Reached progs s locals c) {t : Nat} (ht : FInside (c.threads t)) (hk : (progs t).kind = .write) (sched : List Nat)
    (hstill : FInside ((runFine progs sched c).threads t)) {x : Nat} (hx : x ≠ t) (hkx : (progs x).kind ≠ .none) :
    ¬ FInside ((runFine progs sched c).threads x) ∧
      ∀ l, (runFine progs sched c).threads x = .done l → c.threads x = .done l := by
  have hreach : Reached progs s locals (runFine progs sched c) := by
    obtain ⟨s0, rfl⟩ := h
    exact ⟨s0 ++ sched, (runFine_append progs s0 sched _).symm⟩
  refine ⟨fun hin => hx (C66_mutual_exclusion hreach hstill hk hin hkx), ?_⟩
  have hP := run_induct (progs := progs) (P := fun c' => (∃ l, c'.threads t = .done l) ∨ (FInside (c'.threads t) ∧
    ∀ l, c'.threads x = .done l → c.threads x = .done l)) ?_ sched h.inv (.inr ⟨ht, fun _ h => h⟩)
  · rcases hP with ⟨l, hl⟩ | ⟨_, hP⟩
    · exact absurd hstill (not_finside_done hl)
    · exact hP
  · intro d d' y hi hP hs
    rcases hP with ⟨l, hl⟩ | ⟨hin, hP⟩
    · exact .inl ⟨l, step_done hs hl⟩
    · rcases step_entered hs (.inl hin) with h1 | h1
      · refine .inr ⟨h1, fun l hl => ?_⟩
        by_cases hyx : x = y
        · subst hyx
          -- x itself cannot have been inside
          exfalso
          have hnin : ¬ FInside (d.threads x) := by
            intro hxin
            have ho := hi.writer t hin hk
            cases hk2 : (progs x).kind with
            | none => exact hkx hk2
            | write =>
              have := hi.writer x hxin hk2
              rw [ho] at this
              simp only [Owner.held.injEq] at this
              exact hx this.symm
            | read =>
              obtain ⟨R, _, h2, h3⟩ := hi.readers
              rw [(hi.held t ho).2.2] at h2
              have := (h3 x).2 ⟨hxin, hk2⟩
              rw [List.length_eq_zero_iff.1 h2] at this
              cases this
          unfold fstep at hs
          split at hs
          · repeat' (first | split at hs)
            all_goals first
              | (simp only [Option.some.injEq] at hs; subst hs; simp only [upd_self] at hl; cases hl)
              | simp at hs
          · simp at hs
          · split at hs
            · simp only [Option.some.injEq] at hs; subst hs; simp only [upd_self] at hl; cases hl
            · simp at hs
          · rename_i heq; exact hnin ⟨_, _, heq⟩
          · rename_i heq; exact hnin ⟨_, _, heq⟩
          · simp at hs
        · rcases step_other hs hyx with h2 | ⟨h2, _⟩
          · rw [h2] at hl; exact hP l hl
          · rw [h2] at hl
            unfold admit at hl
            rw [upd_other hyx] at hl
            split at hl
            · cases hl
            · exact hP l hl
      · exact .inl h1

/-! ### A run

Goroutine 0 reads, 1 writes, 2 reads: with 0 inside, 1 announces itself, so 2 queues although the lock is only read-locked; it
enters when 1 has left. -/

def threeProgs : Nat → Prog Nat Nat
  | 1 => ⟨.write, [fun s _ => (s + 1, s)]⟩
  | _ => ⟨.read, [fun s _ => (s, s)]⟩

example : (runFine threeProgs [0, 1, 2] (finitial 5 fun _ => 0)).queue = [2] ∧
    (runFine threeProgs [0, 1, 2] (finitial 5 fun _ => 0)).owner = .pending 1 ∧
    (runFine threeProgs [0, 1, 2, 1, 0, 0, 1, 1, 1, 2, 2] (finitial 5 fun _ => 0)).order = [0, 1, 2] ∧
    (runFine threeProgs [0, 1, 2, 1, 0, 0, 1, 1, 1, 2, 2] (finitial 5 fun _ => 0)).shared = 6 := by decide

-- the simple mutex would let goroutine 2 overtake the writer
example : (runSched threeProgs [0, 1, 2] (initial 5 fun _ => 0)).order = [0, 2] := by decide

-- the bound of the fairness theorem
example : total threeProgs 3 = 12 := by decide
example : ∀ t < 3, ∃ l, (runFine threeProgs (List.replicate 13 [2, 0, 1]).flatten (finitial 5 fun _ => 0)).threads t = .done l :=
  C66_fair_schedules_finish threeProgs 5 (fun _ => 0) (List.replicate 13 [2, 0, 1])
    (fun r hr t => by obtain rfl := List.eq_of_mem_replicate hr; simp; omega) (by decide)

end GoIdentity.Conc
