import Verif.Model.RWLock
import Verif.Lemmas.Conc
/-!
# Invariant of the detailed mutex, and its refinement to the simple one
-/
namespace GoIdentity.Conc
variable {σ τ : Type}

/-- Inside the critical section. -/
def FInside (s : FStatus σ τ) : Prop := ∃ rest l, s = .inside rest l

/-- What holds in every configuration. -/
structure FInv (progs : Nat → Prog σ τ) (c : FConfig σ τ) : Prop where
  pending : ∀ t, c.owner = .pending t → (progs t).kind = .write ∧ ∃ l, c.threads t = .announced l
  held : ∀ t, c.owner = .held t → (progs t).kind = .write ∧ FInside (c.threads t) ∧ c.readers = 0
  announced : ∀ t l, c.threads t = .announced l → c.owner = .pending t
  writer : ∀ t, FInside (c.threads t) → (progs t).kind = .write → c.owner = .held t
  queued : ∀ t, t ∈ c.queue ↔ ∃ l, c.threads t = .queued l
  queueRead : ∀ t ∈ c.queue, (progs t).kind = .read
  queueNodup : c.queue.Nodup
  queueFree : c.owner = .free → c.queue = []
  readers : ∃ R : List Nat, R.Nodup ∧ R.length = c.readers ∧ ∀ t, t ∈ R ↔ FInside (c.threads t) ∧ (progs t).kind = .read

theorem finitial_inv (progs : Nat → Prog σ τ) (s : σ) (locals : Nat → τ) : FInv progs (finitial s locals) where
  pending t h := by simp [finitial] at h
  held t h := by simp [finitial] at h
  announced t l h := by simp [finitial] at h
  writer t h := by obtain ⟨_, _, h⟩ := h; simp [finitial] at h
  queued t := by simp [finitial]
  queueRead t h := by simp [finitial] at h
  queueNodup := List.nodup_nil
  queueFree _ := rfl
  readers := ⟨[], List.nodup_nil, rfl, fun t => by simp [finitial, FInside]⟩

theorem upd_other {α : Type} {f : Nat → α} {t x : Nat} {v : α} (h : x ≠ t) : upd f t v x = f x := by simp [upd, h]
theorem upd_self {α : Type} {f : Nat → α} {t : Nat} {v : α} : upd f t v t = v := by simp [upd]

theorem not_finside_waiting {s : FStatus σ τ} {l : τ} (h : s = .waiting l) : ¬ FInside s := by rintro ⟨_, _, h'⟩; rw [h] at h'; cases h'
theorem not_finside_queued {s : FStatus σ τ} {l : τ} (h : s = .queued l) : ¬ FInside s := by rintro ⟨_, _, h'⟩; rw [h] at h'; cases h'
theorem not_finside_announced {s : FStatus σ τ} {l : τ} (h : s = .announced l) : ¬ FInside s := by
  rintro ⟨_, _, h'⟩; rw [h] at h'; cases h'
theorem not_finside_done {s : FStatus σ τ} {l : τ} (h : s = .done l) : ¬ FInside s := by rintro ⟨_, _, h'⟩; rw [h] at h'; cases h'

/-- A change of one goroutine's status within the critical section keeps the invariant. -/
theorem micro_finv {progs : Nat → Prog σ τ} {c : FConfig σ τ} (h : FInv progs c) {t : Nat} (ht : FInside (c.threads t))
    {s : σ} {rest : List (σ → τ → σ × τ)} {l : τ} :
    FInv progs { c with shared := s, threads := upd c.threads t (.inside rest l) } := by
  have hin : ∀ x, FInside (upd c.threads t (.inside rest l) x) ↔ FInside (c.threads x) := by
    intro x
    by_cases hx : x = t
    · subst hx; rw [upd_self]; exact ⟨fun _ => ht, fun _ => ⟨_, _, rfl⟩⟩
    · rw [upd_other hx]
  have hother : ∀ x, ¬ FInside (c.threads x) → upd c.threads t (.inside rest l) x = c.threads x := by
    intro x hx
    exact upd_other (fun he => hx (he ▸ ht))
  constructor
  · intro x hx
    obtain ⟨h1, l', h2⟩ := h.pending x hx
    exact ⟨h1, l', (hother x (not_finside_announced h2)).trans h2⟩
  · intro x hx
    obtain ⟨h1, h2, h3⟩ := h.held x hx
    exact ⟨h1, (hin x).2 h2, h3⟩
  · intro x l' hx
    have : ¬ FInside (upd c.threads t (.inside rest l) x) := not_finside_announced hx
    rw [hin] at this
    exact h.announced x l' ((hother x this).symm.trans hx)
  · intro x hx; exact h.writer x ((hin x).1 hx)
  · intro x
    rw [h.queued x]
    constructor
    · rintro ⟨l', hl⟩; exact ⟨l', (hother x (not_finside_queued hl)).trans hl⟩
    · rintro ⟨l', hl⟩
      have : ¬ FInside (upd c.threads t (.inside rest l) x) := not_finside_queued hl
      rw [hin] at this
      exact ⟨l', (hother x this).symm.trans hl⟩
  · exact h.queueRead
  · exact h.queueNodup
  · exact h.queueFree
  · obtain ⟨R, h1, h2, h3⟩ := h.readers
    exact ⟨R, h1, h2, fun x => by rw [h3 x]; exact and_congr_left fun _ => (hin x).symm⟩

theorem step_finv {progs : Nat → Prog σ τ} {c c' : FConfig σ τ} (h : FInv progs c) {t : Nat} (hs : fstep progs t c = some c') :
    FInv progs c' := by
  unfold fstep at hs
  split at hs
  · -- before the lock
    rename_i l hl
    have hnin := not_finside_waiting hl
    have hnq : t ∉ c.queue := by rw [h.queued]; rintro ⟨l', h'⟩; rw [hl] at h'; cases h'
    have hne : ∀ x, (FInside (c.threads x) ∨ (∃ l', c.threads x = .announced l') ∨ (∃ l', c.threads x = .queued l')) → x ≠ t := by
      rintro x hx rfl
      rcases hx with hx | ⟨l', hx⟩ | ⟨l', hx⟩
      · exact hnin hx
      · rw [hl] at hx; cases hx
      · rw [hl] at hx; cases hx
    split at hs
    · -- no lock
      rename_i hk
      simp only [Option.some.injEq] at hs
      subst hs
      constructor
      · intro x hx
        obtain ⟨h1, l', h2⟩ := h.pending x hx
        exact ⟨h1, l', (upd_other (hne x (.inr (.inl ⟨l', h2⟩)))).trans h2⟩
      · intro x hx
        obtain ⟨h1, h2, h3⟩ := h.held x hx
        exact ⟨h1, by simp only [upd_other (hne x (.inl h2))]; exact h2, h3⟩
      · intro x l' hx
        by_cases hxt : x = t
        · subst hxt; simp only [upd_self] at hx; cases hx
        · simp only [upd_other hxt] at hx; exact h.announced x l' hx
      · intro x hx hkx
        by_cases hxt : x = t
        · subst hxt; rw [hk] at hkx; cases hkx
        · simp only [upd_other hxt] at hx; exact h.writer x hx hkx
      · intro x
        by_cases hxt : x = t
        · subst hxt; simp only [upd_self]; simp [hnq]
        · simp only [upd_other hxt]; exact h.queued x
      · exact h.queueRead
      · exact h.queueNodup
      · exact h.queueFree
      · obtain ⟨R, h1, h2, h3⟩ := h.readers
        refine ⟨R, h1, h2, fun x => ?_⟩
        by_cases hxt : x = t
        · subst hxt; simp only [upd_self, hk]
          rw [h3 x, hk]; simp
        · simp only [upd_other hxt]; exact h3 x
    · rename_i hk
      split at hs
      · -- a reader enters
        rename_i hfree
        simp only [Option.some.injEq] at hs
        subst hs
        constructor
        · intro x hx; dsimp only at hx; rw [hfree] at hx; cases hx
        · intro x hx; dsimp only at hx; rw [hfree] at hx; cases hx
        · intro x l' hx
          by_cases hxt : x = t
          · subst hxt; simp only [upd_self] at hx; cases hx
          · simp only [upd_other hxt] at hx; exact h.announced x l' hx
        · intro x hx hkx
          by_cases hxt : x = t
          · subst hxt; rw [hk] at hkx; cases hkx
          · simp only [upd_other hxt] at hx; exact h.writer x hx hkx
        · intro x
          by_cases hxt : x = t
          · subst hxt; simp only [upd_self]; simp [hnq]
          · simp only [upd_other hxt]; exact h.queued x
        · exact h.queueRead
        · exact h.queueNodup
        · exact h.queueFree
        · obtain ⟨R, h1, h2, h3⟩ := h.readers
          refine ⟨t :: R, List.nodup_cons.2 ⟨fun hc => hnin ((h3 t).1 hc).1, h1⟩, by simp [h2], fun x => ?_⟩
          by_cases hxt : x = t
          · subst hxt; simp only [upd_self, List.mem_cons_self, true_iff]; exact ⟨⟨_, _, rfl⟩, hk⟩
          · simp only [upd_other hxt, List.mem_cons, hxt, false_or]; exact h3 x
      · -- a reader queues
        rename_i hfree
        simp only [Option.some.injEq] at hs
        subst hs
        constructor
        · intro x hx
          obtain ⟨h1, l', h2⟩ := h.pending x hx
          exact ⟨h1, l', (upd_other (hne x (.inr (.inl ⟨l', h2⟩)))).trans h2⟩
        · intro x hx
          obtain ⟨h1, h2, h3⟩ := h.held x hx
          exact ⟨h1, by simp only [upd_other (hne x (.inl h2))]; exact h2, h3⟩
        · intro x l' hx
          by_cases hxt : x = t
          · subst hxt; simp only [upd_self] at hx; cases hx
          · simp only [upd_other hxt] at hx; exact h.announced x l' hx
        · intro x hx hkx
          by_cases hxt : x = t
          · subst hxt; rw [hk] at hkx; cases hkx
          · simp only [upd_other hxt] at hx; exact h.writer x hx hkx
        · intro x
          by_cases hxt : x = t
          · subst hxt; simp only [upd_self]; simp
          · simp only [upd_other hxt, List.mem_append, List.mem_singleton, hxt, or_false]; exact h.queued x
        · intro x hx
          rcases List.mem_append.1 hx with hx | hx
          · exact h.queueRead x hx
          · simp only [List.mem_singleton] at hx; subst hx; exact hk
        · refine List.nodup_append.2 ⟨h.queueNodup, by simp, ?_⟩
          intro a ha b hb
          simp only [List.mem_singleton] at hb
          subst hb
          rintro rfl
          exact hnq ha
        · intro hc; exact absurd hc hfree
        · obtain ⟨R, h1, h2, h3⟩ := h.readers
          refine ⟨R, h1, h2, fun x => ?_⟩
          by_cases hxt : x = t
          · subst hxt; simp only [upd_self]
            rw [h3 x]
            simp [hl, FInside]
          · simp only [upd_other hxt]; exact h3 x
    · rename_i hk
      split at hs
      · -- a writer announces itself
        rename_i hfree
        simp only [Option.some.injEq] at hs
        subst hs
        constructor
        · intro x hx
          simp only [Owner.pending.injEq] at hx
          subst hx
          exact ⟨hk, l, upd_self⟩
        · intro x hx; cases hx
        · intro x l' hx
          by_cases hxt : x = t
          · subst hxt; rfl
          · simp only [upd_other hxt] at hx
            have := h.announced x l' hx
            rw [hfree] at this; cases this
        · intro x hx hkx
          by_cases hxt : x = t
          · subst hxt; simp only [upd_self] at hx; obtain ⟨_, _, hx⟩ := hx; cases hx
          · simp only [upd_other hxt] at hx
            have := h.writer x hx hkx
            rw [hfree] at this; cases this
        · intro x
          by_cases hxt : x = t
          · subst hxt; simp only [upd_self]; simp [hnq]
          · simp only [upd_other hxt]; exact h.queued x
        · exact h.queueRead
        · exact h.queueNodup
        · intro hc; cases hc
        · obtain ⟨R, h1, h2, h3⟩ := h.readers
          refine ⟨R, h1, h2, fun x => ?_⟩
          by_cases hxt : x = t
          · subst hxt; simp only [upd_self]
            rw [h3 x]
            simp [hl, FInside]
          · simp only [upd_other hxt]; exact h3 x
      · simp at hs
  · simp at hs
  · -- the announced writer enters
    rename_i l hl
    have hnin := not_finside_announced hl
    have hp := h.announced t l hl
    have hk := (h.pending t hp).1
    have hnq : t ∉ c.queue := by rw [h.queued]; rintro ⟨l', h'⟩; rw [hl] at h'; cases h'
    split at hs
    · rename_i hzero
      simp only [Option.some.injEq] at hs
      subst hs
      constructor
      · intro x hx; cases hx
      · intro x hx
        simp only [Owner.held.injEq] at hx
        subst hx
        exact ⟨hk, ⟨_, _, upd_self⟩, hzero⟩
      · intro x l' hx
        by_cases hxt : x = t
        · subst hxt; simp only [upd_self] at hx; cases hx
        · simp only [upd_other hxt] at hx
          have := h.announced x l' hx
          rw [hp] at this
          simp only [Owner.pending.injEq] at this
          exact absurd this.symm hxt
      · intro x hx hkx
        by_cases hxt : x = t
        · subst hxt; rfl
        · simp only [upd_other hxt] at hx
          have := h.writer x hx hkx
          rw [hp] at this; cases this
      · intro x
        by_cases hxt : x = t
        · subst hxt; simp only [upd_self]; simp [hnq]
        · simp only [upd_other hxt]; exact h.queued x
      · exact h.queueRead
      · exact h.queueNodup
      · intro hc; cases hc
      · obtain ⟨R, h1, h2, h3⟩ := h.readers
        refine ⟨R, h1, h2, fun x => ?_⟩
        by_cases hxt : x = t
        · subst hxt; simp only [upd_self]
          rw [h3 x, hk]; simp
        · simp only [upd_other hxt]; exact h3 x
    · simp at hs
  · rename_i f rest l hl
    simp only [Option.some.injEq] at hs
    subst hs
    exact micro_finv h ⟨_, _, hl⟩
  · -- leaving
    rename_i l hl
    have hin : FInside (c.threads t) := ⟨_, _, hl⟩
    have hnq : t ∉ c.queue := by rw [h.queued]; rintro ⟨l', h'⟩; rw [hl] at h'; cases h'
    have hnd : ¬ FInside (FStatus.done l : FStatus σ τ) := not_finside_done rfl
    split at hs
    · rename_i hk
      simp only [Option.some.injEq] at hs
      subst hs
      constructor
      · intro x hx
        obtain ⟨h1, l', h2⟩ := h.pending x hx
        refine ⟨h1, l', ?_⟩
        have : x ≠ t := by rintro rfl; rw [hk] at h1; cases h1
        simp only [upd_other this]; exact h2
      · intro x hx
        obtain ⟨h1, h2, h3⟩ := h.held x hx
        have : x ≠ t := by rintro rfl; rw [hk] at h1; cases h1
        exact ⟨h1, by simp only [upd_other this]; exact h2, h3⟩
      · intro x l' hx
        by_cases hxt : x = t
        · subst hxt; simp only [upd_self] at hx; cases hx
        · simp only [upd_other hxt] at hx; exact h.announced x l' hx
      · intro x hx hkx
        by_cases hxt : x = t
        · subst hxt; rw [hk] at hkx; cases hkx
        · simp only [upd_other hxt] at hx; exact h.writer x hx hkx
      · intro x
        by_cases hxt : x = t
        · subst hxt; simp only [upd_self]; simp [hnq]
        · simp only [upd_other hxt]; exact h.queued x
      · exact h.queueRead
      · exact h.queueNodup
      · exact h.queueFree
      · obtain ⟨R, h1, h2, h3⟩ := h.readers
        refine ⟨R, h1, h2, fun x => ?_⟩
        by_cases hxt : x = t
        · subst hxt; simp only [upd_self, hk]
          rw [h3 x, hk]; simp
        · simp only [upd_other hxt]; exact h3 x
    · rename_i hk
      simp only [Option.some.injEq] at hs
      subst hs
      obtain ⟨R, h1, h2, h3⟩ := h.readers
      have htR : t ∈ R := (h3 t).2 ⟨hin, hk⟩
      have hpos : c.readers ≠ 0 := by
        intro h0
        rw [h0] at h2
        rw [List.length_eq_zero_iff.1 h2] at htR
        simp at htR
      constructor
      · intro x hx
        obtain ⟨h1, l', h2⟩ := h.pending x hx
        refine ⟨h1, l', ?_⟩
        have : x ≠ t := by rintro rfl; rw [hk] at h1; cases h1
        simp only [upd_other this]; exact h2
      · intro x hx
        exact absurd (h.held x hx).2.2 hpos
      · intro x l' hx
        by_cases hxt : x = t
        · subst hxt; simp only [upd_self] at hx; cases hx
        · simp only [upd_other hxt] at hx; exact h.announced x l' hx
      · intro x hx hkx
        by_cases hxt : x = t
        · subst hxt; rw [hk] at hkx; cases hkx
        · simp only [upd_other hxt] at hx; exact h.writer x hx hkx
      · intro x
        by_cases hxt : x = t
        · subst hxt; simp only [upd_self]; simp [hnq]
        · simp only [upd_other hxt]; exact h.queued x
      · exact h.queueRead
      · exact h.queueNodup
      · exact h.queueFree
      · refine ⟨R.erase t, h1.erase t, by rw [List.length_erase_of_mem htR, h2], fun x => ?_⟩
        by_cases hxt : x = t
        · subst hxt; simp only [upd_self]
          simp [hnd, h1.not_mem_erase]
        · simp only [upd_other hxt, List.mem_erase_of_ne hxt]; exact h3 x
    · -- the writer leaves and lets the queue in
      rename_i hk
      simp only [Option.some.injEq] at hs
      subst hs
      have hown := h.writer t hin hk
      have hzero := (h.held t hown).2.2
      obtain ⟨R, h1, h2, h3⟩ := h.readers
      have hR : R = [] := List.length_eq_zero_iff.1 (by rw [h2, hzero])
      subst hR
      have hadm : ∀ x, FInside (admit progs (upd c.threads t (.done l)) x) ↔
          x ≠ t ∧ (FInside (c.threads x) ∨ x ∈ c.queue) := by
        intro x
        by_cases hxt : x = t
        · subst hxt; unfold admit; rw [upd_self]; simp [hnd]
        · unfold admit; rw [upd_other hxt, h.queued x]
          cases hx : c.threads x <;> simp [FInside, hxt]
      constructor
      · intro x hx; cases hx
      · intro x hx; cases hx
      · intro x l' hx
        exfalso
        by_cases hxt : x = t
        · subst hxt; simp only [admit, upd_self] at hx; cases hx
        · simp only [admit, upd_other hxt] at hx
          split at hx
          · cases hx
          · have := h.announced x l' hx
            rw [hown] at this; cases this
      · intro x hx hkx
        exfalso
        obtain ⟨hxt, hx | hx⟩ := (hadm x).1 hx
        · have := h.writer x hx hkx
          rw [hown] at this
          simp only [Owner.held.injEq] at this
          exact hxt this.symm
        · rw [h.queueRead x hx] at hkx; cases hkx
      · intro x
        simp only [List.not_mem_nil, false_iff]
        rintro ⟨l', hx⟩
        unfold admit at hx
        split at hx
        · cases hx
        · rename_i hno; exact hno _ hx
      · intro x hx; cases hx
      · exact List.nodup_nil
      · intro _; rfl
      · refine ⟨c.queue, h.queueNodup, by simp [hzero], fun x => ?_⟩
        rw [hadm x]
        constructor
        · intro hx
          exact ⟨⟨fun he => hnq (he ▸ hx), .inr hx⟩, h.queueRead x hx⟩
        · rintro ⟨⟨_, hx | hx⟩, hkx⟩
          · exact absurd ((h3 x).2 ⟨hx, hkx⟩) (by simp)
          · exact hx
  · simp at hs

theorem run_finv {progs : Nat → Prog σ τ} (sched : List Nat) {c : FConfig σ τ} (h : FInv progs c) :
    FInv progs (runFine progs sched c) := by
  induction sched generalizing c with
  | nil => exact h
  | cons t ts ih =>
    unfold runFine
    cases hs : fstep progs t c with
    | none => exact ih h
    | some c' => exact ih (step_finv h hs)

/-! ## Refinement -/

/-- What the simple mutex shows of a goroutine. -/
def FStatus.abs : FStatus σ τ → Status σ τ
  | .waiting l => .waiting l
  | .queued l => .waiting l
  | .announced l => .waiting l
  | .inside rest l => .inside rest l
  | .done l => .done l

/-- What the simple mutex shows of a configuration. -/
def FConfig.abs (c : FConfig σ τ) : Config σ τ where
  shared := c.shared
  writer := match c.owner with | .held _ => true | _ => false
  readers := c.readers
  threads t := (c.threads t).abs
  order := c.order

theorem abs_upd (th : Nat → FStatus σ τ) (t : Nat) (s : FStatus σ τ) :
    (fun x => (upd th t s x).abs) = upd (fun x => (th x).abs) t s.abs := by
  funext x
  by_cases h : x = t
  · subst h; rw [upd_self, upd_self]
  · rw [upd_other h, upd_other h]

theorem runSched_append (progs : Nat → Prog σ τ) (a b : List Nat) (c : Config σ τ) :
    runSched progs (a ++ b) c = runSched progs b (runSched progs a c) := by
  induction a generalizing c with
  | nil => rfl
  | cons t ts ih => exact ih _

/-- Waiting readers enter one after the other. -/
theorem runSched_readers {progs : Nat → Prog σ τ} {q : List Nat} {c : Config σ τ} (hn : q.Nodup) (hw : c.writer = false)
    (hk : ∀ t ∈ q, (progs t).kind = .read) (hl : ∀ t ∈ q, ∃ l, c.threads t = .waiting l) {th : Nat → Status σ τ}
    (hth : ∀ t, th t = match c.threads t with
      | .waiting l => if t ∈ q then .inside (progs t).steps l else .waiting l
      | s => s) :
    runSched progs q c = { c with readers := c.readers + q.length, threads := th, order := c.order ++ q } := by
  induction q generalizing c with
  | nil =>
    have : th = c.threads := by
      funext t
      rw [hth t]
      cases c.threads t <;> simp
    subst this
    simp [runSched]
  | cons t ts ih =>
    obtain ⟨l, hlt⟩ := hl t (by simp)
    obtain ⟨hnt, hnts⟩ := List.nodup_cons.1 hn
    have hst : step progs t c = some { c with
        readers := c.readers + 1, threads := upd c.threads t (.inside (progs t).steps l), order := c.order ++ [t] } := by
      unfold step
      rw [hlt]
      simp only [hk t (by simp), hw, Bool.false_eq_true, if_false]
    unfold runSched
    rw [hst, Option.getD_some]
    rw [ih (c := { c with
        readers := c.readers + 1, threads := upd c.threads t (.inside (progs t).steps l), order := c.order ++ [t] })
      hnts hw (fun x hx => hk x (by simp [hx]))]
    · simp only [List.length_cons, List.append_assoc, List.singleton_append, Config.mk.injEq, true_and, and_true]
      omega
    · intro x hx
      obtain ⟨l', h'⟩ := hl x (by simp [hx])
      have hxt : x ≠ t := by rintro rfl; exact hnt hx
      exact ⟨l', (upd_other hxt).trans h'⟩
    · intro x
      by_cases hx : x = t
      · subst hx
        rw [hth x, hlt]
        simp [upd_self]
      · simp only [upd_other hx]
        rw [hth x]
        simp [hx]

/-- Each step of the detailed mutex is a number of steps of the simple one. -/
theorem step_refines {progs : Nat → Prog σ τ} {c c' : FConfig σ τ} (h : FInv progs c) {t : Nat}
    (hs : fstep progs t c = some c') : ∃ sched, c'.abs = runSched progs sched c.abs := by
  have hab : ∀ x, c.abs.threads x = (c.threads x).abs := fun _ => rfl
  unfold fstep at hs
  split at hs
  · rename_i l hl
    have hal : c.abs.threads t = .waiting l := by rw [hab, hl]; rfl
    split at hs
    · rename_i hk
      simp only [Option.some.injEq] at hs
      subst hs
      refine ⟨[t], ?_⟩
      simp only [runSched, step, hal, hk, Option.getD_some]
      simp only [FConfig.abs, abs_upd]
      rfl
    · rename_i hk
      split at hs
      · rename_i hfree
        simp only [Option.some.injEq] at hs
        subst hs
        refine ⟨[t], ?_⟩
        have hw : c.abs.writer = false := by simp [FConfig.abs, hfree]
        simp only [runSched, step, hal, hk, hw, Bool.false_eq_true, if_false, Option.getD_some]
        simp only [FConfig.abs, abs_upd, hfree]
        rfl
      · simp only [Option.some.injEq] at hs
        subst hs
        refine ⟨[], ?_⟩
        simp only [runSched, FConfig.abs, FStatus.abs]
        congr 1
        funext x
        by_cases hx : x = t
        · subst hx; rw [upd_self, hl]
        · rw [upd_other hx]
    · split at hs
      · rename_i hfree
        simp only [Option.some.injEq] at hs
        subst hs
        refine ⟨[], ?_⟩
        simp only [runSched, FConfig.abs, FStatus.abs, hfree]
        congr 1
        funext x
        by_cases hx : x = t
        · subst hx; rw [upd_self, hl]
        · rw [upd_other hx]
      · simp at hs
  · simp at hs
  · rename_i l hl
    have hal : c.abs.threads t = .waiting l := by rw [hab, hl]; rfl
    have hp := h.announced t l hl
    have hk := (h.pending t hp).1
    split at hs
    · rename_i hz
      simp only [Option.some.injEq] at hs
      subst hs
      refine ⟨[t], ?_⟩
      have hw : c.abs.writer = false := by simp [FConfig.abs, hp]
      have hr : c.abs.readers = 0 := hz
      simp only [runSched, step, hal, hk, hw, hr, Bool.false_eq_true, ne_eq, not_true_eq_false, or_self, if_false, Option.getD_some]
      simp only [FConfig.abs, abs_upd, hz]
      rfl
    · simp at hs
  · rename_i f rest l hl
    have hal : c.abs.threads t = .inside (f :: rest) l := by rw [hab, hl]; rfl
    simp only [Option.some.injEq] at hs
    subst hs
    refine ⟨[t], ?_⟩
    simp only [runSched, step, hal, Option.getD_some]
    simp only [FConfig.abs, abs_upd]
    rfl
  · rename_i l hl
    have hal : c.abs.threads t = .inside [] l := by rw [hab, hl]; rfl
    split at hs
    · rename_i hk
      simp only [Option.some.injEq] at hs
      subst hs
      refine ⟨[t], ?_⟩
      simp only [runSched, step, hal, hk, Option.getD_some]
      simp only [FConfig.abs, abs_upd]
      rfl
    · rename_i hk
      simp only [Option.some.injEq] at hs
      subst hs
      refine ⟨[t], ?_⟩
      simp only [runSched, step, hal, hk, Option.getD_some]
      simp only [FConfig.abs, abs_upd]
      rfl
    · rename_i hk
      simp only [Option.some.injEq] at hs
      subst hs
      refine ⟨t :: c.queue, ?_⟩
      have hnq : t ∉ c.queue := by rw [h.queued]; rintro ⟨l', h'⟩; rw [hl] at h'; cases h'
      have hown := h.writer t ⟨_, _, hl⟩ hk
      unfold runSched
      have hst : step progs t c.abs = some { c.abs with writer := false, threads := upd c.abs.threads t (.done l) } := by
        simp only [step, hal, hk]
      rw [hst, Option.getD_some, runSched_readers (th := fun x => (admit progs (upd c.threads t (.done l)) x).abs)
        h.queueNodup rfl h.queueRead]
      · rfl
      · intro x hx
        obtain ⟨l', h'⟩ := (h.queued x).1 hx
        refine ⟨l', ?_⟩
        have hxt : x ≠ t := by rintro rfl; exact hnq hx
        simp only [upd_other hxt, hab, h']
        rfl
      · intro x
        by_cases hx : x = t
        · subst hx; simp only [admit, upd_self]; rfl
        · simp only [admit, upd_other hx, hab, h.queued x]
          cases hc : c.threads x <;> simp [FStatus.abs]
          all_goals (rw [h.queued x, hc]; simp)
  · simp at hs

/-- So every run of the detailed mutex is one of the simple mutex, in its view. -/
theorem run_refines {progs : Nat → Prog σ τ} (sched : List Nat) {c : FConfig σ τ} (h : FInv progs c) :
    ∃ sched', (runFine progs sched c).abs = runSched progs sched' c.abs := by
  induction sched generalizing c with
  | nil => exact ⟨[], rfl⟩
  | cons t ts ih =>
    unfold runFine
    cases hs : fstep progs t c with
    | none => exact ih h
    | some c' =>
      obtain ⟨s1, h1⟩ := step_refines h hs
      obtain ⟨s2, h2⟩ := ih (step_finv h hs)
      exact ⟨s1 ++ s2, by rw [Option.getD_some, h2, h1, runSched_append]⟩

/-! ## Progress -/

/-- A goroutine that has not finished can step, or somebody inside can. -/
theorem progress {progs : Nat → Prog σ τ} {c : FConfig σ τ} (h : FInv progs c) {t : Nat}
    (ht : ∀ l, c.threads t ≠ .done l) :
    ∃ t', fstep progs t' c ≠ none ∧ (t' = t ∨ FInside (c.threads t') ∨ c.owner = .pending t') := by
  have hin : ∀ x, FInside (c.threads x) → fstep progs x c ≠ none := by
    rintro x ⟨rest, l, hx⟩
    unfold fstep
    rw [hx]
    cases rest with
    | nil => cases hk : (progs x).kind <;> simp
    | cons f rest => simp
  have hpend : ∀ x, c.owner = .pending x →
      ∃ t', fstep progs t' c ≠ none ∧ (t' = t ∨ FInside (c.threads t') ∨ c.owner = .pending t') := by
    intro x hx
    obtain ⟨hk, l, hl⟩ := h.pending x hx
    by_cases hz : c.readers = 0
    · refine ⟨x, ?_, .inr (.inr hx)⟩
      unfold fstep
      rw [hl]
      simp [hz]
    · obtain ⟨R, h1, h2, h3⟩ := h.readers
      cases R with
      | nil => exact absurd h2.symm hz
      | cons y R =>
        have := ((h3 y).1 (by simp)).1
        exact ⟨y, hin y this, .inr (.inl this)⟩
  have hnf : c.owner ≠ .free →
      ∃ t', fstep progs t' c ≠ none ∧ (t' = t ∨ FInside (c.threads t') ∨ c.owner = .pending t') := by
    intro hne
    cases ho : c.owner with
    | free => exact absurd ho hne
    | pending x => rw [← ho]; exact hpend x ho
    | held x =>
      have := (h.held x ho).2.1
      exact ⟨x, hin x this, .inr (.inl this)⟩
  cases hs : c.threads t with
  | done l => exact absurd hs (ht l)
  | inside rest l => exact ⟨t, hin t ⟨_, _, hs⟩, .inl rfl⟩
  | announced l => exact hpend t (h.announced t l hs)
  | queued l =>
    refine hnf fun hf => ?_
    have := (h.queued t).2 ⟨l, hs⟩
    rw [h.queueFree hf] at this
    cases this
  | waiting l =>
    by_cases hf : c.owner = .free
    · refine ⟨t, ?_, .inl rfl⟩
      unfold fstep
      rw [hs]
      cases hk : (progs t).kind <;> simp [hf]
    · exact hnf hf

/-! ## A bound on the number of steps -/

/-- Steps left to a goroutine, at most. -/
def FStatus.left (p : Prog σ τ) : FStatus σ τ → Nat
  | .waiting _ => p.steps.length + 3
  | .queued _ => p.steps.length + 2
  | .announced _ => p.steps.length + 2
  | .inside rest _ => rest.length + 1
  | .done _ => 0

/-- Steps left to the goroutines below `n`, at most. -/
def left (progs : Nat → Prog σ τ) (n : Nat) (c : FConfig σ τ) : Nat :=
  ((List.range n).map fun t => (c.threads t).left (progs t)).sum

theorem sum_lt {f g : Nat → Nat} {n t : Nat} (ht : t < n) (hle : ∀ x, f x ≤ g x) (hlt : f t < g t) :
    ((List.range n).map f).sum < ((List.range n).map g).sum := by
  induction n with
  | zero => omega
  | succ n ih =>
    simp only [List.range_succ, List.map_append, List.map_singleton, List.sum_append, List.sum_singleton]
    have hle' : ((List.range n).map f).sum ≤ ((List.range n).map g).sum := by
      clear ih
      induction n with
      | zero => simp
      | succ m ihm =>
        simp only [List.range_succ, List.map_append, List.map_singleton, List.sum_append, List.sum_singleton]
        by_cases hm : t < m + 1
        · have := ihm hm; have := hle m; omega
        · have : ∀ k, ((List.range k).map f).sum ≤ ((List.range k).map g).sum := by
            intro k
            induction k with
            | zero => simp
            | succ k ihk =>
              simp only [List.range_succ, List.map_append, List.map_singleton, List.sum_append, List.sum_singleton]
              have := hle k; omega
          have := this m; have := hle m; omega
    by_cases h : t < n
    · have := ih h; have := hle n; omega
    · have : t = n := by omega
      subst this
      omega

theorem step_left {progs : Nat → Prog σ τ} {c c' : FConfig σ τ} {t n : Nat} (ht : t < n) (hs : fstep progs t c = some c') :
    left progs n c' < left progs n c := by
  have key : ∀ th : Nat → FStatus σ τ, (∀ x, x ≠ t → (th x).left (progs x) ≤ (c.threads x).left (progs x)) →
      (th t).left (progs t) < (c.threads t).left (progs t) →
      ((List.range n).map fun x => (th x).left (progs x)).sum < left progs n c := by
    intro th h1 h2
    refine sum_lt ht (fun x => ?_) h2
    by_cases hx : x = t
    · subst hx; omega
    · exact h1 x hx
  have hupd : ∀ s : FStatus σ τ, s.left (progs t) < (c.threads t).left (progs t) →
      ((List.range n).map fun x => (upd c.threads t s x).left (progs x)).sum < left progs n c := by
    intro s hs
    refine key _ (fun x hx => by rw [upd_other hx]; omega) (by rw [upd_self]; exact hs)
  unfold fstep at hs
  split at hs
  · rename_i l hl
    split at hs
    · simp only [Option.some.injEq] at hs; subst hs; exact hupd _ (by rw [hl]; simp [FStatus.left])
    · split at hs
      · simp only [Option.some.injEq] at hs; subst hs; exact hupd _ (by rw [hl]; simp [FStatus.left])
      · simp only [Option.some.injEq] at hs; subst hs; exact hupd _ (by rw [hl]; simp [FStatus.left])
    · split at hs
      · simp only [Option.some.injEq] at hs; subst hs; exact hupd _ (by rw [hl]; simp [FStatus.left])
      · simp at hs
  · simp at hs
  · rename_i l hl
    split at hs
    · simp only [Option.some.injEq] at hs; subst hs; exact hupd _ (by rw [hl]; simp [FStatus.left])
    · simp at hs
  · rename_i f rest l hl
    simp only [Option.some.injEq] at hs; subst hs; exact hupd _ (by rw [hl]; simp [FStatus.left])
  · rename_i l hl
    split at hs
    · simp only [Option.some.injEq] at hs; subst hs; exact hupd _ (by rw [hl]; simp [FStatus.left])
    · simp only [Option.some.injEq] at hs; subst hs; exact hupd _ (by rw [hl]; simp [FStatus.left])
    · simp only [Option.some.injEq] at hs; subst hs
      refine key _ (fun x hx => ?_) ?_
      · simp only [admit, upd_other hx]
        cases c.threads x <;> simp [FStatus.left]
      · simp only [admit, upd_self]
        rw [hl]; simp [FStatus.left]
  · simp at hs

end GoIdentity.Conc
