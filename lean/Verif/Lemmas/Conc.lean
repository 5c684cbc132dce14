import Verif.Model.Concurrency
/-!
# Serialisability of the read-write lock
-/
namespace GoIdentity.Conc

variable {σ τ ρ : Type}

/-- All micro-steps of a critical section, without interruption. -/
def runSteps : List (σ → τ → σ × τ) → σ → τ → σ × τ
  | [], s, l => (s, l)
  | f :: fs, s, l => runSteps fs (f s l).1 (f s l).2

/-- The shared state after the listed goroutines made their calls one at a time. -/
def serialState (progs : Nat → Prog σ τ) (locals : Nat → τ) : List Nat → σ → σ
  | [], s => s
  | t :: ts, s => serialState progs locals ts (runSteps (progs t).steps s (locals t)).1

/-- What a goroutine holds after its call, when the listed ones made theirs before, one at a time. -/
def serialResult (progs : Nat → Prog σ τ) (locals : Nat → τ) (before : List Nat) (t : Nat) (s : σ) : τ :=
  (runSteps (progs t).steps (serialState progs locals before s) (locals t)).2

/-- The goroutines that entered and use the lock, in the order in which they got it. -/
def lockOrder (progs : Nat → Prog σ τ) (c : Config σ τ) : List Nat := c.order.filter fun t => (progs t).kind ≠ .none

/-- The discipline of the calls, relative to a view `π` of the shared state: micro-steps depend on the state only through the
view, and only calls that hold the lock for writing change the view. -/
structure Discipline (progs : Nat → Prog σ τ) (π : σ → ρ) : Prop where
  respects : ∀ t, ∀ f ∈ (progs t).steps, ∀ s s' l, π s = π s' → π (f s l).1 = π (f s' l).1 ∧ (f s l).2 = (f s' l).2
  readOnly : ∀ t, (progs t).kind ≠ .write → ∀ f ∈ (progs t).steps, ∀ s l, π (f s l).1 = π s

def Inside (s : Status σ τ) : Prop := ∃ rest l, s = .inside rest l

theorem serialState_append (progs : Nat → Prog σ τ) (locals : Nat → τ) (a b : List Nat) (s : σ) :
    serialState progs locals (a ++ b) s = serialState progs locals b (serialState progs locals a s) := by
  induction a generalizing s with
  | nil => rfl
  | cons t a ih => exact ih _

theorem runSteps_respects {π : σ → ρ} {fs : List (σ → τ → σ × τ)}
    (h : ∀ f ∈ fs, ∀ s s' l, π s = π s' → π (f s l).1 = π (f s' l).1 ∧ (f s l).2 = (f s' l).2) {s s' : σ} {l : τ}
    (hs : π s = π s') :
    π (runSteps fs s l).1 = π (runSteps fs s' l).1 ∧ (runSteps fs s l).2 = (runSteps fs s' l).2 := by
  induction fs generalizing s s' l with
  | nil => exact ⟨hs, rfl⟩
  | cons f fs ih =>
    obtain ⟨h1, h2⟩ := h f (by simp) s s' l hs
    unfold runSteps
    rw [← h2]
    exact ih (fun g hg => h g (by simp [hg])) h1

theorem runSteps_readOnly {π : σ → ρ} {fs : List (σ → τ → σ × τ)} (h : ∀ f ∈ fs, ∀ s l, π (f s l).1 = π s) (s : σ) (l : τ) :
    π (runSteps fs s l).1 = π s := by
  induction fs generalizing s l with
  | nil => rfl
  | cons f fs ih =>
    unfold runSteps
    rw [ih (fun g hg => h g (by simp [hg]))]
    exact h f (by simp) s l

/-- What holds in every configuration. -/
structure CInv (progs : Nat → Prog σ τ) (π : σ → ρ) (locals : Nat → τ) (s0 : σ) (c : Config σ τ) : Prop where
  nodup : c.order.Nodup
  entered : ∀ t, t ∈ c.order ↔ ∀ l, c.threads t ≠ .waiting l
  waits : ∀ t l, c.threads t = .waiting l → l = locals t
  suffix : ∀ t rest l, c.threads t = .inside rest l → rest <:+ (progs t).steps
  locked : c.writer = true → ∃ w, (progs w).kind = .write ∧ Inside (c.threads w) ∧
    ∀ t, Inside (c.threads t) → (progs t).kind ≠ .none → t = w
  unlocked : c.writer = false → ∀ t, Inside (c.threads t) → (progs t).kind ≠ .write
  readers : ∃ R : List Nat, R.Nodup ∧ R.length = c.readers ∧
    ∀ t, t ∈ R ↔ Inside (c.threads t) ∧ (progs t).kind = .read
  done : ∀ t a b l, lockOrder progs c = a ++ t :: b → c.threads t = .done l → l = serialResult progs locals a t s0
  running : ∀ t a b rest l, lockOrder progs c = a ++ t :: b → c.threads t = .inside rest l →
    (runSteps rest c.shared l).2 = serialResult progs locals a t s0 ∧
    ((progs t).kind = .write →
      π (runSteps rest c.shared l).1 = π (serialState progs locals (lockOrder progs c) s0))
  quiet : c.writer = false → π c.shared = π (serialState progs locals (lockOrder progs c) s0)

theorem initial_inv (progs : Nat → Prog σ τ) (π : σ → ρ) (locals : Nat → τ) (s0 : σ) :
    CInv progs π locals s0 (initial s0 locals) := by
  constructor
  · exact List.nodup_nil
  · intro t; simp [initial]
  · intro t l h; simp only [initial, Status.waiting.injEq] at h; exact h.symm
  · intro t rest l h; simp [initial] at h
  · intro h; simp [initial] at h
  · rintro _ t ⟨rest, l, h⟩; simp [initial] at h
  · exact ⟨[], List.nodup_nil, rfl, fun t => by simp [Inside, initial]⟩
  · intro t a b l h _; simp [lockOrder, initial] at h
  · intro t a b rest l h _; simp [lockOrder, initial] at h
  · intro _; rfl

theorem split_last {a b ord : List Nat} {t t' : Nat} (h : ord ++ [t] = a ++ t' :: b) (hne : t' ≠ t) :
    ∃ b', b = b' ++ [t] ∧ ord = a ++ t' :: b' := by
  rcases List.eq_nil_or_concat b with rfl | ⟨b', x, rfl⟩
  · have := List.append_inj_right' (s₁ := ord) (s₂ := a) (t₁ := [t]) (t₂ := [t']) (by simpa using h) rfl
    simp only [List.cons.injEq, and_true] at this
    exact absurd this.symm hne
  · have h' : ord ++ [t] = (a ++ t' :: b') ++ [x] := by simpa using h
    have := List.append_inj' h' rfl
    simp only [List.cons.injEq, and_true] at this
    obtain ⟨h1, h2⟩ := this
    subst h2
    exact ⟨b', by simp, h1⟩

theorem split_last_self {a b ord : List Nat} {t : Nat} (h : ord ++ [t] = a ++ t :: b) (hnot : t ∉ ord) : a = ord := by
  rcases List.eq_nil_or_concat b with rfl | ⟨b', x, rfl⟩
  · have := List.append_inj' (s₁ := ord) (s₂ := a) (t₁ := [t]) (t₂ := [t]) (by simpa using h) rfl
    exact this.1.symm
  · have h' : ord ++ [t] = (a ++ t :: b') ++ [x] := by simpa using h
    have := (List.append_inj' h' rfl).1
    exact absurd (by rw [this]; simp) hnot

theorem mem_lockOrder {progs : Nat → Prog σ τ} {c : Config σ τ} {t : Nat} :
    t ∈ lockOrder progs c ↔ t ∈ c.order ∧ (progs t).kind ≠ .none := by
  simp [lockOrder]

/-- Entering, for all three kinds of lock. -/
theorem enter_inv {progs : Nat → Prog σ τ} {π : σ → ρ} (hd : Discipline progs π) {locals : Nat → τ} {s0 : σ}
    {c : Config σ τ} (h : CInv progs π locals s0 c) {t : Nat} {l : τ} (ht : c.threads t = .waiting l) {wr : Bool} {rd : Nat}
    (hk : ((progs t).kind = .none ∧ wr = c.writer ∧ rd = c.readers) ∨
      ((progs t).kind = .read ∧ c.writer = false ∧ wr = false ∧ rd = c.readers + 1) ∨
      ((progs t).kind = .write ∧ c.writer = false ∧ c.readers = 0 ∧ wr = true ∧ rd = 0)) :
    CInv progs π locals s0 { c with
      writer := wr, readers := rd, threads := upd c.threads t (.inside (progs t).steps l), order := c.order ++ [t] } := by
  have hl := h.waits t l ht
  subst hl
  have hnot : t ∉ c.order := fun hc => (h.entered t).1 hc _ ht
  have hsame : ∀ {x}, x ≠ t → upd c.threads t (.inside (progs t).steps (locals t)) x = c.threads x := fun hx => by simp [upd, hx]
  have hself : upd c.threads t (.inside (progs t).steps (locals t)) t = .inside (progs t).steps (locals t) := by simp [upd]
  have hins : ∀ x, Inside (upd c.threads t (.inside (progs t).steps (locals t)) x) ↔ x = t ∨ Inside (c.threads x) := by
    intro x
    by_cases hx : x = t
    · subst hx; rw [hself]; simp [Inside]
    · rw [hsame hx]; simp [hx]
  have htin : ¬ Inside (c.threads t) := by rintro ⟨r, l, hc⟩; rw [ht] at hc; simp at hc
  have hord : ∀ c' : Config σ τ, c'.order = c.order ++ [t] →
      lockOrder progs c' = if (progs t).kind = .none then lockOrder progs c else lockOrder progs c ++ [t] := by
    intro c' hc'
    unfold lockOrder
    rw [hc', List.filter_append]
    by_cases hn : (progs t).kind = .none <;> simp [hn]
  have hnl : t ∉ lockOrder progs c := fun hc => hnot (mem_lockOrder.1 hc).1
  have hnoneInside : (progs t).kind = .write → ∀ x, Inside (c.threads x) → (progs x).kind ≠ .none → False := by
    intro hw x hx hxk
    obtain ⟨R, _, hlen, hR⟩ := h.readers
    rcases hk with ⟨hk, _⟩ | ⟨hk, _⟩ | ⟨_, hwf, hr0, _⟩
    · rw [hk] at hw; simp at hw
    · rw [hk] at hw; simp at hw
    · have hnw := h.unlocked hwf x hx
      have hxr : (progs x).kind = .read := by
        cases hkx : (progs x).kind with
        | none => exact absurd hkx hxk
        | read => rfl
        | write => exact absurd hkx hnw
      have hmem := (hR x).2 ⟨hx, hxr⟩
      rw [hr0] at hlen
      rw [List.length_eq_zero_iff.1 hlen] at hmem
      simp at hmem
  constructor
  · show (c.order ++ [t]).Nodup
    rw [List.nodup_append]
    refine ⟨h.nodup, by simp, ?_⟩
    intro a ha b hb hab
    simp only [List.mem_singleton] at hb
    subst hb; subst hab
    exact hnot ha
  · intro x
    dsimp only
    by_cases hx : x = t
    · subst hx; rw [hself]; simp
    · rw [hsame hx, List.mem_append, List.mem_singleton, h.entered x]; simp [hx]
  · intro x l' hw
    dsimp only at hw
    by_cases hx : x = t
    · subst hx; rw [hself] at hw; simp at hw
    · rw [hsame hx] at hw; exact h.waits x l' hw
  · intro x rest l' hw
    dsimp only at hw
    by_cases hx : x = t
    · subst hx
      rw [hself] at hw
      simp only [Status.inside.injEq] at hw
      rw [← hw.1]; exact List.suffix_refl _
    · rw [hsame hx] at hw; exact h.suffix x rest l' hw
  · intro hw
    dsimp only at hw ⊢
    rcases hk with ⟨hk, h1, _⟩ | ⟨hk, _, h1, _⟩ | ⟨hk, hwf, _, _⟩
    · obtain ⟨w, hw1, hw2, hw3⟩ := h.locked (h1 ▸ hw)
      refine ⟨w, hw1, (hins w).2 (.inr hw2), fun x hx hxk => ?_⟩
      rcases (hins x).1 hx with rfl | hx
      · exact absurd hk hxk
      · exact hw3 x hx hxk
    · rw [h1] at hw; simp at hw
    · refine ⟨t, hk, (hins t).2 (.inl rfl), fun x hx hxk => ?_⟩
      rcases (hins x).1 hx with rfl | hx
      · rfl
      · exact (hnoneInside hk x hx hxk).elim
  · intro hw x hx
    dsimp only at hw hx ⊢
    rcases hk with ⟨hk, h1, _⟩ | ⟨hk, hwf, _, _⟩ | ⟨_, _, _, h1, _⟩
    · rcases (hins x).1 hx with rfl | hx
      · rw [hk]; simp
      · exact h.unlocked (h1 ▸ hw) x hx
    · rcases (hins x).1 hx with rfl | hx
      · rw [hk]; simp
      · exact h.unlocked hwf x hx
    · rw [h1] at hw; simp at hw
  · obtain ⟨R, hnd, hlen, hR⟩ := h.readers
    dsimp only
    rcases hk with ⟨hk, _, h1⟩ | ⟨hk, _, _, h1⟩ | ⟨hk, _, hr0, _, h1⟩
    · refine ⟨R, hnd, by rw [hlen, h1], fun x => ?_⟩
      rw [hR, hins]
      by_cases hx : x = t
      · subst hx; simp [hk, htin]
      · simp [hx]
    · refine ⟨t :: R, ?_, by simp [hlen, h1], fun x => ?_⟩
      · rw [List.nodup_cons]
        exact ⟨fun hc => htin ((hR t).1 hc).1, hnd⟩
      · rw [List.mem_cons, hR, hins]
        by_cases hx : x = t
        · subst hx; simp [hk]
        · simp [hx]
    · refine ⟨R, hnd, by rw [hlen, h1, hr0], fun x => ?_⟩
      rw [hR, hins]
      by_cases hx : x = t
      · subst hx; simp [hk, htin]
      · simp [hx]
  · intro x a b l' hsplit hdone
    rw [hord _ rfl] at hsplit
    dsimp only at hdone
    have hx : x ≠ t := by rintro rfl; rw [hself] at hdone; simp at hdone
    rw [hsame hx] at hdone
    split at hsplit
    · exact h.done x a b l' hsplit hdone
    · obtain ⟨b', _, h2⟩ := split_last hsplit hx
      exact h.done x a b' l' h2 hdone
  · intro x a b rest l' hsplit hin
    rw [hord _ rfl] at hsplit
    rw [hord _ rfl]
    dsimp only at hin ⊢
    by_cases hx : x = t
    · subst hx
      rw [hself] at hin
      simp only [Status.inside.injEq] at hin
      obtain ⟨rfl, rfl⟩ := hin
      have hkn : (progs x).kind ≠ .none := by
        intro hkn
        rw [if_pos hkn] at hsplit
        exact hnl (by rw [hsplit]; simp)
      rw [if_neg hkn] at hsplit ⊢
      have ha := split_last_self hsplit hnl
      subst ha
      have hwf : c.writer = false := by
        rcases hk with ⟨hk, _⟩ | ⟨_, hwf, _⟩ | ⟨_, hwf, _⟩
        · exact absurd hk hkn
        · exact hwf
        · exact hwf
      obtain ⟨e1, e2⟩ := runSteps_respects (hd.respects x) (l := locals x) (h.quiet hwf)
      refine ⟨e2, fun _ => ?_⟩
      rw [serialState_append]
      exact e1
    · rw [hsame hx] at hin
      have hxin : Inside (c.threads x) := ⟨_, _, hin⟩
      by_cases hkn : (progs t).kind = .none
      · rw [if_pos hkn] at hsplit ⊢
        exact h.running x a b rest l' hsplit hin
      · rw [if_neg hkn] at hsplit
        obtain ⟨b', _, h2⟩ := split_last hsplit hx
        refine ⟨(h.running x a b' rest l' h2 hin).1, fun hxw => ?_⟩
        exfalso
        rcases hk with ⟨hk, _⟩ | ⟨_, hwf, _⟩ | ⟨_, hwf, _⟩
        · exact hkn hk
        · exact h.unlocked hwf x hxin hxw
        · exact h.unlocked hwf x hxin hxw
  · intro hw
    dsimp only at hw ⊢
    rw [hord _ rfl]
    rcases hk with ⟨hk, h1, _⟩ | ⟨hk, hwf, _, _⟩ | ⟨_, _, _, h1, _⟩
    · rw [if_pos hk]; exact h.quiet (h1 ▸ hw)
    · rw [if_neg (by rw [hk]; simp), serialState_append, h.quiet hwf]
      exact (runSteps_readOnly (hd.readOnly t (by rw [hk]; simp)) _ _).symm
    · rw [h1] at hw; simp at hw

/-- A micro-step. -/
theorem micro_inv {progs : Nat → Prog σ τ} {π : σ → ρ} (hd : Discipline progs π) {locals : Nat → τ} {s0 : σ}
    {c : Config σ τ} (h : CInv progs π locals s0 c) {t : Nat} {f : σ → τ → σ × τ} {rest : List (σ → τ → σ × τ)} {l : τ}
    (ht : c.threads t = .inside (f :: rest) l) :
    CInv progs π locals s0 { c with
      shared := (f c.shared l).1, threads := upd c.threads t (.inside rest (f c.shared l).2) } := by
  have hf : f ∈ (progs t).steps := (h.suffix t _ _ ht).mem (by simp)
  have hsame : ∀ {x}, x ≠ t → upd c.threads t (.inside rest (f c.shared l).2) x = c.threads x := fun hx => by simp [upd, hx]
  have hself : upd c.threads t (.inside rest (f c.shared l).2) t = .inside rest (f c.shared l).2 := by simp [upd]
  have hins : ∀ x, Inside (upd c.threads t (.inside rest (f c.shared l).2) x) ↔ Inside (c.threads x) := by
    intro x
    by_cases hx : x = t
    · subst hx; rw [hself, ht]; simp [Inside]
    · rw [hsame hx]
  have htin : Inside (c.threads t) := ⟨_, _, ht⟩
  have hpi : (progs t).kind ≠ .write → π (f c.shared l).1 = π c.shared := fun hk => hd.readOnly t hk f hf _ _
  have hsuf : ∀ x r l', c.threads x = .inside r l' → ∀ g ∈ r, ∀ s s' l,
      π s = π s' → π (g s l).1 = π (g s' l).1 ∧ (g s l).2 = (g s' l).2 :=
    fun x r l' hx g hg => hd.respects x g ((h.suffix x r l' hx).mem hg)
  constructor
  · exact h.nodup
  · intro x
    dsimp only
    rw [h.entered]
    by_cases hx : x = t
    · subst hx; rw [hself, ht]; simp
    · rw [hsame hx]
  · intro x l' hw
    dsimp only at hw
    by_cases hx : x = t
    · subst hx; rw [hself] at hw; simp at hw
    · rw [hsame hx] at hw; exact h.waits x l' hw
  · intro x r l' hw
    dsimp only at hw
    by_cases hx : x = t
    · subst hx
      rw [hself] at hw
      simp only [Status.inside.injEq] at hw
      rw [← hw.1]
      exact (List.suffix_cons f rest).trans (h.suffix x _ _ ht)
    · rw [hsame hx] at hw; exact h.suffix x r l' hw
  · intro hw
    obtain ⟨w, h1, h2, h3⟩ := h.locked hw
    exact ⟨w, h1, (hins w).2 h2, fun x hx hk => h3 x ((hins x).1 hx) hk⟩
  · intro hw x hx
    exact h.unlocked hw x ((hins x).1 hx)
  · obtain ⟨R, h1, h2, h3⟩ := h.readers
    exact ⟨R, h1, h2, fun x => by rw [h3]; exact and_congr (hins x).symm Iff.rfl⟩
  · intro x a b l' hsplit hdone
    dsimp only at hdone
    have hx : x ≠ t := by rintro rfl; rw [hself] at hdone; simp at hdone
    rw [hsame hx] at hdone
    exact h.done x a b l' hsplit hdone
  · intro x a b r l' hsplit hin
    dsimp only at hin ⊢
    have hsplit : lockOrder progs c = a ++ x :: b := hsplit
    by_cases hx : x = t
    · subst hx
      rw [hself] at hin
      simp only [Status.inside.injEq] at hin
      obtain ⟨rfl, rfl⟩ := hin
      exact h.running x a b _ _ hsplit ht
    · rw [hsame hx] at hin
      obtain ⟨h1, h2⟩ := h.running x a b r l' hsplit hin
      by_cases hk : (progs t).kind = .write
      · exfalso
        have hxk : (progs x).kind ≠ .none := (mem_lockOrder.1 (by rw [hsplit]; simp : x ∈ lockOrder progs c)).2
        cases hw : c.writer with
        | false => exact h.unlocked hw t htin hk
        | true =>
          obtain ⟨w, _, _, h3⟩ := h.locked hw
          have e1 := h3 t htin (by rw [hk]; simp)
          have e2 := h3 x ⟨_, _, hin⟩ hxk
          exact hx (e2.trans e1.symm)
      · obtain ⟨e1, e2⟩ := runSteps_respects (hsuf x r l' hin) (l := l') (hpi hk)
        refine ⟨e2.trans h1, fun hxw => ?_⟩
        show π (runSteps r (f c.shared l).1 l').1 = _
        rw [e1]
        exact h2 hxw
  · intro hw
    dsimp only at hw ⊢
    have hk := h.unlocked hw t htin
    rw [hpi hk]
    exact h.quiet hw

/-- Leaving. -/
theorem leave_inv {progs : Nat → Prog σ τ} {π : σ → ρ} {locals : Nat → τ} {s0 : σ}
    {c : Config σ τ} (h : CInv progs π locals s0 c) {t : Nat} {l : τ} (ht : c.threads t = .inside [] l) {wr : Bool} {rd : Nat}
    (hk : ((progs t).kind = .none ∧ wr = c.writer ∧ rd = c.readers) ∨
      ((progs t).kind = .read ∧ wr = c.writer ∧ rd = c.readers - 1) ∨
      ((progs t).kind = .write ∧ wr = false ∧ rd = c.readers)) :
    CInv progs π locals s0 { c with writer := wr, readers := rd, threads := upd c.threads t (.done l) } := by
  have hsame : ∀ {x}, x ≠ t → upd c.threads t (.done l) x = c.threads x := fun hx => by simp [upd, hx]
  have hself : upd c.threads t (.done l) t = .done l := by simp [upd]
  have hins : ∀ x, Inside (upd c.threads t (.done l) x) ↔ x ≠ t ∧ Inside (c.threads x) := by
    intro x
    by_cases hx : x = t
    · subst hx; rw [hself]; simp [Inside]
    · rw [hsame hx]; simp [hx]
  have htin : Inside (c.threads t) := ⟨_, _, ht⟩
  have hent : t ∈ c.order := (h.entered t).2 (by rw [ht]; simp)
  constructor
  · exact h.nodup
  · intro x
    dsimp only
    rw [h.entered]
    by_cases hx : x = t
    · subst hx; rw [hself, ht]; simp
    · rw [hsame hx]
  · intro x l' hw
    dsimp only at hw
    by_cases hx : x = t
    · subst hx; rw [hself] at hw; simp at hw
    · rw [hsame hx] at hw; exact h.waits x l' hw
  · intro x r l' hw
    dsimp only at hw
    by_cases hx : x = t
    · subst hx; rw [hself] at hw; simp at hw
    · rw [hsame hx] at hw; exact h.suffix x r l' hw
  · intro hw
    dsimp only at hw ⊢
    rcases hk with ⟨hk, h1, _⟩ | ⟨hk, h1, _⟩ | ⟨_, h1, _⟩
    · obtain ⟨w, e1, e2, e3⟩ := h.locked (h1 ▸ hw)
      refine ⟨w, e1, (hins w).2 ⟨?_, e2⟩, fun x hx hxk => e3 x ((hins x).1 hx).2 hxk⟩
      rintro rfl; rw [hk] at e1; simp at e1
    · obtain ⟨w, e1, e2, e3⟩ := h.locked (h1 ▸ hw)
      refine ⟨w, e1, (hins w).2 ⟨?_, e2⟩, fun x hx hxk => e3 x ((hins x).1 hx).2 hxk⟩
      rintro rfl; rw [hk] at e1; simp at e1
    · rw [h1] at hw; simp at hw
  · intro hw x hx
    dsimp only at hw hx
    obtain ⟨hxt, hx⟩ := (hins x).1 hx
    rcases hk with ⟨_, h1, _⟩ | ⟨_, h1, _⟩ | ⟨hk, _, _⟩
    · exact h.unlocked (h1 ▸ hw) x hx
    · exact h.unlocked (h1 ▸ hw) x hx
    · cases hcw : c.writer with
      | false => exact h.unlocked hcw x hx
      | true =>
        obtain ⟨w, _, _, h3⟩ := h.locked hcw
        have e1 := h3 t htin (by rw [hk]; simp)
        intro hxw
        exact hxt ((h3 x hx (by rw [hxw]; simp)).trans e1.symm)
  · obtain ⟨R, h1, h2, h3⟩ := h.readers
    dsimp only
    have hother : (progs t).kind ≠ .read → ∀ x, (x ∈ R ↔ (x ≠ t ∧ Inside (c.threads x)) ∧ (progs x).kind = .read) := by
      intro hne x
      rw [h3]
      constructor
      · rintro ⟨e1, e2⟩; exact ⟨⟨by rintro rfl; exact hne e2, e1⟩, e2⟩
      · rintro ⟨⟨_, e1⟩, e2⟩; exact ⟨e1, e2⟩
    rcases hk with ⟨hk, _, e⟩ | ⟨hk, _, e⟩ | ⟨hk, _, e⟩
    · exact ⟨R, h1, h2.trans e.symm, fun x => by rw [hins]; exact hother (by rw [hk]; simp) x⟩
    · have hmem : t ∈ R := (h3 t).2 ⟨htin, hk⟩
      refine ⟨R.erase t, h1.erase t, by rw [List.length_erase_of_mem hmem, h2, e], fun x => ?_⟩
      rw [h1.mem_erase_iff, h3, hins, and_assoc]
    · exact ⟨R, h1, h2.trans e.symm, fun x => by rw [hins]; exact hother (by rw [hk]; simp) x⟩
  · intro x a b l' hsplit hdone
    dsimp only at hdone
    by_cases hx : x = t
    · subst hx
      rw [hself] at hdone
      simp only [Status.done.injEq] at hdone
      rw [← hdone]
      exact (h.running x a b [] l hsplit ht).1
    · rw [hsame hx] at hdone
      exact h.done x a b l' hsplit hdone
  · intro x a b r l' hsplit hin
    dsimp only at hin
    by_cases hx : x = t
    · subst hx; rw [hself] at hin; simp at hin
    · rw [hsame hx] at hin
      exact h.running x a b r l' hsplit hin
  · intro hw
    dsimp only at hw ⊢
    rcases hk with ⟨_, h1, _⟩ | ⟨_, h1, _⟩ | ⟨hk, _, _⟩
    · exact h.quiet (h1 ▸ hw)
    · exact h.quiet (h1 ▸ hw)
    · have hmem : t ∈ lockOrder progs c := mem_lockOrder.2 ⟨hent, by rw [hk]; simp⟩
      obtain ⟨a, b, hab⟩ := List.append_of_mem hmem
      exact (h.running t a b [] l hab ht).2 hk

theorem step_inv {progs : Nat → Prog σ τ} {π : σ → ρ} (hd : Discipline progs π) {locals : Nat → τ} {s0 : σ}
    {c c' : Config σ τ} (h : CInv progs π locals s0 c) {t : Nat} (hs : step progs t c = some c') :
    CInv progs π locals s0 c' := by
  unfold step at hs
  split at hs
  · rename_i l ht
    split at hs
    · rename_i hk
      simp only [Option.some.injEq] at hs; subst hs
      exact enter_inv hd h ht (.inl ⟨hk, rfl, rfl⟩)
    · rename_i hk
      split at hs
      · simp at hs
      · rename_i hw
        simp only [Option.some.injEq] at hs; subst hs
        have hw : c.writer = false := by simpa using hw
        have := enter_inv hd h ht (wr := false) (.inr (.inl ⟨hk, hw, rfl, rfl⟩))
        rw [← hw] at this
        exact this
    · rename_i hk
      split at hs
      · simp at hs
      · rename_i hw
        simp only [Option.some.injEq] at hs; subst hs
        simp only [not_or, Bool.not_eq_true, Decidable.not_not] at hw
        have := enter_inv hd h ht (wr := true) (rd := 0) (.inr (.inr ⟨hk, hw.1, hw.2, rfl, rfl⟩))
        rw [← hw.2] at this
        exact this
  · rename_i f rest l ht
    simp only [Option.some.injEq] at hs; subst hs
    exact micro_inv hd h ht
  · rename_i l ht
    split at hs
    · rename_i hk
      simp only [Option.some.injEq] at hs; subst hs
      exact leave_inv h ht (.inl ⟨hk, rfl, rfl⟩)
    · rename_i hk
      simp only [Option.some.injEq] at hs; subst hs
      exact leave_inv h ht (.inr (.inl ⟨hk, rfl, rfl⟩))
    · rename_i hk
      simp only [Option.some.injEq] at hs; subst hs
      exact leave_inv h ht (.inr (.inr ⟨hk, rfl, rfl⟩))
  · simp at hs

theorem run_inv {progs : Nat → Prog σ τ} {π : σ → ρ} (hd : Discipline progs π) {locals : Nat → τ} {s0 : σ}
    {c : Config σ τ} (h : CInv progs π locals s0 c) (sched : List Nat) : CInv progs π locals s0 (runSched progs sched c) := by
  induction sched generalizing c with
  | nil => exact h
  | cons t ts ih =>
    unfold runSched
    apply ih
    cases hs : step progs t c with
    | none => exact h
    | some c' => exact step_inv hd h hs

/-- Goroutines are only added to the order at its end. -/
theorem order_prefix (progs : Nat → Prog σ τ) (sched : List Nat) (c : Config σ τ) :
    c.order <+: (runSched progs sched c).order := by
  induction sched generalizing c with
  | nil => exact List.prefix_refl _
  | cons t ts ih =>
    unfold runSched
    refine List.IsPrefix.trans ?_ (ih _)
    cases hs : step progs t c with
    | none => exact List.prefix_refl _
    | some c' =>
      unfold step at hs
      dsimp only [Option.getD_some]
      repeat' split at hs
      all_goals
        first
        | simp at hs
          done
        | (simp only [Option.some.injEq] at hs
           subst hs
           first | exact List.prefix_append _ _ | exact List.prefix_refl _)

end GoIdentity.Conc
