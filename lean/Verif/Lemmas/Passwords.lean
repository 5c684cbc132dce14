import Verif.Lemmas.UserSteps
import Verif.Spec.Laws
/-!
# Passwords
-/
set_option linter.unusedSectionVars false
namespace GoIdentity
variable [Ext]

theorem bcryptKey_length (pw : GoString) : (bcryptKey pw).length = 72 := by simp [bcryptKey]

theorem newPassword_ok {now salt s} {p : Password} (h : newPassword now salt s = .ok p) :
    trimSpace s ≠ [] ∧ ∃ salt', salt = some salt' ∧
      p = { purpose := gs! "generic", algorithm := gs! "bcrypt",
            hash := bcryptText 10 salt' (trimSpace s), cost := 10, expired := false,
            expiredAt := .zero, createdAt := now 0, disabled := false, disabledAt := .zero } := by
  unfold newPassword newPasswordWithOptions bcryptGenerate at h
  dsimp only at h
  split at h
  · simp at h
  · rename_i hne
    refine ⟨hne, ?_⟩
    cases salt with
    | none => simp at h
    | some s' => simp at h; exact ⟨s', rfl, h.symm⟩

/-- A freshly made password accepts the trimmed text it was made from. -/
theorem newPassword_accepts {now salt s} {p : Password} (h : newPassword now salt s = .ok p) :
    p.accepts (trimSpace s) = true := by
  obtain ⟨_, salt', _, rfl⟩ := newPassword_ok h
  have := (bcryptMatch_text (c := 10) (by decide) (by decide) salt' (trimSpace s) [] (trimSpace s)).2 rfl
  rw [List.append_nil] at this
  exact this

theorem newPassword_accepts_iff {now salt s q} {p : Password} (h : newPassword now (some salt) s = .ok p) :
    p.accepts q = true ↔ SameDigest salt (trimSpace s) q := by
  obtain ⟨_, salt', hs, rfl⟩ := newPassword_ok h
  cases hs
  have := bcryptMatch_text (c := 10) (by decide) (by decide) salt (trimSpace s) [] q
  rw [List.append_nil] at this
  exact this

theorem matchAny_iff {s : GoString} {ps : List Password} :
    User.matchAny s ps = true ↔ ∃ p ∈ ps, p.disabled = false ∧ p.expired = false ∧ p.accepts s = true := by
  induction ps with
  | nil => simp [User.matchAny]
  | cons p ps ih =>
    unfold User.matchAny
    by_cases h1 : (p.disabled || p.expired) = true
    · rw [if_pos h1, ih]
      simp only [List.mem_cons, exists_eq_or_imp]
      constructor
      · exact .inr
      · rintro (⟨h2, h3, _⟩ | h)
        · simp [h2, h3] at h1
        · exact h
    · rw [if_neg h1]
      simp only [Bool.or_eq_true, not_or, Bool.not_eq_true] at h1
      by_cases h2 : p.accepts s = true
      · simp [h1, h2]
      · rw [if_neg h2, ih]
        simp [h2]

theorem verifyPassword_none_iff {s : GoString} {u : User} :
    u.verifyPassword s = none ↔ ∃ p ∈ u.passwords, p.disabled = false ∧ p.expired = false ∧ p.accepts s = true := by
  unfold User.verifyPassword
  split
  · rename_i h
    have : u.passwords = [] := by simpa using h
    simp [this]
  · rw [← matchAny_iff]
    split
    · rename_i h; simp [h]
    · rename_i h; simp [h]

theorem authenticate_password {db : Database} (h : Inv db) (nd : Nondet) (fs : FS) (req : Request)
    (hpw : req.user.password ≠ []) :
    ((exec .authenticateUser nd db fs req).Succeeded ↔
      ∃ u ∈ db.users, Denotes req.user.username u ∧
        ∃ p ∈ u.passwords, p.disabled = false ∧ p.expired = false ∧ p.accepts req.user.password = true) ∧
    ((exec .authenticateUser nd db fs req).Succeeded → (exec .authenticateUser nd db fs req).req.response.code = 200) ∧
    (¬ (exec .authenticateUser nd db fs req).Succeeded →
      (exec .authenticateUser nd db fs req).Failed ∧ (exec .authenticateUser nd db fs req).req.response.code = 400) := by
  simp only [exec, Database.authenticateUser]
  cases hg : db.getUser req.user.username with
  | none =>
    have hn := (getUser_none_iff h).1 hg
    refine ⟨⟨fun hs => by simp [Result.Succeeded, Database.failWith] at hs, ?_⟩,
      fun hs => by simp [Result.Succeeded, Database.failWith] at hs, fun _ => ⟨⟨_, rfl⟩, rfl⟩⟩
    rintro ⟨u, hu, hd, _⟩
    exact absurd hd (hn u hu)
  | some iu =>
    obtain ⟨i, u⟩ := iu
    obtain ⟨hi, hd⟩ := (getUser_iff h).1 hg
    simp only [if_pos hpw]
    have huniq : ∀ v ∈ db.users, Denotes req.user.username v → v = u := by
      intro v hv hdv
      obtain ⟨j, hj⟩ := List.getElem?_of_mem hv
      have := (getUser_iff h).2 ⟨hj, hdv⟩
      rw [hg] at this
      simp only [Option.some.injEq, Prod.mk.injEq] at this
      exact this.2.symm
    cases hv : u.verifyPassword req.user.password with
    | none =>
      refine ⟨⟨fun _ => ⟨u, List.mem_of_getElem? hi, hd, verifyPassword_none_iff.1 hv⟩, fun _ => rfl⟩, fun _ => rfl,
        fun hs => absurd rfl hs⟩
    | some e =>
      refine ⟨⟨fun hs => by simp [Result.Succeeded, Database.failWith] at hs, ?_⟩,
        fun hs => by simp [Result.Succeeded, Database.failWith] at hs, fun _ => ⟨⟨_, rfl⟩, rfl⟩⟩
      rintro ⟨w, hw, hdw, hp⟩
      rw [huniq w hw hdw] at hp
      rw [verifyPassword_none_iff.2 hp] at hv
      simp at hv

/-- Disable a password unless it is disabled already. -/
def Password.off (now : Clock) (p : Password) : Password := if p.disabled then p else p.disable now

theorem keepLoop_eq (now : Clock) (keep : Int) (_ : 1 ≤ keep) (i : Nat) (hi : (i : Int) ≤ keep + 1) (ps : List Password) :
    User.keepLoop now keep i ps = (ps.take (keep + 2 - i).toNat).mapIdx fun j p => p.off (now.skip (2 * (i + j))) := by
  induction ps generalizing i with
  | nil => simp [User.keepLoop]
  | cons p ps ih =>
    unfold User.keepLoop
    obtain ⟨m, hm⟩ : ∃ m, (keep + 2 - i).toNat = m + 1 := ⟨(keep + 2 - i).toNat - 1, by omega⟩
    rw [hm, List.take_succ_cons, List.mapIdx_cons]
    show p.off _ :: _ = p.off _ :: _
    congr 1
    split
    · have : m = 0 := by omega
      simp [this]
    · rw [ih (i + 1) (by omega)]
      have : (keep + 2 - ((i + 1 : Nat) : Int)).toNat = m := by omega
      rw [this]
      congr 1
      funext j p
      rw [show i + 1 + j = i + (j + 1) by omega]

omit [Ext] in
theorem mem_off {f : Nat → Clock} {ps : List Password} {q : Password} (h : q ∈ ps.mapIdx fun j p => p.off (f j)) :
    ∃ p ∈ ps, ∃ j, q = p.off (f j) := by
  obtain ⟨j, hj, rfl⟩ := List.mem_mapIdx.1 h
  exact ⟨_, List.getElem_mem hj, j, rfl⟩

theorem off_disabled (now : Clock) (p : Password) : (p.off now).disabled = true := by
  unfold Password.off
  split
  · assumption
  · rfl

/-- The version bound in force for a policy. -/
def keepOf (k : Int) : Int := if k < 1 then 9 else k

theorem keepOf_pos (k : Int) : 1 ≤ keepOf k := by unfold keepOf; split <;> omega

end GoIdentity
