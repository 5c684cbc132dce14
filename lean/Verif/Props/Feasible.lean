import Verif.Props.Opening
import Verif.Props.Success
import Verif.Spec.Toy
/-!
# Policies nobody can satisfy: C88
-/
namespace GoIdentity
open Toy

/-- Some length of a username is allowed, and some length of a password, apart from zero, which is rejected anyway. -/
def Policy.Feasible (p : Policy) : Prop :=
  (∃ n : Nat, 1 ≤ n ∧ p.user.minLength ≤ n ∧ (n : Int) ≤ p.user.maxLength) ∧
  ∃ n : Nat, 1 ≤ n ∧ p.password.minLength ≤ n ∧ (n : Int) ≤ p.password.maxLength

/-- C88: in words of the limits. -/
theorem C88_feasible_iff (p : Policy) :
    p.Feasible ↔ max p.user.minLength 1 ≤ p.user.maxLength ∧ max p.password.minLength 1 ≤ p.password.maxLength := by
  have h : ∀ a b : Int, (∃ n : Nat, 1 ≤ n ∧ a ≤ n ∧ (n : Int) ≤ b) ↔ max a 1 ≤ b := by
    intro a b
    constructor
    · rintro ⟨n, h1, h2, h3⟩; omega
    · intro h; exact ⟨(max a 1).toNat, by omega, by omega, by omega⟩
  unfold Policy.Feasible
  rw [h, h]

theorem newPassword_not_blank [Ext] {now : Clock} {salt : Option GoString} {s : GoString} {p : Password}
    (h : newPassword now salt s = .ok p) : ¬ Blank s := by
  rw [← trimSpace_nil_iff]
  exact (newPassword_ok h).1

/-- C88: with such a policy no call ever adds a user. -/
theorem C88_nobody_joins [Ext] {db : Database} (hp : ¬ db.policy.Feasible) (c : Call) (nd : Nondet) (fs : FS) (req : Request) :
    (exec .addUser nd db fs req).out ≠ .success ∧ (exec c nd db fs req).db.users.length = db.users.length := by
  have key : ¬ (req.user.username ≠ [] ∧ ¬ Blank req.user.password ∧
      checkPolicy db.policy req.user.username req.user.password = none) := by
    rintro ⟨h1, h2, h3⟩
    have hlen : ∀ s : GoString, s ≠ [] → 1 ≤ s.length := by
      intro s hs; cases s with
      | nil => exact absurd rfl hs
      | cons => simp
    refine hp ⟨⟨req.user.username.length, hlen _ h1, ?_⟩, ⟨req.user.password.length, hlen _ ?_, ?_⟩⟩
    · unfold checkPolicy checkUserPolicy at h3
      split at h3
      · simp at h3
      · rename_i h4
        split at h4
        · simp at h4
        · omega
    · intro h; rw [h] at h2; exact h2 blank_nil
    · unfold checkPolicy checkPasswordPolicy at h3
      split at h3
      · simp at h3
      · split at h3
        · simp at h3
        · omega
  constructor
  · intro hs
    rcases exec_spec .addUser nd db fs req with h | ⟨db', m, h⟩
    · exact h.out rfl hs
    · have hm := m.users'
      revert hm
      generalize db'.users = us
      intro hm
      cases hm with
      | appended p e roles name hpol hp he hun =>
        exact key ⟨hun, fun hb => newPassword_not_blank hp hb, hpol⟩
      | modified c i u u' hv hop => cases hop
  · rcases exec_users' c nd db fs req with h | h
    · rw [h]
    · revert h
      generalize (exec c nd db fs req).db.users = us
      intro h
      cases h with
      | save => rfl
      | copy => rfl
      | appended p e roles name hpol hp he hun =>
        exact absurd ⟨hun, fun hb => newPassword_not_blank hp hb, hpol⟩ key
      | modified i u u' hv hop => simp

/-- C88: so in every history the users remain those of the file. -/
theorem C88_closed_forever [Ext] {db : Database} (hp : ¬ db.policy.Feasible) (fs : FS) (ops : List Op) :
    (run db fs ops).1.users.length = db.users.length := by
  induction ops generalizing db fs with
  | nil => rfl
  | cons o ops ih =>
    have h1 := (C88_nobody_joins hp o.call o.nd fs o.req).2
    rcases run_cons db fs o ops with h | h
    · rw [h]; exact h1
    · rw [h, ih (by rw [(exec_path ..).2.1]; exact hp)]; exact h1

/-- C88: conversely, if the policy can be satisfied, the first user can be added. -/
theorem C88_first_user [Ext] {db : Database} (h : Reach Opened db) (hu : db.users = []) (hp : db.policy.Feasible) :
    ∃ req : Request, ∀ (nd : Nondet) (fs : FS), (nd.salts 0).isSome = true → nd.userID.length = 36 →
      CanWrite nd fs db.path → (exec .addUser nd db fs req).Succeeded := by
  obtain ⟨⟨n, h1, h2, h3⟩, m, h4, h5, h6⟩ := hp
  refine ⟨{ reqJoe with user := { reqJoe.user with
    username := List.replicate n 97, password := List.replicate m 97, email := gs! "a@b", fullName := [], roles := [] } }, ?_⟩
  intro nd fs hs hid hw
  rw [C68_add_user h]
  refine ⟨⟨?_, ?_⟩, ?_, ?_, ?_, by simp, .inl blank_nil, by simp [hu], by simp [hu], hs, hid, hw⟩
  · simp [UsernameAllowed, h2, h3]
  · simp [PasswordAllowed, h5, h6]
  · intro hc; simp at hc; omega
  · rintro ⟨ps, hps, hf⟩
    obtain ⟨k, rfl⟩ : ∃ k, m = k + 1 := ⟨m - 1, by omega⟩
    cases ps with
    | nil => simp [List.replicate_succ] at hf
    | cons q qs =>
      have hq := hps q (by simp)
      have hh : q.head? = some 97 := by
        cases q with
        | nil => exact absurd hq (by decide)
        | cons x q => simp [List.replicate_succ] at hf; simp [hf.1]
      have hall : ∀ q ∈ spaceRunes, q.head? ≠ some 97 := by decide
      exact hall q hq hh
  · rw [← C39_accepts_iff_matches]
    exact ⟨_, rfl⟩

/-- C88: missing limits are filled one by one, so a file that only asks for longer passwords than the default maximum, or
only limits them below the default minimum, makes the policy one that nobody can satisfy; and likewise for usernames. -/
theorem C88_half_given (p : Policy)
    (h : p.password.maxLength = 0 ∧ p.password.minLength > 128 ∨ p.password.minLength = 0 ∧ 0 < p.password.maxLength ∧ p.password.maxLength < 8 ∨
      p.user.maxLength = 0 ∧ p.user.minLength > 50 ∨ p.user.minLength = 0 ∧ 0 < p.user.maxLength ∧ p.user.maxLength < 3) :
    ¬ (enforceDefaultPolicy p).1.Feasible := by
  rw [C88_feasible_iff, C40_defaults]
  dsimp only
  split <;> split <;> split <;> split <;> simp at * <;> omega

/-- Such a document is opened without complaint. -/
example : (match newDatabase nd (fun _ => some (.file
      (gs! "{\"revision\": 7, \"policy\": {\"password\": {\"min_length\": 200}}}"))) path with
    | (.ok db, _) => db.policy.password.minLength == 200 && db.policy.password.maxLength == 128
    | _ => false) = true := by
  decide +kernel

example : defaultPolicy.Feasible := by rw [C88_feasible_iff]; decide

end GoIdentity
