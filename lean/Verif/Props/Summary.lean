import Verif.Lemmas.Summary
import Verif.Model.Policy
/-!
# The published summaries of the policies: C105
-/
namespace GoIdentity

/-- The end of the sentence about usernames, by `AllowUppercase` and `AllowNonAlphaNumeric`. -/
def usernameEnding : Bool → Bool → GoString
  | true, true => []
  | false, true => gs! " with lowercase characters"
  | true, false => gs! " with alpha-numeric characters"
  | false, false => gs! " with lowercase, alpha-numeric characters"

/-- The end of the sentence about passwords, by `RequireUppercase`, `RequireLowercase`, `RequireNumber` and
`RequireNonAlphaNumeric`. -/
def passwordEnding : Bool → Bool → Bool → Bool → GoString
  | false, false, false, false => []
  | false, false, false, true => gs! " with non alpha-numeric characters"
  | false, false, true, false => gs! " with numbers characters"
  | false, false, true, true => gs! " with numbers, non alpha-numeric characters"
  | false, true, false, false => gs! " with lowercase characters"
  | false, true, false, true => gs! " with lowercase, non alpha-numeric characters"
  | false, true, true, false => gs! " with lowercase, numbers characters"
  | false, true, true, true => gs! " with lowercase, numbers, non alpha-numeric characters"
  | true, false, false, false => gs! " with uppercase characters"
  | true, false, false, true => gs! " with uppercase, non alpha-numeric characters"
  | true, false, true, false => gs! " with uppercase, numbers characters"
  | true, false, true, true => gs! " with uppercase, numbers, non alpha-numeric characters"
  | true, true, false, false => gs! " with uppercase, lowercase characters"
  | true, true, false, true => gs! " with uppercase, lowercase, non alpha-numeric characters"
  | true, true, true, false => gs! " with uppercase, lowercase, numbers characters"
  | true, true, true, true => gs! " with uppercase, lowercase, numbers, non alpha-numeric characters"

/-- C105: the sentence about usernames, word by word. -/
theorem C105_username_text (p : Policy) : ∃ a b : GoString, SpellsInt a p.user.minLength ∧ SpellsInt b p.user.maxLength ∧
    usernamePolicySummary p = gs! "A username should be " ++ a ++ gs! "-" ++ b ++ gs! " character long string" ++
      usernameEnding p.user.allowUppercase p.user.allowNonAlphaNumeric := by
  refine ⟨_, _, spellsInt_intDec _, spellsInt_intDec _, ?_⟩
  unfold usernamePolicySummary
  generalize intDec p.user.minLength = a
  generalize intDec p.user.maxLength = b
  cases p.user.allowUppercase <;> cases p.user.allowNonAlphaNumeric <;> rfl

/-- C105: the sentence about passwords, word by word. -/
theorem C105_password_text (p : Policy) :
    ∃ a b : GoString, SpellsInt a p.password.minLength ∧ SpellsInt b p.password.maxLength ∧
    passwordPolicySummary p = gs! "A password should be " ++ a ++ gs! "-" ++ b ++ gs! " character long string" ++
      passwordEnding p.password.requireUppercase p.password.requireLowercase p.password.requireNumber
        p.password.requireNonAlphaNumeric := by
  refine ⟨_, _, spellsInt_intDec _, spellsInt_intDec _, ?_⟩
  unfold passwordPolicySummary
  generalize intDec p.password.minLength = a
  generalize intDec p.password.maxLength = b
  cases p.password.requireUppercase <;> cases p.password.requireLowercase <;> cases p.password.requireNumber <;>
    cases p.password.requireNonAlphaNumeric <;> rfl

/-- C105: the sentence about usernames tells the user policy: two policies have the same sentence exactly if they
have the same lengths and flags. -/
theorem C105_username_tells (p q : Policy) : usernamePolicySummary p = usernamePolicySummary q ↔ p.user = q.user := by
  obtain ⟨a, b, ha, hb, hp⟩ := C105_username_text p
  obtain ⟨a', b', ha', hb', hq⟩ := C105_username_text q
  constructor
  · intro h
    rw [hp, hq] at h
    obtain ⟨h1, h2, h3⟩ := sentence_split ha hb ha' hb' h
    have key : ∀ x y x' y', usernameEnding x y = usernameEnding x' y' → x = x' ∧ y = y' := by decide +kernel
    obtain ⟨h4, h5⟩ := key _ _ _ _ h3
    cases hpu : p.user; cases hqu : q.user
    rw [hpu, hqu] at h1 h2 h4 h5
    simp only at h1 h2 h4 h5
    subst h1 h2 h4 h5; rfl
  · intro h; unfold usernamePolicySummary; rw [h]

/-- C105: the sentence about passwords tells the lengths and the four required classes, and nothing else of the
policy (`KeepVersions`, `BlockReuse` and `BlockPasswordChange` are not mentioned). -/
theorem C105_password_tells (p q : Policy) : passwordPolicySummary p = passwordPolicySummary q ↔
    p.password.minLength = q.password.minLength ∧ p.password.maxLength = q.password.maxLength ∧
    p.password.requireUppercase = q.password.requireUppercase ∧
    p.password.requireLowercase = q.password.requireLowercase ∧
    p.password.requireNumber = q.password.requireNumber ∧
    p.password.requireNonAlphaNumeric = q.password.requireNonAlphaNumeric := by
  obtain ⟨a, b, ha, hb, hp⟩ := C105_password_text p
  obtain ⟨a', b', ha', hb', hq⟩ := C105_password_text q
  constructor
  · intro h
    rw [hp, hq] at h
    obtain ⟨h1, h2, h3⟩ := sentence_split ha hb ha' hb' h
    have key : ∀ x y z w x' y' z' w', passwordEnding x y z w = passwordEnding x' y' z' w' →
        x = x' ∧ y = y' ∧ z = z' ∧ w = w' := by decide +kernel
    exact ⟨h1, h2, key _ _ _ _ _ _ _ _ h3⟩
  · rintro ⟨h1, h2, h3, h4, h5, h6⟩; unfold passwordPolicySummary; rw [h1, h2, h3, h4, h5, h6]

/-- C105: of what the sentences tell only the lengths are enforced: a name and a password of any bytes pass the
check exactly if their numbers of bytes lie between the numbers told. -/
theorem C105_only_lengths_enforced (p : Policy) (name pw : GoString) : checkPolicy p name pw = none ↔
    (p.user.minLength ≤ name.length ∧ (name.length : Int) ≤ p.user.maxLength) ∧
    p.password.minLength ≤ pw.length ∧ (pw.length : Int) ≤ p.password.maxLength := by
  unfold checkPolicy checkUserPolicy checkPasswordPolicy
  split
  · rename_i h; split at h
    · simp only [reduceCtorEq, false_iff]; omega
    · simp at h
  · rename_i h; split at h
    · simp at h
    · split
      · simp only [reduceCtorEq, false_iff]; omega
      · simp only [true_iff]; omega

/-- C105 (finding): the default policy announces lowercase alpha-numeric names and accepts `J! `. -/
theorem C105_announced_not_enforced :
    usernamePolicySummary defaultPolicy =
      gs! "A username should be 3-50 character long string with lowercase, alpha-numeric characters" ∧
    checkUserPolicy defaultPolicy (gs! "J! ") = none := by decide +kernel

-- A policy with all flags set, and one with negative lengths.
example : passwordPolicySummary { defaultPolicy with password := { defaultPolicy.password with
      requireUppercase := true, requireLowercase := true, requireNumber := true, requireNonAlphaNumeric := true } } =
    gs! "A password should be 8-128 character long string with uppercase, lowercase, numbers, non alpha-numeric characters" := by
  decide +kernel
example : usernamePolicySummary { defaultPolicy with user := { defaultPolicy.user with
      minLength := -5, maxLength := -3, allowUppercase := true } } =
    gs! "A username should be -5--3 character long string with alpha-numeric characters" := by
  decide +kernel
example : SpellsInt (gs! "-5") (-5) ∧ ¬ SpellsInt (gs! "5") (-5) := by
  refine ⟨⟨gs! "5", by decide, by decide, .inr ⟨by decide, rfl, by decide⟩⟩, ?_⟩
  rintro ⟨ds, _, hd, ⟨h, _⟩ | ⟨_, h, _⟩⟩
  · exact absurd h (by decide)
  · exact absurd (List.cons.inj h).1 (by decide)
-- The sentence about passwords does not tell how many versions are kept.
example : passwordPolicySummary { defaultPolicy with password := { defaultPolicy.password with keepVersions := 1 } } =
    passwordPolicySummary defaultPolicy := by decide +kernel
example : usernamePolicySummary { defaultPolicy with user := { defaultPolicy.user with maxLength := 51 } } ≠
    usernamePolicySummary defaultPolicy := by decide +kernel

end GoIdentity
