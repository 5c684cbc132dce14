import Verif.Model.Types
/-!
# Policies (database.go)
-/
namespace GoIdentity

/-- `defaultPolicy` (database.go:39-57). -/
def defaultPolicy : Policy :=
  { user := { minLength := 3, maxLength := 50, allowNonAlphaNumeric := false, allowUppercase := false }
    password :=
      { keepVersions := 10, minLength := 8, maxLength := 128, requireUppercase := false, requireLowercase := false,
        requireNumber := false, requireNonAlphaNumeric := false, blockReuse := false, blockPasswordChange := false } }

/-- `if x == 0 { x = d; changes++ }` (database.go:195-214): the new value and the number of changes. -/
def fillDefault (x d : Int) : Int × Nat := if x = 0 then (d, 1) else (x, 0)

/-- `enforceDefaultPolicy` (database.go:193-219): the new policy and whether it changed. -/
def enforceDefaultPolicy (p : Policy) : Policy × Bool :=
  let a := fillDefault p.password.minLength defaultPolicy.password.minLength
  let b := fillDefault p.password.maxLength defaultPolicy.password.maxLength
  let c := fillDefault p.password.keepVersions defaultPolicy.password.keepVersions
  let d := fillDefault p.user.minLength defaultPolicy.user.minLength
  let e := fillDefault p.user.maxLength defaultPolicy.user.maxLength
  let changes := a.2 + b.2 + c.2 + d.2 + e.2
  ({ p with
      password := { p.password with minLength := a.1, maxLength := b.1, keepVersions := c.1 }
      user := { p.user with minLength := d.1, maxLength := e.1 } },
    decide (changes > 0))

/-- `checkUserPolicyCompliance` (database.go:231-236). -/
def checkUserPolicy (p : Policy) (s : GoString) : Option GoErr :=
  if (s.length : Int) > p.user.maxLength ∨ (s.length : Int) < p.user.minLength then
    some (.std .userPolicyCompliance)
  else none

/-- `checkPasswordPolicyCompliance` (database.go:238-243). -/
def checkPasswordPolicy (p : Policy) (s : GoString) : Option GoErr :=
  if (s.length : Int) > p.password.maxLength ∨ (s.length : Int) < p.password.minLength then
    some (.std .passwordPolicyCompliance)
  else none

/-- `checkPolicyCompliance` (database.go:221-229). -/
def checkPolicy (p : Policy) (username password : GoString) : Option GoErr :=
  match checkUserPolicy p username with
  | some e => some e
  | none => checkPasswordPolicy p password

/-- `GetUsernamePolicySummary` (database.go:742-757). -/
def usernamePolicySummary (p : Policy) : GoString :=
  let restrictions :=
    (if !p.user.allowUppercase then [gs! "lowercase"] else []) ++
    (if !p.user.allowNonAlphaNumeric then [gs! "alpha-numeric"] else [])
  gs! "A username should be" ++ gs! " " ++ intDec p.user.minLength ++ gs! "-" ++ intDec p.user.maxLength ++
    gs! " character long string" ++
    (if restrictions.length > 0 then gs! " with " ++ joinWith (gs! ", ") restrictions ++ gs! " characters" else [])

/-- The first-character class of `GetUsernamePolicyRegex` (database.go:762-768). -/
def usernameStartChars (p : Policy) : GoString := if !p.user.allowUppercase then gs! "a-z" else gs! "a-zA-Z"

/-- The remaining-characters class of `GetUsernamePolicyRegex` (database.go:762-771). -/
def usernameAllowedChars (p : Policy) : GoString :=
  (if !p.user.allowUppercase then gs! "a-z0-9" else gs! "a-zA-Z0-9") ++
  (if p.user.allowNonAlphaNumeric then gs! "-_." else [])

/-- `GetUsernamePolicyRegex` (database.go:760-773). -/
def usernamePolicyRegex (p : Policy) : GoString :=
  gs! "^[" ++ usernameStartChars p ++ gs! "][" ++ usernameAllowedChars p ++ gs! "]{" ++
    intDec (p.user.minLength - 1) ++ gs! "," ++ intDec (p.user.maxLength - 1) ++ gs! "}$"

/-- `GetPasswordPolicySummary` (database.go:776-798). -/
def passwordPolicySummary (p : Policy) : GoString :=
  let restrictions :=
    (if p.password.requireUppercase then [gs! "uppercase"] else []) ++
    (if p.password.requireLowercase then [gs! "lowercase"] else []) ++
    (if p.password.requireNumber then [gs! "numbers"] else []) ++
    (if p.password.requireNonAlphaNumeric then [gs! "non alpha-numeric"] else [])
  gs! "A password should be" ++ gs! " " ++ intDec p.password.minLength ++ gs! "-" ++ intDec p.password.maxLength ++
    gs! " character long string" ++
    (if restrictions.length > 0 then gs! " with " ++ joinWith (gs! ", ") restrictions ++ gs! " characters" else [])

/-- `GetPasswordPolicyRegex` (database.go:801-818). -/
def passwordPolicyRegex (p : Policy) : GoString :=
  let allowed :=
    (if p.password.requireUppercase then gs! "(?=.*[A-Z])" else []) ++
    (if p.password.requireLowercase then gs! "(?=.*[a-z].*[a-z])" else []) ++
    (if p.password.requireNumber then gs! "(?=.*[0-9].*[0-9])" else []) ++
    (if p.password.requireNonAlphaNumeric then gs! "(?=.*[~!@#$&*])" else [])
  gs! "^" ++ allowed ++ gs! ".{" ++ intDec p.password.minLength ++ gs! "," ++ intDec p.password.maxLength ++ gs! "}$"

end GoIdentity
