import Verif.Model.Bcrypt
/-!
# Roles, names, email addresses, passwords, API keys, random strings
-/
namespace GoIdentity
variable [Ext]

/-! ## role.go -/

/-- `NewRole` (role.go:29-43). -/
def newRole (s0 : GoString) : Res Role :=
  let s := trimSpace s0
  if s = [] then .err (.std .roleEmpty)
  else
    match splitByte 47 s with
    | [] => .panic -- unreachable: strings.Split never returns an empty slice here
    | [_] => .ok ⟨s, []⟩
    | p :: ps => .ok ⟨joinWith [47] ps, p⟩

/-- `Role.String` (role.go:46-51). -/
def Role.toStr (r : Role) : GoString :=
  if r.organization = [] then r.name else r.organization ++ [47] ++ r.name

/-! ## name.go -/

/-- The zero `Name` (name.go:36-38, 64). -/
def Name.zero : Name := ⟨[], [], [], [], false, false, false, false, false⟩

/-- `Name.GetFullName` (name.go:51-60); `GetNameClaim` (41-43) and `ToString` (46-48) are the same function. -/
def Name.fullName (n : Name) : GoString :=
  (if n.last ≠ [] then n.last else []) ++ (if n.first ≠ [] then gs! ", " ++ n.first else [])

/-- `ParseName` (name.go:63-84).  The loop over the two separators is unrolled. -/
def parseName (s : GoString) : Res Name :=
  let bySpace : Res Name :=
    if containsByte 32 s then
      match splitByte 32 s with
      | [a0, a1] => .ok { Name.zero with last := trimSpace a1, first := trimSpace a0 }
      | _ => .err (.withV .parseNameFailed [s] [])
    else .err (.withV .parseNameFailed [s] [])
  if containsByte 44 s then
    match splitByte 44 s with
    | [a0, a1] => .ok { Name.zero with last := trimSpace a0, first := trimSpace a1 }
    | _ => bySpace
  else bySpace

/-! ## email.go -/

/-- The character class `[a-zA-Z0-9.!#$%&'*+/=?^_`{|}~-]` of email.go:27. -/
def isAtext (b : UInt8) : Bool := isAlnum b || (gs! ".!#$%&'*+/=?^_`{|}~-").contains b

/-- The character class `[a-zA-Z0-9-]` of email.go:28-29. -/
def isLabelChar (b : UInt8) : Bool := isAlnum b || b == 45

/-- One label `[a-zA-Z0-9](?:[a-zA-Z0-9-]{0,61}[a-zA-Z0-9])?` of email.go:27-29. -/
def isLabel (s : GoString) : Bool :=
  decide (1 ≤ s.length ∧ s.length ≤ 63) && s.all isLabelChar &&
    (match s.head? with | some b => isAlnum b | none => false) &&
    (match s.getLast? with | some b => isAlnum b | none => false)

/-- `emailRegex.MatchString` (email.go:26-30, 43) as an executable matcher: local part up to the first `@`, then labels
separated by dots.  `Verif.Props.Patterns` (C39) proves it equal to the regular expression's language. -/
def emailMatch (s : GoString) : Bool :=
  let loc := s.takeWhile (· != 64)
  match s.dropWhile (· != 64) with
  | [] => false
  | _ :: dom => !loc.isEmpty && loc.all isAtext && (splitByte 46 dom).all isLabel

/-- `NewEmailAddress` (email.go:42-52).  `parts[1]` would panic without an `@`; the regex excludes that. -/
def newEmailAddress (s : GoString) : Res EmailAddress :=
  if !emailMatch s then .err (.std .emailAddressInvalid)
  else
    match splitByte 64 s with
    | _ :: d :: _ => .ok { address := s, confirmed := false, domain := d, isPrimary := false }
    | _ => .panic

/-- `EmailAddress.Primary` (email.go:55-60). -/
def EmailAddress.primary (m : EmailAddress) : Bool := m.isPrimary

/-- `EmailAddress.ToString` (email.go:63-65). -/
def EmailAddress.toStr (m : EmailAddress) : GoString := m.address

/-! ## random.go, uuid.go -/

/-- random.go:22-23 -/
def charset : GoString := gs! "abcdefghijklmnopqrstuvwxyzABCDEFGHIJKLMNOPQRSTUVWXYZ0123456789"

/-- `gen` (random.go:29-35): `Intn(n)` is a draw reduced modulo n.  `start` is the number of draws already used. -/
def gen (draw : Nat → Nat) (start length : Nat) (cs : GoString) : GoString :=
  (List.range length).map fun i => cs.getD (draw (start + i) % cs.length) 0

/-- `GetRandomString` (random.go:38-43). -/
def getRandomString (draw : Nat → Nat) (start : Nat) (i : Int) : GoString :=
  gen draw start (if i < 1 then 40 else i.toNat) charset

/-- `GetRandomStringFromRange` (random.go:47-55); `rand.Intn(0)` panics. -/
def getRandomStringFromRange (globalDraw draw : Nat → Nat) (a b : Nat) : Res GoString :=
  if b < a then .ok (gen draw 0 (globalDraw 0 % (a - b) + b) charset)
  else if a = b then .panic
  else .ok (gen draw 0 (globalDraw 0 % (b - a) + a) charset)

/-- `NewRandomString` (uuid.go:29-39). -/
def newRandomString (draw : Nat → Nat) (length : Int) : GoString :=
  let cs := gs! "abcdefghijklmnopqrstuvwxyz0123456789"
  gen draw 0 (if length = 0 then 32 else length.toNat) cs

/-! ## password.go -/

/-- `NewPasswordWithOptions` with `hash` inlined (password.go:45-62, 72-92); `cost` is `params["cost"]` or 0 when absent. -/
def newPasswordWithOptions (now : Clock) (salt : Option GoString) (s purpose algo : GoString) (cost : Int) :
    Res Password :=
  let s := trimSpace s
  if s = [] then .err (.std .passwordEmpty)
  else if algo = gs! "bcrypt" then
    let cost := if cost < 8 then 10 else cost
    match bcryptGenerate s cost salt with
    | .ok h =>
      .ok { purpose := purpose, algorithm := algo, hash := h, cost := cost, expired := false,
            expiredAt := .zero, createdAt := now 0, disabled := false, disabledAt := .zero }
    | .err e => .err (.withE .passwordGenerate [] e)
    | .panic => .panic
  else if algo = [] then .err (.std .passwordEmptyAlgorithm)
  else .err (.withV .passwordUnsupportedAlgorithm [algo] [])

/-- `NewPasswordWithOptions` with its map of parameters (password.go:52-56), nil or a list of entries, each an `int` or a value
of another type, for which the type assertion panics. -/
def newPasswordParams (now : Clock) (salt : Option GoString) (s purpose algo : GoString)
    (params : Option (List (GoString × Option Int))) : Res Password :=
  match params with
  | none => newPasswordWithOptions now salt s purpose algo 0
  | some m =>
    match m.lookup (gs! "cost") with
    | none => newPasswordWithOptions now salt s purpose algo 0
    | some (some c) => newPasswordWithOptions now salt s purpose algo c
    | some none => .panic

/-- `NewPassword` (password.go:39-41). -/
def newPassword (now : Clock) (salt : Option GoString) (s : GoString) : Res Password :=
  newPasswordWithOptions now salt s (gs! "generic") (gs! "bcrypt") 0

/-- `Password.Disable` (password.go:65-70). -/
def Password.disable (now : Clock) (p : Password) : Password :=
  { p with expired := true, expiredAt := now 0, disabled := true, disabledAt := now 1 }

/-- `Password.Match` (password.go:95-100). -/
def Password.accepts (p : Password) (s : GoString) : Bool := bcryptMatch p.hash s

/-! ## api_key.go -/

/-- `NewAPIKey` (api_key.go:68-94); `id` is `GetRandomString(40)`. -/
def newAPIKey (now : Clock) (id : GoString) (k : ReqKey) : Res APIKey :=
  if k.payload = [] then .err (.std .apiKeyPayloadEmpty)
  else if k.usage = [] then .err (.std .apiKeyUsageEmpty)
  else if k.usage ≠ gs! "api" then .err (.withV .apiKeyUsageUnsupported [k.usage] [])
  else if k.comment = [] then .err (.std .apiKeyCommentEmpty)
  else .ok { id := id, pfx := k.pfx, usage := k.usage, comment := k.comment, payload := k.payload,
             expired := false, expiredAt := .zero, createdAt := now 0, disabled := k.disabled,
             disabledAt := if k.disabled then now 1 else .zero }

/-- `APIKey.Disable` (api_key.go:97-102).  It has no caller. -/
def APIKey.disable (now : Clock) (p : APIKey) : APIKey :=
  { p with expired := true, expiredAt := now 0, disabled := true, disabledAt := now 1 }

/-- `APIKey.Match` (api_key.go:105-110). -/
def APIKey.accepts (p : APIKey) (s : GoString) : Bool := bcryptMatch p.payload s

end GoIdentity
