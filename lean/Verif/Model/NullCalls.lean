import Verif.Model.Nulls
/-!
# Users with nil pointers in later calls

What the methods of a user do with the nil pointers that `NewDatabase` does not look at: those among tokens, public keys and roles.
-/
namespace GoIdentity
variable [Ext]

/-- A loop over a list of pointers that reads a field of each. -/
def eachPtr {α β : Type} (f : β → α → β) : List (Option α) → β → Res β
  | [], b => .ok b
  | none :: _, _ => .panic
  | some a :: l, b => eachPtr f l (f b a)

/-- A loop over a list of pointers that reads a field of each and returns at the first that fits. -/
def seekPtr {α β : Type} (f : α → Option β) : List (Option α) → Res (Option β)
  | [] => .ok none
  | none :: _ => .panic
  | some a :: l =>
    match f a with
    | some b => .ok (some b)
    | none => seekPtr f l

namespace NullUser

/-- The body of the loop of `GetFlags` (user.go:496-508). -/
def flagsStep (f : ReqFlags) (t : MfaToken) : ReqFlags :=
  if t.disabled then f
  else if t.type = gs! "totp" then { f with mfaConfigured := true, mfaApp := true }
  else if t.type = gs! "u2f" then { f with mfaConfigured := true, mfaUniversal := true }
  else { f with mfaConfigured := true }

/-- `GetFlags` (user.go:495-509). -/
def flags (u : NullUser) (f : ReqFlags) : Res ReqFlags := eachPtr flagsStep u.mfaTokens f

/-- `GetRolesClaim` (user.go:337-346). -/
def rolesClaim (u : NullUser) : Res (List GoString) := eachPtr (fun l r => l ++ [Role.toStr r]) u.roles []

/-- `GetMailClaim` (user.go:313-323) on addresses without a null: `NewDatabase` has looked at each. -/
def mailClaim (u : NullUser) : GoString := User.mailClaim { u.rest with emailAddresses := u.emailAddresses.filterMap id }

/-- `GetChallenges` (user.go:546-553). -/
def challenges (u : NullUser) : List GoString := [gs! "password"] ++ (if u.mfaTokens.length > 0 then [gs! "mfa"] else [])

/-- `IdentifyUser` once the user is found (database.go:650-661): the request it leaves. -/
def identify (u : NullUser) (req : Request) : Res Request :=
  match (if req.flags.enabled then u.flags req.flags else .ok req.flags) with
  | .err e => .err e
  | .panic => .panic
  | .ok fl =>
    match u.rolesClaim with
    | .err e => .err e
    | .panic => .panic
    | .ok roles =>
      .ok (Database.setCode { req with flags := fl, user := { req.user with
        username := u.rest.username, email := u.mailClaim, fullName := u.rest.nameClaim, roles := roles, challenges := u.challenges } } 200)

/-- `HasRole` (user.go:214-229). -/
def hasRole (s : GoString) (u : NullUser) : Res Bool :=
  if u.roles.length = 0 then .ok false
  else
    match newRole s with
    | .ok role =>
      match seekPtr (fun r : Role => if r.name = role.name ∧ r.organization = role.organization then some () else none) u.roles with
      | .ok x => .ok x.isSome
      | .err e => .err e
      | .panic => .panic
    | _ => .ok false

/-- `AddRole` (user.go:242-260). -/
def addRole (now : Clock) (s : GoString) (u : NullUser) : Res NullUser :=
  match newRole s with
  | .err e => .err e
  | .panic => .panic
  | .ok role =>
    if u.roles.length = 0 then .ok { u with roles := u.roles ++ [some role], rest := User.revise now u.rest }
    else
      match seekPtr (fun r : Role => if r.name = role.name ∧ r.organization = role.organization then some () else none) u.roles with
      | .err e => .err e
      | .panic => .panic
      | .ok (some _) => .ok u
      | .ok none => .ok { u with roles := u.roles ++ [some role], rest := User.revise now u.rest }

/-- The bundle of `GetMfaTokens` (database.go:713-719). -/
def tokenBundle (u : NullUser) : Res (Bundle MfaToken) := eachPtr (fun b k => if k.disabled then b else b.add k) u.mfaTokens Bundle.new

/-- The bundle of `GetPublicKeys` (database.go:508-517). -/
def keyBundle (usage : GoString) (u : NullUser) : Res (Bundle PublicKey) :=
  eachPtr (fun b k => if k.usage ≠ usage then b else if k.disabled then b else b.add k) u.publicKeys Bundle.new

/-- The loop of `DeleteMfaToken` (user.go:477-485): whether a token was found, and the others. -/
def withoutToken (id : GoString) (u : NullUser) : Res (Bool × List MfaToken) :=
  eachPtr (fun b k => if k.id = id then (true, b.2) else (b.1, b.2 ++ [k])) u.mfaTokens (false, [])

/-- The loop of `DeletePublicKey` (user.go:395-403). -/
def withoutKey (id : GoString) (u : NullUser) : Res (Bool × List PublicKey) :=
  eachPtr (fun b k => if k.id = id then (true, b.2) else (b.1, b.2 ++ [k])) u.publicKeys (false, [])

/-- The duplicate check of `AddMfaToken` (user.go:462-469). -/
def tokenDup (t : MfaToken) (u : NullUser) : Res (Option GoErr) :=
  seekPtr (fun k : MfaToken =>
    if k.secret = t.secret then some (.withE .addMfaToken [] (.std .duplicateMfaTokenSecret))
    else if k.comment = t.comment then some (.withE .addMfaToken [] (.std .duplicateMfaTokenComment)) else none) u.mfaTokens

/-- The duplicate check of `AddPublicKey` (user.go:379-387). -/
def keyDup (key : PublicKey) (usage : GoString) (u : NullUser) : Res (Option GoErr) :=
  seekPtr (fun k : PublicKey =>
    if k.type ≠ key.type then none else if k.fingerprint ≠ key.fingerprint then none
    else some (.withV .addPublicKey [usage, gs! "already exists"] [])) u.publicKeys

/-- The token loop of `VerifyWebAuthnRequest` (user.go:284-309). -/
def verifyTokens (w : ReqWebAuthn) (reqID : GoString) : List (Option MfaToken) → Res Unit
  | [] => .err (.std .webAuthnVerifyRequest)
  | none :: _ => .panic
  | some t :: ts =>
    if t.disabled then verifyTokens w reqID ts
    else if t.type ≠ gs! "u2f" then verifyTokens w reqID ts
    else
      match mapGet (gs! "u2f_id") t.parameters with
      | none => verifyTokens w reqID ts
      | some id =>
        if reqID ≠ id then verifyTokens w reqID ts
        else
          match webAuthnRequest t w.request with
          | .err _ => .err (.std .webAuthnVerifyRequest)
          | .panic => .panic
          | .ok resp =>
            match resp.clientData with
            | none => .panic
            | some cd => if cd.challenge ≠ w.challenge then .err (.std .webAuthnVerifyRequest) else .ok ()

/-- `VerifyWebAuthnRequest` (user.go:279-310). -/
def verifyWebAuthnRequest (w : ReqWebAuthn) (u : NullUser) : Res Unit :=
  match unpackWebAuthnRequest w.request with
  | .err e => .err e
  | .panic => .panic
  | .ok req => verifyTokens w req.id u.mfaTokens

end NullUser
end GoIdentity
