import Verif.Model.Mfa
import Verif.Model.PublicKeys
/-!
# user.go
-/
namespace GoIdentity
variable [Ext]

namespace User

/-- `n++` for an `int` of 64 bits (user.go:557), which wraps around. -/
def incr64 (n : Int) : Int := if n = 2 ^ 63 - 1 then -2 ^ 63 else n + 1

/-- `Revise` (user.go:556-559). -/
def revise (now : Clock) (u : User) : User := { u with revision := incr64 u.revision, lastModified := now 0 }

/-- `NewUser` (user.go:94-102). -/
def new (now : Clock) (id username : GoString) : User :=
  { User.zero with id := id, username := username, created := now 0, lastModified := now 1 }

/-- The retention loop of `AddPassword` (user.go:160-168). -/
def keepLoop (now : Clock) (keep : Int) : Nat → List Password → List Password
  | _, [] => []
  | i, p :: ps =>
    (if p.disabled then p else p.disable (now.skip (2 * i))) :: (if (i : Int) > keep then [] else keepLoop now keep (i + 1) ps)

/-- `AddPassword` (user.go:149-173). -/
def addPassword (now : Clock) (salt : Option GoString) (s : GoString) (keepVersions : Int) (u : User) : Res User :=
  match newPassword now salt s with
  | .err e => .err e
  | .panic => .panic
  | .ok p =>
    let keep := if keepVersions < 1 then 9 else keepVersions
    .ok (revise (now.skip (1 + 2 * u.passwords.length)) { u with passwords := p :: keepLoop (now.skip 1) keep 0 u.passwords })

/-- `AddEmailAddress` (user.go:176-195). -/
def addEmailAddress (now : Clock) (s : GoString) (u : User) : Res User :=
  match newEmailAddress s with
  | .err e => .err e
  | .panic => .panic
  | .ok email =>
    if u.emailAddresses.length = 0 then
      .ok (revise now { u with emailAddress := some email, emailAddresses := u.emailAddresses ++ [email] })
    else if u.emailAddresses.any (fun e => email.address == e.address) then .ok u
    else .ok (revise now { u with emailAddresses := u.emailAddresses ++ [email] })

/-- `HasEmailAddresses` (user.go:198-203). -/
def hasEmailAddresses (u : User) : Bool := !(u.emailAddresses.length == 0)

/-- `HasRoles` (user.go:206-211). -/
def hasRoles (u : User) : Bool := !(u.roles.length == 0)

/-- `HasRole` (user.go:214-229). -/
def hasRole (s : GoString) (u : User) : Bool :=
  if u.roles.length = 0 then false
  else
    match newRole s with
    | .ok role => u.roles.any fun r => r.name == role.name && r.organization == role.organization
    | _ => false

/-- `AddRole` (user.go:242-260). -/
def addRole (now : Clock) (s : GoString) (u : User) : Res User :=
  match newRole s with
  | .err e => .err e
  | .panic => .panic
  | .ok role =>
    if u.roles.length = 0 then .ok (revise now { u with roles := u.roles ++ [role] })
    else if u.roles.any (fun r => r.name == role.name && r.organization == role.organization) then .ok u
    else .ok (revise now { u with roles := u.roles ++ [role] })

/-- `AddRoles` (user.go:232-239).  On an error Go leaves the roles before it added; the only caller discards the user. -/
def addRoles (now : Clock) : List GoString → User → Res User
  | [], u => .ok u
  | s :: ss, u =>
    match addRole now s u with
    | .err e => .err e
    | .panic => .panic
    | .ok u' => addRoles (now.skip 1) ss u'

/-- `AddName` (user.go:357-371). -/
def addName (now : Clock) (n : Name) (u : User) : User :=
  if u.names.length = 0 then { u with name := some n, names := u.names ++ [n] }
  else if u.names.any (fun m => n.fullName == m.fullName) then u
  else revise now { u with names := u.names ++ [n] }

/-- `Valid` (user.go:135-146). -/
def valid (u : User) : Res Unit :=
  if u.id.length ≠ 36 then .err (.withV .userIDInvalidLength [] [u.id.length])
  else if u.username = [] then .err (.std .usernameEmpty)
  else if u.passwords.length < 1 then .err (.std .userPasswordNotFound)
  else .ok ()

/-- The full name step of `NewUserWithRoles` (user.go:116-126). -/
def addFullName (now : Clock) (fullName : GoString) (u : User) : Res User :=
  let fn := trimSpace fullName
  if fn = [] then .ok u
  else
    match parseName fn with
    | .err e => .err e
    | .panic => .panic
    | .ok n => .ok (addName now n u)

/-- `NewUserWithRoles` (user.go:105-132). -/
def newWithRoles (nd : Nondet) (username password email fullName : GoString) (roles : List GoString) : Res User :=
  match addPassword (nd.now.skip 2) (nd.salts 0) password 0 (new nd.now nd.userID username) with
  | .err e => .err e
  | .panic => .panic
  | .ok u =>
    match addEmailAddress (nd.now.skip 4) email u with
    | .err e => .err e
    | .panic => .panic
    | .ok u =>
      match addRoles (nd.now.skip 5) roles u with
      | .err e => .err e
      | .panic => .panic
      | .ok u =>
        match addFullName (nd.now.skip (5 + roles.length)) fullName u with
        | .err e => .err e
        | .panic => .panic
        | .ok u =>
          match valid u with
          | .err e => .err e
          | .panic => .panic
          | .ok _ => .ok { u with revision := 0 }

/-- The password loop of `VerifyPassword` (user.go:267-275). -/
def matchAny (s : GoString) : List Password → Bool
  | [] => false
  | p :: ps =>
    if p.disabled || p.expired then matchAny s ps
    else if p.accepts s then true
    else matchAny s ps

/-- `VerifyPassword` (user.go:263-276); `none` is success. -/
def verifyPassword (s : GoString) (u : User) : Option GoErr :=
  if u.passwords.length = 0 then some (.std .userPasswordNotFound)
  else if matchAny s u.passwords then none
  else some (.std .userPasswordInvalid)

/-- The token loop of `VerifyWebAuthnRequest` (user.go:284-309). -/
def verifyTokens (w : ReqWebAuthn) (reqID : GoString) : List MfaToken → Res Unit
  | [] => .err (.std .webAuthnVerifyRequest)
  | t :: ts =>
    if t.disabled then verifyTokens w reqID ts
    else if t.type ≠ gs! "u2f" then verifyTokens w reqID ts
    else
      match mapGet (gs! "u2f_id") t.parameters with
      | none => verifyTokens w reqID ts
      | some id =>
        if reqID ≠ id then verifyTokens w reqID ts
        else
          match webAuthnRequest t w.request with
          | .err _ => .err (.std .webAuthnVerifyRequest)
          | .panic => .panic
          | .ok resp =>
            match resp.clientData with
            | none => .panic
            | some cd => if cd.challenge ≠ w.challenge then .err (.std .webAuthnVerifyRequest) else .ok ()

/-- `VerifyWebAuthnRequest` (user.go:279-310). -/
def verifyWebAuthnRequest (w : ReqWebAuthn) (u : User) : Res Unit :=
  match unpackWebAuthnRequest w.request with
  | .err e => .err e
  | .panic => .panic
  | .ok req => verifyTokens w req.id u.mfaTokens

/-- `GetMailClaim` (user.go:313-323). -/
def mailClaim (u : User) : GoString :=
  match u.emailAddresses with
  | [] => []
  | e :: es =>
    match (e :: es).find? (·.primary) with
    | some m => m.address
    | none => e.address

/-- `GetNameClaim` (user.go:326-334). -/
def nameClaim (u : User) : GoString :=
  match u.name with
  | none => []
  | some n => if n.fullName ≠ [] then n.fullName else []

/-- `GetRolesClaim` (user.go:337-346). -/
def rolesClaim (u : User) : List GoString := if u.roles.length = 0 then [] else u.roles.map Role.toStr

/-- `GetFullName` (user.go:349-354). -/
def fullName (u : User) : GoString :=
  match u.name with
  | none => []
  | some n => n.fullName

/-- `User.AddPublicKey` (user.go:374-391). -/
def addPublicKey (nd : Nondet) (k : ReqKey) (u : User) : Res User :=
  match newPublicKey nd.now (getRandomString nd.seedRand 0 40) k with
  | .err e => .err (.withE .addPublicKey [k.usage] e)
  | .panic => .panic
  | .ok key =>
    if u.publicKeys.any (fun x => x.type == key.type && x.fingerprint == key.fingerprint) then
      .err (.withV .addPublicKey [k.usage, gs! "already exists"] [])
    else .ok (revise (nd.now.skip 2) { u with publicKeys := u.publicKeys ++ [key] })

/-- `User.DeletePublicKey` (user.go:394-410). -/
def deletePublicKey (now : Clock) (k : ReqKey) (u : User) : Res User :=
  if u.publicKeys.any (fun x => x.id == k.id) then
    .ok (revise now { u with publicKeys := u.publicKeys.filter fun x => !(x.id == k.id) })
  else .err (.withV .deletePublicKey [k.id, gs! "not found"] [])

/-- `User.AddAPIKey` (user.go:413-421); `id` is the identifier drawn by `NewAPIKey`. -/
def addAPIKey (now : Clock) (id : GoString) (k : ReqKey) (u : User) : Res User :=
  match newAPIKey now id k with
  | .err e => .err (.withE .addAPIKey [k.usage] e)
  | .panic => .panic
  | .ok key => .ok (revise (now.skip 2) { u with apiKeys := u.apiKeys ++ [key] })

/-- The loop of `User.DeleteAPIKey` (user.go:427-434): whether a key was found, the prefix left in the request, and the
remaining keys. -/
def deleteAPIKeyLoop (id : GoString) : List APIKey → Bool × GoString × List APIKey → Bool × GoString × List APIKey
  | [], acc => acc
  | k :: ks, (found, pfx, keys) =>
    if k.id = id then deleteAPIKeyLoop id ks (true, k.pfx, keys)
    else deleteAPIKeyLoop id ks (found, pfx, keys ++ [k])

/-- `User.DeleteAPIKey` (user.go:424-441): the user and the request key with its prefix set. -/
def deleteAPIKey (now : Clock) (k : ReqKey) (u : User) : Res (User × ReqKey) :=
  match deleteAPIKeyLoop k.id u.apiKeys (false, k.pfx, []) with
  | (false, _, _) => .err (.withV .deleteAPIKey [k.id, gs! "not found"] [])
  | (true, pfx, keys) => .ok (revise now { u with apiKeys := keys }, { k with pfx := pfx })

/-- `User.LookupAPIKey` (user.go:444-454); `none` is success. -/
def lookupAPIKey (pfx payload : GoString) : List APIKey → Option GoErr
  | [] => some (.std .lookupAPIKeyFailed)
  | k :: ks =>
    if k.pfx = pfx then (if k.accepts payload then none else some (.std .lookupAPIKeyFailed))
    else lookupAPIKey pfx payload ks

/-- The duplicate check of `AddMfaToken` (user.go:462-469). -/
def checkMfaDup (t : MfaToken) : List MfaToken → Option GoErr
  | [] => none
  | k :: ks =>
    if k.secret = t.secret then some (.withE .addMfaToken [] (.std .duplicateMfaTokenSecret))
    else if k.comment = t.comment then some (.withE .addMfaToken [] (.std .duplicateMfaTokenComment))
    else checkMfaDup t ks

/-- `User.AddMfaToken` (user.go:457-473): the user and the request as `NewMfaToken` left it. -/
def addMfaToken (nd : Nondet) (req : Request) (u : User) : Res User × Request :=
  match newMfaToken nd req with
  | (.err e, req) => (.err (.withE .addMfaToken [] e), req)
  | (.panic, req) => (.panic, req)
  | (.ok t, req) =>
    match checkMfaDup t u.mfaTokens with
    | some e => (.err e, req)
    | none => (.ok (revise (nd.now.skip 2) { u with mfaTokens := u.mfaTokens ++ [t] }), req)

/-- `User.DeleteMfaToken` (user.go:476-492). -/
def deleteMfaToken (now : Clock) (id : GoString) (u : User) : Res User :=
  if u.mfaTokens.any (fun x => x.id == id) then
    .ok (revise now { u with mfaTokens := u.mfaTokens.filter fun x => !(x.id == id) })
  else .err (.withV .deleteMfaToken [id, gs! "not found"] [])

/-- `GetFlags` (user.go:495-508). -/
def flagsLoop : List MfaToken → ReqFlags → ReqFlags
  | [], f => f
  | t :: ts, f =>
    if t.disabled then flagsLoop ts f
    else
      let f := { f with mfaConfigured := true }
      if t.type = gs! "totp" then flagsLoop ts { f with mfaApp := true }
      else if t.type = gs! "u2f" then flagsLoop ts { f with mfaUniversal := true }
      else flagsLoop ts f

/-- `User.ChangePassword` (user.go:511-519). -/
def changePassword (nd : Nondet) (oldPassword password : GoString) (keepVersions : Int) (u : User) : Res User :=
  match verifyPassword oldPassword u with
  | some e => .err (.withE .changeUserPassword [] e)
  | none =>
    match addPassword nd.now (nd.salts 0) password keepVersions u with
    | .err e => .err (.withE .changeUserPassword [] e)
    | .panic => .panic
    | .ok u => .ok u

/-- `GetMetadata` (user.go:522-542). -/
def metadata (u : User) : UserMetadata :=
  { id := u.id, enabled := u.enabled, username := u.username, title := u.title,
    name := match u.name with | some n => n.fullName | none => [],
    email := match u.emailAddress with | some e => e.address | none => [],
    created := u.created, lastModified := u.lastModified, revision := u.revision,
    avatar := match u.avatar with | some a => a.path | none => [] }

/-- `GetChallenges` (user.go:546-553). -/
def challenges (u : User) : List GoString :=
  [gs! "password"] ++ (if u.mfaTokens.length > 0 then [gs! "mfa"] else [])

end User
end GoIdentity
