import Verif.Model.Database
/-!
# Which bcrypt computations a call makes

The functions of this file repeat the control flow of the code and also list the bcrypt computations made, in order.  They
are tied to the rest of the model by the erasure theorems of `Verif.Props.Work`.
-/
namespace GoIdentity
variable [Ext]

/-- One bcrypt computation. -/
inductive BcryptRun
  /-- `bcrypt.GenerateFromPassword` at a cost, past its checks. -/
  | generate (cost : Nat)
  /-- `bcrypt.CompareHashAndPassword` with a stored hash. -/
  | compare (hash : GoString)
  deriving DecidableEq

/-- `NewPassword` (password.go:39-62, 72-92). -/
def newPasswordW (now : Clock) (salt : Option GoString) (s : GoString) : Res Password × List BcryptRun :=
  let t := trimSpace s
  if t = [] then (.err (.std .passwordEmpty), [])
  else
    match bcryptGenerate t 10 salt with
    | .ok h =>
      (.ok { purpose := gs! "generic", algorithm := gs! "bcrypt", hash := h, cost := 10, expired := false,
             expiredAt := .zero, createdAt := now 0, disabled := false, disabledAt := .zero }, [.generate 10])
    | .err e => (.err (.withE .passwordGenerate [] e), [])
    | .panic => (.panic, [])

/-- The password loop of `VerifyPassword` (user.go:267-275). -/
def matchAnyW (s : GoString) : List Password → Bool × List BcryptRun
  | [] => (false, [])
  | p :: ps =>
    if p.disabled || p.expired then matchAnyW s ps
    else if p.accepts s then (true, [.compare p.hash])
    else ((matchAnyW s ps).1, .compare p.hash :: (matchAnyW s ps).2)

/-- `VerifyPassword` (user.go:263-276). -/
def verifyPasswordW (s : GoString) (u : User) : Option GoErr × List BcryptRun :=
  if u.passwords.length = 0 then (some (.std .userPasswordNotFound), [])
  else
    match matchAnyW s u.passwords with
    | (true, w) => (none, w)
    | (false, w) => (some (.std .userPasswordInvalid), w)

/-- `AuthenticateUser` (database.go:353-382), with the password hash it computes for an unknown user. -/
def authenticateUserW (nd : Nondet) (db : Database) (fs : FS) (req : Request) : Result × List BcryptRun :=
  match db.getUser req.user.username with
  | none =>
    (db.failWith fs (Database.setCode req 400) (.withE .authFailed [] (.std .databaseUserNotFound)),
      (newPasswordW nd.now (nd.salts 0) req.user.password).2)
  | some (_, user) =>
    if req.user.password ≠ [] then
      match verifyPasswordW req.user.password user with
      | (some e, w) => (db.failWith fs (Database.setCode req 400) (.withE .authFailed [] e), w)
      | (none, w) => (⟨db, fs, Database.setCode req 200, .success⟩, w)
    else if req.webAuthn.request ≠ [] then
      match user.verifyWebAuthnRequest req.webAuthn with
      | .err e => (db.failWith fs (Database.setCode req 400) (.withE .authFailed [] e), [])
      | .panic => (⟨db, fs, req, .panic⟩, [])
      | .ok _ => (⟨db, fs, Database.setCode req 200, .success⟩, [])
    else (db.failWith fs (Database.setCode req 400) (.withV .authFailed [gs! "malformed auth request"] []), [])

/-- `User.LookupAPIKey` (user.go:444-454) with `APIKey.Match` (api_key.go:105-110). -/
def userLookupAPIKeyW (pfx payload : GoString) : List APIKey → Option GoErr × List BcryptRun
  | [] => (some (.std .lookupAPIKeyFailed), [])
  | k :: ks =>
    if k.pfx = pfx then
      ((if k.accepts payload then none else some (.std .lookupAPIKeyFailed)), [.compare k.payload])
    else userLookupAPIKeyW pfx payload ks

/-- `LookupAPIKey` (database.go:665-686). -/
def lookupAPIKeyW (db : Database) (fs : FS) (req : Request) : Result × List BcryptRun :=
  if req.key.payload = [] then (db.failWith fs req (.std .lookupAPIKeyPayloadEmpty), [])
  else if req.key.payload.length < 72 then (db.failWith fs req (.std .lookupAPIKeyMalformedPayload), [])
  else
    let req := { req with key := { req.key with pfx := req.key.payload.take 24 } }
    match db.deref (db.refAPIKey req.key.pfx) with
    | none => (db.failWith fs req (.std .lookupAPIKeyFailed), [])
    | some (_, user) =>
      match userLookupAPIKeyW req.key.pfx req.key.payload user.apiKeys with
      | (some e, w) => (db.failWith fs req e, w)
      | (none, w) =>
        (⟨db, fs,
          Database.setCode { req with user := { req.user with username := user.username, email := user.mailClaim } } 200,
          .success⟩, w)

end GoIdentity
