import Verif.Spec.Reach
/-!
# The database as a plain list of accounts

No lookup maps, no positions, no files, no revision counter of the database: an account is found by searching the list,
changed by replacing it in the list, and added at the end of the list.  What one account does with its own passwords,
keys and tokens is taken from the model (`User.addPublicKey`, ...).
-/
namespace GoIdentity
variable [Ext]

/-- How a call ended, as far as its caller can act on it: the text of an error is left out. -/
inductive Verdict
  | ok | refused | crashed | stuck
  deriving DecidableEq

/-- The verdict of an outcome. -/
def Outcome.verdict : Outcome → Verdict
  | .success => .ok
  | .fail _ => .refused
  | .panic => .crashed
  | .hang => .stuck

namespace Book

/-- What a call leaves: the accounts, the request, and the verdict. -/
structure Answer where
  accounts : List User
  req : Request
  verdict : Verdict

/-- Equal up to the case of letters. -/
def alike (a b : GoString) : Bool := toLower a = toLower b

/-- The account has this name; names of one byte are not looked up. -/
def hasName (n : GoString) (u : User) : Bool := 2 ≤ n.length ∧ alike u.username n

/-- The account has this email address; addresses of less than six bytes are not looked up. -/
def hasMail (m : GoString) (u : User) : Bool := 6 ≤ m.length ∧ u.emailAddresses.any fun e => alike e.address m

/-- The account meant by a login name, which is an email address if it contains `@`. -/
def holder (us : List User) (s : GoString) : Option User :=
  us.find? fun u => if (64 : UInt8) ∈ s then hasMail s u else hasName s u

/-- The account that a request is made for: name and email address must belong to the same account. -/
def subject (us : List User) (r : ReqUser) : Option User := us.find? fun u => hasName r.username u && hasMail r.email u

/-- The account with an API key of this prefix. -/
def keyHolder (us : List User) (p : GoString) : Option User := us.find? fun u => u.apiKeys.any fun k => k.pfx = p

/-- Put `u'` in the place of `u`. -/
def replace (us : List User) (u u' : User) : List User := us.map fun x => if x.id = u.id then u' else x

/-- The identifier of a new account: the first of ten that no account has. -/
def freshID (us : List User) (ids : List GoString) (old : GoString) : GoString :=
  ((ids.take 10).find? fun id => us.all fun u => u.id ≠ id).getD old

/-- Nothing changes, the call fails. -/
def refuse (us : List User) (req : Request) : Answer := ⟨us, req, .refused⟩

/-- The accounts change; the call succeeds if the file could be written. -/
def store (written : Bool) (us : List User) (req : Request) : Answer := ⟨us, req, if written then .ok else .refused⟩

/-- Answer with a payload. -/
def reply (us : List User) (req : Request) (p : Payload) : Answer :=
  ⟨us, { req with response := { req.response with payload := p } }, .ok⟩

/-- Account `u` tries to become another. -/
def change (written : Bool) (us : List User) (req : Request) (u : User) : Res User → Answer
  | .err _ => refuse us req
  | .panic => ⟨us, req, .crashed⟩
  | .ok u' => store written (replace us u u') req

/-- With the response code set. -/
def coded (req : Request) (c : Int) : Request := { req with response := { req.response with code := c } }

/-- The request belongs to an account. -/
def asked (us : List User) (req : Request) (f : User → Answer) : Answer :=
  match subject us req.user with
  | none => refuse us req
  | some u => f u

/-- A new account. -/
def register (nd : Nondet) (pol : Policy) (written : Bool) (us : List User) (req : Request) : Answer :=
  if (checkPolicy pol req.user.username req.user.password).isSome then refuse us req
  else
    match User.newWithRoles nd req.user.username req.user.password req.user.email req.user.fullName req.user.roles with
    | .err _ => refuse us req
    | .panic => ⟨us, req, .crashed⟩
    | .ok u =>
      if us.any fun v => alike v.username u.username then refuse us req
      else if us.any fun v => v.emailAddresses.any fun e => u.emailAddresses.any fun e' => alike e.address e'.address then
        refuse us req
      else store written (us ++ [{ u with id := freshID us nd.ids u.id }]) req

/-- A new API key.  The search for an unused prefix never ends if the one secret drawn has a used prefix. -/
def issueKey (nd : Nondet) (written : Bool) (us : List User) (req : Request) (u : User) : Answer :=
  match getRandomStringFromRange nd.globalRand nd.seedRand 72 96 with
  | .err _ => refuse us req
  | .panic => ⟨us, req, .crashed⟩
  | .ok s =>
    if (keyHolder us (s.take 24)).isSome then ⟨us, req, .stuck⟩
    else
      match newPassword nd.now (nd.salts 0) s with
      | .err _ => refuse us req
      | .panic => ⟨us, req, .crashed⟩
      | .ok p =>
        let req := { req with
          response := { req.response with payload := .secret s }
          key := { req.key with payload := p.hash, pfx := s.take 24 } }
        change written us req u (u.addAPIKey nd.now (getRandomString nd.seedRand s.length 40) req.key)

/-- Who holds this API key? -/
def checkKey (us : List User) (req : Request) : Answer :=
  if req.key.payload.length < 72 then refuse us req
  else
    let p := req.key.payload.take 24
    let req := { req with key := { req.key with pfx := p } }
    match us.find? fun u => u.apiKeys.any fun k => k.pfx = p ∧ k.accepts req.key.payload with
    | none => refuse us req
    | some u => ⟨us, coded { req with user := { req.user with username := u.username, email := u.mailClaim } } 200, .ok⟩

/-- Log in. -/
def login (us : List User) (req : Request) : Answer :=
  match holder us req.user.username with
  | none => refuse us (coded req 400)
  | some u =>
    if req.user.password ≠ [] then
      if u.passwords.any fun p => !p.disabled && !p.expired && p.accepts req.user.password then ⟨us, coded req 200, .ok⟩
      else refuse us (coded req 400)
    else if req.webAuthn.request ≠ [] then
      match u.verifyWebAuthnRequest req.webAuthn with
      | .ok _ => ⟨us, coded req 200, .ok⟩
      | _ => refuse us (coded req 400)
    else refuse us (coded req 400)

/-- Look an account up by login name. -/
def identify (us : List User) (req : Request) : Answer :=
  match holder us req.user.username with
  | none => ⟨us, { req with user := { req.user with
      username := gs! "nobody", email := gs! "nobody@localhost", challenges := [gs! "password"] } }, .ok⟩
  | some u =>
    let req := if req.flags.enabled then { req with flags := User.flagsLoop u.mfaTokens req.flags } else req
    ⟨us, coded { req with user := { req.user with
      username := u.username, email := u.mailClaim, fullName := u.nameClaim, roles := u.rolesClaim,
      challenges := u.challenges } } 200, .ok⟩

/-- A bundle of the elements of a list. -/
def bundle {α : Type} (l : List α) : Bundle α := ⟨l, l.length⟩

/-- One call. -/
def step (c : Call) (nd : Nondet) (pol : Policy) (written : Bool) (us : List User) (req : Request) : Answer :=
  match c with
  | .addUser => register nd pol written us req
  | .getUsers => asked us req fun _ => reply us req (.metadata (bundle (us.map User.metadata)))
  | .getUser => asked us req fun u => reply us req (.userPtr (us.findIdx fun x => x.id = u.id))
  | .deleteUser => refuse us req
  | .authenticateUser => login us req
  | .save => store written us req
  | .copy _ => store written us req
  | .addPublicKey => asked us req fun u => change written us req u (u.addPublicKey nd req.key)
  | .getPublicKeys => asked us req fun u =>
      reply us req (.publicKeys (bundle (u.publicKeys.filter fun k => k.usage = req.key.usage ∧ !k.disabled)))
  | .deletePublicKey => asked us req fun u => change written us req u (u.deletePublicKey nd.now req.key)
  | .addAPIKey => asked us req (issueKey nd written us req)
  | .deleteAPIKey => asked us req fun u =>
      match u.deleteAPIKey nd.now req.key with
      | .err _ => refuse us req
      | .panic => ⟨us, req, .crashed⟩
      | .ok (u', k) => store written (replace us u u') { req with key := k }
  | .getAPIKeys => asked us req fun u =>
      reply us req (.apiKeys (bundle (u.apiKeys.filter fun k => k.usage = req.key.usage ∧ !k.disabled)))
  | .changeUserPassword => asked us req fun u =>
      if (checkPasswordPolicy pol req.user.password).isSome then refuse us req
      else change written us req u
        (u.changePassword nd req.user.oldPassword req.user.password pol.password.keepVersions)
  | .identifyUser => identify us req
  | .lookupAPIKey => checkKey us req
  | .addMfaToken => asked us req fun u => change written us (u.addMfaToken nd req).2 u (u.addMfaToken nd req).1
  | .getMfaTokens => asked us req fun u => reply us req (.mfaTokens (bundle (u.mfaTokens.filter fun k => !k.disabled)))
  | .deleteMfaToken => asked us req fun u => change written us req u (u.deleteMfaToken nd.now req.mfaToken.id)

/-- The file a call writes, if it writes one; the database's own is `path`. -/
def target (path : GoString) : Call → GoString
  | .copy fp => fp
  | _ => path

/-- Can the file be written?  `dirs` are the paths that are directories. -/
def canWrite (dirs : GoString → Bool) (path : GoString) (o : Op) : Bool :=
  o.nd.io = .ok ∧ target path o.call ≠ [] ∧ !dirs (target path o.call)

/-- A history: the accounts it leaves, and what each call answered.  Nothing follows a call that never returns. -/
def play (dirs : GoString → Bool) (path : GoString) (pol : Policy) (us : List User) : List Op → List User × List (Request × Verdict)
  | [] => (us, [])
  | o :: os =>
    let a := step o.call o.nd pol (canWrite dirs path o) us o.req
    if a.verdict = .stuck then (a.accounts, [(a.req, a.verdict)])
    else
      let r := play dirs path pol a.accounts os
      (r.1, (a.req, a.verdict) :: r.2)

/-- A history in which the runtime behaves: every new account draws an unused identifier within ten attempts, no account
draws the same key identifier twice, and the system's source of randomness works. -/
def Behaved (dirs : GoString → Bool) (path : GoString) (pol : Policy) (us : List User) : List Op → Prop
  | [] => True
  | o :: os =>
    let a := step o.call o.nd pol (canWrite dirs path o) us o.req
    (o.call = .addUser → ∃ id ∈ o.nd.ids.take 10, ∀ u ∈ us, u.id ≠ id) ∧
    (∀ u ∈ a.accounts, (u.apiKeys.map (·.id)).Nodup) ∧
    (∀ n, (o.nd.salts n).isSome = true) ∧ 0 < o.nd.fuel ∧
    (a.verdict ≠ .stuck → Behaved dirs path pol a.accounts os)

end Book

/-- What the calls of a history answer: the request each leaves and its verdict. -/
def transcript (db : Database) (fs : FS) : List Op → List (Request × Verdict)
  | [] => []
  | o :: os =>
    let r := exec o.call o.nd db fs o.req
    match r.out with
    | .hang => [(r.req, r.out.verdict)]
    | _ => (r.req, r.out.verdict) :: transcript r.db r.fs os

end GoIdentity
