import Verif.Model.ErrorText
import Verif.Spec.Reach
/-!
# What an error says: vocabulary for C75 and C76
-/
namespace GoIdentity

/-- The strings an error quotes, those of the errors it wraps included. -/
def GoErr.quoted : GoErr → List GoString
  | .std _ => []
  | .ext _ => []
  | .withV _ ss _ => ss
  | .withE _ ss inner => ss ++ inner.quoted

/-- The constants that occur in an error without arguments. -/
def GoErr.bare : GoErr → List StdErr
  | .std e => [e]
  | .ext _ => []
  | .withV _ _ _ => []
  | .withE _ _ inner => inner.bare

/-- The fixed messages the code puts in errors (and the tags this model puts for a number and for a user record). -/
def fixedMessages : List GoString :=
  [gs! "username already in use", gs! "email address already in use", gs! "user delete operation is not supported",
   gs! "malformed auth request", gs! "already exists", gs! "not found", gs! "failed", gs! "empty",
   gs! "not 4-8 characters long", gs! "digits length mismatch", gs! "path points to a directory", gs! "", gs! "number",
   gs! "user"]

/-- What the error of a call may quote: parts of the request that are no secrets, the path, facts about a public key or a
registration that was sent, and fixed messages. -/
inductive Quotable [Ext] (c : Call) (db : Database) (req : Request) : GoString → Prop
  | username : Quotable c db req req.user.username
  | lowerUsername : Quotable c db req (toLower req.user.username)
  | lowerEmail : Quotable c db req (toLower req.user.email)
  | fullName : Quotable c db req (trimSpace req.user.fullName)
  | usage : Quotable c db req req.key.usage
  | keyID : Quotable c db req req.key.id
  | queryID : Quotable c db req req.query.id
  | tokenID : Quotable c db req req.mfaToken.id
  | tokenType : Quotable c db req req.mfaToken.type
  | algorithm : Quotable c db req (toLower req.mfaToken.algorithm)
  | path : Quotable c db req (c.target db)
  | message (s : GoString) (h : s ∈ fixedMessages) : Quotable c db req s
  | pemType (t b : GoString) (h : pemDecode (trimSpace req.key.payload) = some (t, b)) : Quotable c db req t
  | sshType (t : GoString) (h : t ∈ otherSshTypes) : Quotable c db req t
  | registration (b : GoString) (r : RegisterRequest) (hb : b64Decode req.webAuthn.register = some b)
      (hr : unmarshal registerRequestFields RegisterRequest.zero b = .ok r) (s : GoString)
      (hs : s = r.type ∨ s ∈ r.transports) : Quotable c db req s

/-- The strings of a stored user that opening may quote. -/
def User.Names [Ext] (u : User) (s : GoString) : Prop :=
  s = u.username ∨ s = u.id ∨ (∃ e ∈ u.emailAddresses, s = toLower e.address) ∨ ∃ k ∈ u.apiKeys, s = k.pfx

/-- What an error of `NewDatabase` may quote: the path, fixed messages, and of the users in the file the usernames,
identifiers, email addresses and key prefixes. -/
inductive OpenQuotable [Ext] (fs : FS) (fp : GoString) : GoString → Prop
  | path : OpenQuotable fs fp fp
  | message (s : GoString) (h : s ∈ fixedMessages) : OpenQuotable fs fp s
  | stored (p b : GoString) (d : DBData) (u : User) (hf : fs p = some (.file b)) (hd : unmarshalDB b = .ok d)
      (hu : u ∈ d.users) (s : GoString) (hs : u.Names s) : OpenQuotable fs fp s

end GoIdentity
