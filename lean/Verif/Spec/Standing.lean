import Verif.Spec.Journal
/-!
# What the journal says an account contains
-/
namespace GoIdentity
variable [Ext]

/-- The value of a call that succeeded. -/
def Res.value? {α : Type} : Res α → Option α
  | .ok a => some a
  | _ => none

open Classical in
/-- What the lines of a journal made and no later line dropped, in order. -/
noncomputable def standing {α : Type} (made : Line → Option α) (drops : Line → α → Prop) : List Line → List α
  | [] => []
  | x :: later =>
    match made x with
    | none => standing made drops later
    | some a => if ∃ y ∈ later, drops y a then standing made drops later else a :: standing made drops later

namespace Line

/-- An accepted call for the account with this name. -/
def Accepted (x : Line) (c : Call) (n : GoString) : Prop := x.Kept ∧ x.op.call = c ∧ toLower x.name = toLower n

open Classical in
/-- The name and the email address registered. -/
noncomputable def account (x : Line) : Option (GoString × GoString) :=
  if x.Registers then some (x.op.req.user.username, x.op.req.user.email) else none

open Classical in
/-- The public key added to the account. -/
noncomputable def publicKey (n : GoString) (x : Line) : Option PublicKey :=
  if x.Accepted .addPublicKey n then (newPublicKey x.op.nd.now (getRandomString x.op.nd.seedRand 0 40) x.op.req.key).value? else none

open Classical in
/-- The API key added to the account; its prefix and the hash of its secret are in the request that came back. -/
noncomputable def apiKey (n : GoString) (x : Line) : Option APIKey :=
  if x.Accepted .addAPIKey n then
    match x.reply.response.payload with
    | .secret s => (newAPIKey x.op.nd.now (x.keyID s) x.reply.key).value?
    | _ => none
  else none

open Classical in
/-- The MFA token added to the account. -/
noncomputable def mfaToken (n : GoString) (x : Line) : Option MfaToken :=
  if x.Accepted .addMfaToken n then (newMfaToken x.op.nd x.op.req).1.value? else none

/-- The public keys deleted from the account. -/
def DropsPublicKey (n : GoString) (x : Line) (k : PublicKey) : Prop := x.Accepted .deletePublicKey n ∧ k.id = x.op.req.key.id

/-- The API keys deleted from the account. -/
def DropsAPIKey (n : GoString) (x : Line) (k : APIKey) : Prop := x.Accepted .deleteAPIKey n ∧ k.id = x.op.req.key.id

/-- The MFA tokens deleted from the account. -/
def DropsMfaToken (n : GoString) (x : Line) (t : MfaToken) : Prop := x.Accepted .deleteMfaToken n ∧ t.id = x.op.req.mfaToken.id

end Line

/-- The accounts, in the order of their registration. -/
noncomputable def accountsOf (j : List Line) : List (GoString × GoString) := standing Line.account (fun _ _ => False) j

/-- The public keys of an account. -/
noncomputable def publicKeysOf (j : List Line) (n : GoString) : List PublicKey := standing (Line.publicKey n) (Line.DropsPublicKey n) j

/-- The API keys of an account. -/
noncomputable def apiKeysOf (j : List Line) (n : GoString) : List APIKey := standing (Line.apiKey n) (Line.DropsAPIKey n) j

/-- The MFA tokens of an account. -/
noncomputable def mfaTokensOf (j : List Line) (n : GoString) : List MfaToken := standing (Line.mfaToken n) (Line.DropsMfaToken n) j

end GoIdentity
