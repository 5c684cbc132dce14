import Verif.Model.Bytes
/-!
# Errors  (pkg/errors)
-/
namespace GoIdentity

/-- The `StandardError` constants (pkg/errors/database.go:18-68, api_key.go:18-27, mfa_token.go:18-57,
public_key.go:18-26). -/
inductive StdErr
  | newDatabase | newDatabaseInvalidUser | newDatabaseDuplicateUser | newDatabaseDuplicateUserID
  | newDatabaseDuplicateEmail | newDatabaseDuplicateAPIKey
  | databaseCommit | databaseInvalidUser | databaseUserNotFound | authFailed
  | addPublicKey | deletePublicKey | getPublicKeys
  | addAPIKey | deleteAPIKey | getAPIKeys
  | changeUserPassword | userPasswordNotFound | userPasswordInvalid
  | userPolicyCompliance | passwordPolicyCompliance
  | addUser | deleteUser | getUsers
  | passwordEmpty | passwordEmptyAlgorithm | passwordGenerate | passwordUnsupportedAlgorithm
  | userIDInvalidLength | usernameEmpty | emailAddressInvalid | roleEmpty | parseNameFailed
  | creditCardUnsupportedIssuer | creditCardUnsupportedAssociation
  | apiKeyPayloadEmpty | apiKeyUsageEmpty | apiKeyCommentEmpty | apiKeyUsageUnsupported
  | lookupAPIKeyPayloadEmpty | lookupAPIKeyFailed | lookupAPIKeyMalformedPayload
  | addMfaToken | deleteMfaToken | getMfaTokens | duplicateMfaTokenSecret | duplicateMfaTokenComment
  | mfaTokenEmptyAlgorithm | mfaTokenTypeEmpty | mfaTokenInvalidType | mfaTokenInvalidAlgorithm
  | mfaTokenInvalidPeriod | mfaTokenInvalidDigits | mfaTokenInvalidPasscode
  | webAuthnRegisterNotFound | webAuthnChallengeNotFound | webAuthnParse | webAuthnEmptyRegisterID
  | webAuthnEmptyRegisterKeyType | webAuthnInvalidRegisterKeyType | webAuthnEmptyRegisterTransport
  | webAuthnInvalidRegisterTransport | webAuthnRegisterAttestationObjectNotFound
  | webAuthnRegisterAuthDataNotFound | webAuthnRegisterCredentialDataNotFound
  | webAuthnRegisterEmptyRelyingPartyID | webAuthnRegisterEmptyFlags | webAuthnRegisterPublicKeyNotFound
  | webAuthnRegisterPublicKeyUnsupported | webAuthnRegisterPublicKeyTypeNotFound
  | webAuthnRegisterPublicKeyAlgorithmUnsupported | webAuthnRegisterPublicKeyAlgorithmNotFound
  | webAuthnRegisterPublicKeyCurveUnsupported | webAuthnRegisterPublicKeyTypeAlgorithmUnsupported
  | webAuthnRegisterPublicKeyCurveCoord | webAuthnRequest | webAuthnVerifyRequest
  | publicKeyEmptyPayload | publicKeyInvalidUsage | publicKeyUsagePayloadMismatch | publicKeyBlockType
  | publicKeyParse | publicKeyUsageUnsupported | publicKeyTypeUnsupported
  deriving DecidableEq, Repr

/-- An error value.  `std e` is the bare constant; `withV e ss is` is `e.WithArgs(...)` with string and integer
arguments only; `withE e ss inner` is `e.WithArgs(ss..., inner)` with a wrapped error; `ext` is an error made by a
library or by `fmt.Errorf`.  (pkg/errors/errors.go:30-70; the argument order between strings and the error is always
strings first in the repository.) -/
inductive GoErr
  | std (e : StdErr)
  | ext (what : GoString)
  | withV (e : StdErr) (ss : List GoString) (is : List Int)
  | withE (e : StdErr) (ss : List GoString) (inner : GoErr)
  deriving DecidableEq, Repr

/-- The `StandardError` an error value unwraps to (pkg/errors/errors.go:68-70). -/
def GoErr.root : GoErr → Option StdErr
  | .std e => some e
  | .ext _ => none
  | .withV e _ _ => some e
  | .withE e _ _ => some e

/-- Result of a Go function that may return an error or panic. -/
inductive Res (α : Type)
  | ok (a : α)
  | err (e : GoErr)
  | panic
  deriving DecidableEq, Repr

namespace Res
variable {α β : Type}

def bind (x : Res α) (f : α → Res β) : Res β :=
  match x with
  | .ok a => f a
  | .err e => .err e
  | .panic => .panic

instance : Monad Res where
  pure := .ok
  bind := Res.bind

/-- `if err != nil { return nil, wrap(err) }`. -/
def mapErr (f : GoErr → GoErr) : Res α → Res α
  | .ok a => .ok a
  | .err e => .err (f e)
  | .panic => .panic

def isOk : Res α → Bool
  | .ok _ => true
  | _ => false

end Res

/-- Outcome of a `Database` call: it returns (with an error or `nil`), panics, or never returns. -/
inductive Outcome
  | done (err : Option GoErr)
  | panic
  | hang
  deriving DecidableEq, Repr

/-- The call returned `nil`. -/
abbrev Outcome.success : Outcome := .done none
/-- The call returned an error. -/
abbrev Outcome.fail (e : GoErr) : Outcome := .done (some e)

/-! ## `WithArgs` itself (pkg/errors/errors.go:30-54) -/

/-- An argument of `WithArgs`: an untyped `nil`, a value implementing `error`, or any other value. -/
inductive WArg
  | nil
  | error (e : GoErr)
  | value
  deriving DecidableEq, Repr

/-- `StandardError.WithArgs`; `none` is a nil error; the result remembers the constant and the arguments.
The inner `if err == nil` of line 35 is unreachable: a type switch case on an interface type is never taken by nil. -/
def withArgs (e : StdErr) (v : List WArg) : Option (StdErr × List WArg) :=
  let hasErr := v.any fun a => match a with | .error _ => true | _ => false
  let hasNil := v.any fun a => match a with | .nil => true | _ => false
  if hasNil && !hasErr then none else some (e, v)

/-- `enhancedError.Unwrap` (pkg/errors/errors.go:68-70). -/
def unwrapEnhanced (x : StdErr × List WArg) : StdErr := x.1

end GoIdentity
