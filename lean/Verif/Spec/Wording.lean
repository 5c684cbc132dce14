import Verif.Model.ErrorText
/-!
# The wordings of the error constants

The `StandardError` constants in the order of the files of pkg/errors, with the texts written there.
Two constants of the package are used by nothing and have no row:
`ErrDatabaseOperation` (database.go:27) and `ErrGetUser` (database.go:51).
-/
namespace GoIdentity

/-- A constant and its wording (pkg/errors). -/
def wordings : List (StdErr × GoString) :=
  [ (.newDatabase, gs! "failed initializing database at %q: %v"),
    (.newDatabaseInvalidUser, gs! "failed initializing database: found invalid user %v, %v"),
    (.newDatabaseDuplicateUser, gs! "failed initializing database: found duplicate user %s %v"),
    (.newDatabaseDuplicateUserID, gs! "failed initializing database: found duplicate user id %s %v"),
    (.newDatabaseDuplicateEmail, gs! "failed initializing database: found duplicate email address %s, %v"),
    (.newDatabaseDuplicateAPIKey, gs! "failed initializing database: found duplicate api key %s, %v"),
    (.databaseCommit, gs! "failed database commit to %q: %v"),
    (.databaseInvalidUser, gs! "username and email point to a different identity in the database"),
    (.databaseUserNotFound, gs! "user not found"),
    (.authFailed, gs! "user authentication failed: %v"),
    (.addPublicKey, gs! "failed adding %s public key: %v"),
    (.deletePublicKey, gs! "failed deleting %q key: %v"),
    (.getPublicKeys, gs! "failed getting %q keys: %v"),
    (.addAPIKey, gs! "failed adding %s key: %v"),
    (.deleteAPIKey, gs! "failed deleting %q key: %v"),
    (.getAPIKeys, gs! "failed getting %q keys: %v"),
    (.changeUserPassword, gs! "failed change user password: %v"),
    (.userPasswordNotFound, gs! "user password not set"),
    (.userPasswordInvalid, gs! "user password is invalid"),
    (.userPolicyCompliance, gs! "username policy compliance check failed"),
    (.passwordPolicyCompliance, gs! "user password policy compliance check failed"),
    (.addUser, gs! "failed adding user %q: %v"),
    (.deleteUser, gs! "failed deleting user %q: %v"),
    (.getUsers, gs! "failed retrieving users: %v"),
    (.passwordEmpty, gs! "empty password"),
    (.passwordEmptyAlgorithm, gs! "empty password hash algorithm"),
    (.passwordGenerate, gs! "password generation error: %v"),
    (.passwordUnsupportedAlgorithm, gs! "unsupported password hash algorithm: %v"),
    (.userIDInvalidLength, gs! "invalid user id length: %d"),
    (.usernameEmpty, gs! "username is empty"),
    (.emailAddressInvalid, gs! "invalid email address"),
    (.roleEmpty, gs! "role name is empty"),
    (.parseNameFailed, gs! "failed to parse name: %s"),
    (.creditCardUnsupportedIssuer, gs! "unsupported credit card issuer: %v"),
    (.creditCardUnsupportedAssociation, gs! "unsupported credit card association: %v"),
    (.apiKeyPayloadEmpty, gs! "api key payload is empty"),
    (.apiKeyUsageEmpty, gs! "api key usage type is empty"),
    (.apiKeyCommentEmpty, gs! "api key comment is empty"),
    (.apiKeyUsageUnsupported, gs! "api key usage type %q is unsupported"),
    (.lookupAPIKeyPayloadEmpty, gs! "api key payload is empty"),
    (.lookupAPIKeyFailed, gs! "api key lookup failed"),
    (.lookupAPIKeyMalformedPayload, gs! "api key payload is malformed"),
    (.addMfaToken, gs! "failed adding MFA token: %v"),
    (.deleteMfaToken, gs! "failed deleting MFA token %q: %v"),
    (.getMfaTokens, gs! "failed getting MFA tokens: %v"),
    (.duplicateMfaTokenSecret, gs! "duplicate MFA token secret"),
    (.duplicateMfaTokenComment, gs! "duplicate MFA token comment"),
    (.mfaTokenEmptyAlgorithm, gs! "empty MFA token algorithm"),
    (.mfaTokenTypeEmpty, gs! "empty MFA token type"),
    (.mfaTokenInvalidType, gs! "invalid MFA token type: %s"),
    (.mfaTokenInvalidAlgorithm, gs! "invalid MFA token algorithm: %s"),
    (.mfaTokenInvalidPeriod, gs! "invalid MFA token period: %d"),
    (.mfaTokenInvalidDigits, gs! "invalid MFA token digits: %d"),
    (.mfaTokenInvalidPasscode, gs! "invalid MFA token passcode: %v"),
    (.webAuthnRegisterNotFound, gs! "webauthn register not found"),
    (.webAuthnChallengeNotFound, gs! "webauthn challenge not found"),
    (.webAuthnParse, gs! "failed parsing webauthn request: %v"),
    (.webAuthnEmptyRegisterID, gs! "webauthn register id is empty"),
    (.webAuthnEmptyRegisterKeyType, gs! "webauthn register key type is empty"),
    (.webAuthnInvalidRegisterKeyType, gs! "invalid webauthn register key type: %v"),
    (.webAuthnEmptyRegisterTransport, gs! "webauthn register key transport is empty"),
    (.webAuthnInvalidRegisterTransport, gs! "invalid webauthn register key transport: %v"),
    (.webAuthnRegisterAttestationObjectNotFound, gs! "webauthn register attestation object not found"),
    (.webAuthnRegisterAuthDataNotFound, gs! "webauthn register attestation object auth data not found"),
    (.webAuthnRegisterCredentialDataNotFound, gs! "webauthn register attestation object auth data credential not found"),
    (.webAuthnRegisterEmptyRelyingPartyID, gs! "webauthn register attestation object auth data rpIdHash empty"),
    (.webAuthnRegisterEmptyFlags, gs! "webauthn register attestation object auth data flags empty"),
    (.webAuthnRegisterPublicKeyNotFound, gs! "webauthn register attestation object auth data credential public key not found"),
    (.webAuthnRegisterPublicKeyUnsupported, gs! "webauthn register attestation object auth data credential public key type %v is unsupported"),
    (.webAuthnRegisterPublicKeyTypeNotFound, gs! "webauthn register attestation object auth data credential public key type not found"),
    (.webAuthnRegisterPublicKeyAlgorithmUnsupported, gs! "webauthn register attestation object auth data credential public key algorithm %v is unsupported"),
    (.webAuthnRegisterPublicKeyAlgorithmNotFound, gs! "webauthn register attestation object auth data credential public key algorithm not found"),
    (.webAuthnRegisterPublicKeyCurveUnsupported, gs! "webauthn register attestation object auth data credential public key curve_type %v is unsupported"),
    (.webAuthnRegisterPublicKeyTypeAlgorithmUnsupported, gs! "webauthn register attestation object auth data credential public key type %q and algorithm %q are unsupported"),
    (.webAuthnRegisterPublicKeyCurveCoord, gs! "webauthn register attestation object auth data credential public key curve %v coordinate error: %v"),
    (.webAuthnRequest, gs! "webauthn request failed: %v"),
    (.webAuthnVerifyRequest, gs! "webauthn authentication request failed: %v"),
    (.publicKeyEmptyPayload, gs! "public key payload is empty"),
    (.publicKeyInvalidUsage, gs! "public key usage %q is invalid"),
    (.publicKeyUsagePayloadMismatch, gs! "public key usage %q does not match its payload"),
    (.publicKeyBlockType, gs! "public key block type %q is invalid"),
    (.publicKeyParse, gs! "public key parse failed: %v"),
    (.publicKeyUsageUnsupported, gs! "public key usage %q is unsupported"),
    (.publicKeyTypeUnsupported, gs! "public key type %q is unsupported")]

end GoIdentity
