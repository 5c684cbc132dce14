import Verif.Model.StructTag
import Verif.Spec.Declared
/-!
# The raw tags of the structs declared in /repo

Field names and tag texts as they stand in the source, without backquotes.
-/
namespace GoIdentity.Tag

/-- api_key.go:25-28 -/
def rawAPIKeyBundle : List (GoString × GoString) :=
  [(gs! "keys", gs! ""),
   (gs! "size", gs! "")]

/-- api_key.go:31-42 -/
def rawAPIKey : List (GoString × GoString) :=
  [(gs! "ID", gs! "json:\"id,omitempty\" xml:\"id,omitempty\" yaml:\"id,omitempty\""),
   (gs! "Prefix", gs! "json:\"prefix,omitempty\" xml:\"prefix,omitempty\" yaml:\"prefix,omitempty\""),
   (gs! "Usage", gs! "json:\"usage,omitempty\" xml:\"usage,omitempty\" yaml:\"usage,omitempty\""),
   (gs! "Comment", gs! "json:\"comment,omitempty\" xml:\"comment,omitempty\" yaml:\"comment,omitempty\""),
   (gs! "Payload", gs! "json:\"payload,omitempty\" xml:\"payload,omitempty\" yaml:\"payload,omitempty\""),
   (gs! "Expired", gs! "json:\"expired,omitempty\" xml:\"expired,omitempty\" yaml:\"expired,omitempty\""),
   (gs! "ExpiredAt", gs! "json:\"expired_at,omitempty\" xml:\"expired_at,omitempty\" yaml:\"expired_at,omitempty\""),
   (gs! "CreatedAt", gs! "json:\"created_at,omitempty\" xml:\"created_at,omitempty\" yaml:\"created_at,omitempty\""),
   (gs! "Disabled", gs! "json:\"disabled,omitempty\" xml:\"disabled,omitempty\" yaml:\"disabled,omitempty\""),
   (gs! "DisabledAt", gs! "json:\"disabled_at,omitempty\" xml:\"disabled_at,omitempty\" yaml:\"disabled_at,omitempty\"")]

/-- credit_card.go:24-31 -/
def rawCreditCard : List (GoString × GoString) :=
  [(gs! "Number", gs! "json:\"number,omitempty\" xml:\"number,omitempty\" yaml:\"number,omitempty\""),
   (gs! "Issuer", gs! "json:\"issuer,omitempty\" xml:\"issuer,omitempty\" yaml:\"issuer,omitempty\""),
   (gs! "Association", gs! "json:\"association,omitempty\" xml:\"association,omitempty\" yaml:\"association,omitempty\""),
   (gs! "Code", gs! "json:\"code,omitempty\" xml:\"code,omitempty\" yaml:\"code,omitempty\""),
   (gs! "ExpiresAt", gs! "json:\"expires_at,omitempty\" xml:\"expires_at,omitempty\" yaml:\"expires_at,omitempty\""),
   (gs! "IssuedAt", gs! "json:\"issued_at,omitempty\" xml:\"issued_at,omitempty\" yaml:\"issued_at,omitempty\"")]

/-- credit_card_association.go:63-68 -/
def rawCreditCardAssociation : List (GoString × GoString) :=
  [(gs! "Name", gs! "json:\"name,omitempty\" xml:\"name,omitempty\" yaml:\"name,omitempty\""),
   (gs! "Aliases", gs! "json:\"aliases,omitempty\" xml:\"aliases,omitempty\" yaml:\"aliases,omitempty\""),
   (gs! "CodeName", gs! "json:\"code_name,omitempty\" xml:\"code_name,omitempty\" yaml:\"code_name,omitempty\""),
   (gs! "CodeFormat", gs! "json:\"code_format,omitempty\" xml:\"code_format,omitempty\" yaml:\"code_format,omitempty\"")]

/-- credit_card_issuer.go:21-24 -/
def rawCreditCardIssuer : List (GoString × GoString) :=
  [(gs! "Name", gs! "json:\"name,omitempty\" xml:\"name,omitempty\" yaml:\"name,omitempty\""),
   (gs! "Aliases", gs! "json:\"aliases,omitempty\" xml:\"aliases,omitempty\" yaml:\"aliases,omitempty\"")]

/-- database.go:72-75 -/
def rawPolicy : List (GoString × GoString) :=
  [(gs! "Password", gs! "json:\"password,omitempty\" xml:\"password,omitempty\" yaml:\"password,omitempty\""),
   (gs! "User", gs! "json:\"user,omitempty\" xml:\"user,omitempty\" yaml:\"user,omitempty\"")]

/-- database.go:78-88 -/
def rawPasswordPolicy : List (GoString × GoString) :=
  [(gs! "KeepVersions", gs! "json:\"keep_versions\" xml:\"keep_versions\" yaml:\"keep_versions\""),
   (gs! "MinLength", gs! "json:\"min_length\" xml:\"min_length\" yaml:\"min_length\""),
   (gs! "MaxLength", gs! "json:\"max_length\" xml:\"max_length\" yaml:\"max_length\""),
   (gs! "RequireUppercase", gs! "json:\"require_uppercase\" xml:\"require_uppercase\" yaml:\"require_uppercase\""),
   (gs! "RequireLowercase", gs! "json:\"require_lowercase\" xml:\"require_lowercase\" yaml:\"require_lowercase\""),
   (gs! "RequireNumber", gs! "json:\"require_number\" xml:\"require_number\" yaml:\"require_number\""),
   (gs! "RequireNonAlphaNumeric", gs! "json:\"require_non_alpha_numeric\" xml:\"require_non_alpha_numeric\" yaml:\"require_non_alpha_numeric\""),
   (gs! "BlockReuse", gs! "json:\"block_reuse\" xml:\"block_reuse\" yaml:\"block_reuse\""),
   (gs! "BlockPasswordChange", gs! "json:\"block_password_change\" xml:\"block_password_change\" yaml:\"block_password_change\"")]

/-- database.go:91-96 -/
def rawUserPolicy : List (GoString × GoString) :=
  [(gs! "MinLength", gs! "json:\"min_length\" xml:\"min_length\" yaml:\"min_length\""),
   (gs! "MaxLength", gs! "json:\"max_length\" xml:\"max_length\" yaml:\"max_length\""),
   (gs! "AllowNonAlphaNumeric", gs! "json:\"allow_non_alpha_numeric\" xml:\"allow_non_alpha_numeric\" yaml:\"allow_non_alpha_numeric\""),
   (gs! "AllowUppercase", gs! "json:\"allow_uppercase\" xml:\"allow_uppercase\" yaml:\"allow_uppercase\"")]

/-- database.go:99-111 -/
def rawDatabase : List (GoString × GoString) :=
  [(gs! "mu", gs! ""),
   (gs! "Version", gs! "json:\"version,omitempty\" xml:\"version,omitempty\" yaml:\"version,omitempty\""),
   (gs! "Policy", gs! "json:\"policy,omitempty\" xml:\"policy,omitempty\" yaml:\"policy,omitempty\""),
   (gs! "Revision", gs! "json:\"revision,omitempty\" xml:\"revision,omitempty\" yaml:\"revision,omitempty\""),
   (gs! "LastModified", gs! "json:\"last_modified,omitempty\" xml:\"last_modified,omitempty\" yaml:\"last_modified,omitempty\""),
   (gs! "Users", gs! "json:\"users,omitempty\" xml:\"users,omitempty\" yaml:\"users,omitempty\""),
   (gs! "refEmailAddress", gs! ""),
   (gs! "refUsername", gs! ""),
   (gs! "refID", gs! ""),
   (gs! "refAPIKey", gs! ""),
   (gs! "path", gs! "")]

/-- email.go:34-39 -/
def rawEmailAddress : List (GoString × GoString) :=
  [(gs! "Address", gs! "json:\"address,omitempty\" xml:\"address,omitempty\" yaml:\"address,omitempty\""),
   (gs! "Confirmed", gs! "json:\"confirmed,omitempty\" xml:\"confirmed,omitempty\" yaml:\"confirmed,omitempty\""),
   (gs! "Domain", gs! "json:\"domain,omitempty\" xml:\"domain,omitempty\" yaml:\"domain,omitempty\""),
   (gs! "isPrimary", gs! "json:\"is_primary,omitempty\" xml:\"is_primary,omitempty\" yaml:\"is_primary,omitempty\"")]

/-- handle.go:18-21 -/
def rawHandle : List (GoString × GoString) :=
  [(gs! "Github", gs! "json:\"github,omitempty\" xml:\"github,omitempty\" yaml:\"github,omitempty\""),
   (gs! "Twitter", gs! "json:\"twitter,omitempty\" xml:\"twitter,omitempty\" yaml:\"twitter,omitempty\"")]

/-- image.go:22-28 -/
def rawImage : List (GoString × GoString) :=
  [(gs! "Title", gs! "json:\"title,omitempty\" xml:\"title,omitempty\" yaml:\"title,omitempty\""),
   (gs! "Body", gs! "json:\"body,omitempty\" xml:\"body,omitempty\" yaml:\"body,omitempty\""),
   (gs! "Config", gs! "json:\"config,omitempty\" xml:\"config,omitempty\" yaml:\"config,omitempty\""),
   (gs! "Path", gs! "json:\"path,omitempty\" xml:\"path,omitempty\" yaml:\"path,omitempty\"")]

/-- location.go:18-28 -/
def rawLocation : List (GoString × GoString) :=
  [(gs! "Street", gs! "json:\"street,omitempty\" xml:\"street,omitempty\" yaml:\"street,omitempty\""),
   (gs! "City", gs! "json:\"city,omitempty\" xml:\"city,omitempty\" yaml:\"city,omitempty\""),
   (gs! "State", gs! "json:\"state,omitempty\" xml:\"state,omitempty\" yaml:\"state,omitempty\""),
   (gs! "ZipCode", gs! "json:\"zip_code,omitempty\" xml:\"zip_code,omitempty\" yaml:\"zip_code,omitempty\""),
   (gs! "Confirmed", gs! "json:\"confirmed,omitempty\" xml:\"confirmed,omitempty\" yaml:\"confirmed,omitempty\""),
   (gs! "Current", gs! "json:\"current,omitempty\" xml:\"current,omitempty\" yaml:\"current,omitempty\""),
   (gs! "Domicile", gs! "json:\"domicile,omitempty\" xml:\"domicile,omitempty\" yaml:\"domicile,omitempty\""),
   (gs! "Residential", gs! "json:\"residential,omitempty\" xml:\"residential,omitempty\" yaml:\"residential,omitempty\""),
   (gs! "Commercial", gs! "json:\"commercial,omitempty\" xml:\"commercial,omitempty\" yaml:\"commercial,omitempty\"")]

/-- lockout.go:24-28 -/
def rawLockoutState : List (GoString × GoString) :=
  [(gs! "Enabled", gs! "json:\"enabled,omitempty\" xml:\"enabled,omitempty\" yaml:\"enabled,omitempty\""),
   (gs! "StartTime", gs! "json:\"start_time,omitempty\" xml:\"start_time,omitempty\" yaml:\"start_time,omitempty\""),
   (gs! "EndTime", gs! "json:\"end_time,omitempty\" xml:\"end_time,omitempty\" yaml:\"end_time,omitempty\"")]

/-- mfa_token.go:41-44 -/
def rawMfaTokenBundle : List (GoString × GoString) :=
  [(gs! "tokens", gs! ""),
   (gs! "size", gs! "")]

/-- mfa_token.go:47-65 -/
def rawMfaToken : List (GoString × GoString) :=
  [(gs! "ID", gs! "json:\"id,omitempty\" xml:\"id,omitempty\" yaml:\"id,omitempty\""),
   (gs! "Type", gs! "json:\"type,omitempty\" xml:\"type,omitempty\" yaml:\"type,omitempty\""),
   (gs! "Algorithm", gs! "json:\"algorithm,omitempty\" xml:\"algorithm,omitempty\" yaml:\"algorithm,omitempty\""),
   (gs! "Comment", gs! "json:\"comment,omitempty\" xml:\"comment,omitempty\" yaml:\"comment,omitempty\""),
   (gs! "Secret", gs! "json:\"secret,omitempty\" xml:\"secret,omitempty\" yaml:\"secret,omitempty\""),
   (gs! "Period", gs! "json:\"period,omitempty\" xml:\"period,omitempty\" yaml:\"period,omitempty\""),
   (gs! "Digits", gs! "json:\"digits,omitempty\" xml:\"digits,omitempty\" yaml:\"digits,omitempty\""),
   (gs! "Expired", gs! "json:\"expired,omitempty\" xml:\"expired,omitempty\" yaml:\"expired,omitempty\""),
   (gs! "ExpiredAt", gs! "json:\"expired_at,omitempty\" xml:\"expired_at,omitempty\" yaml:\"expired_at,omitempty\""),
   (gs! "CreatedAt", gs! "json:\"created_at,omitempty\" xml:\"created_at,omitempty\" yaml:\"created_at,omitempty\""),
   (gs! "Disabled", gs! "json:\"disabled,omitempty\" xml:\"disabled,omitempty\" yaml:\"disabled,omitempty\""),
   (gs! "DisabledAt", gs! "json:\"disabled_at,omitempty\" xml:\"disabled_at,omitempty\" yaml:\"disabled_at,omitempty\""),
   (gs! "Device", gs! "json:\"device,omitempty\" xml:\"device,omitempty\" yaml:\"device,omitempty\""),
   (gs! "Parameters", gs! "json:\"parameters,omitempty\" xml:\"parameters,omitempty\" yaml:\"parameters,omitempty\""),
   (gs! "Flags", gs! "json:\"flags,omitempty\" xml:\"flags,omitempty\" yaml:\"flags,omitempty\""),
   (gs! "SignatureCounter", gs! "json:\"signature_counter,omitempty\" xml:\"signature_counter,omitempty\" yaml:\"signature_counter,omitempty\""),
   (gs! "pubkey", gs! "")]

/-- mfa_token.go:68-72 -/
def rawMfaDevice : List (GoString × GoString) :=
  [(gs! "Name", gs! "json:\"name,omitempty\" xml:\"name,omitempty\" yaml:\"name,omitempty\""),
   (gs! "Vendor", gs! "json:\"vendor,omitempty\" xml:\"vendor,omitempty\" yaml:\"vendor,omitempty\""),
   (gs! "Type", gs! "json:\"type,omitempty\" xml:\"type,omitempty\" yaml:\"type,omitempty\"")]

/-- name.go:23-33 -/
def rawName : List (GoString × GoString) :=
  [(gs! "First", gs! "json:\"first,omitempty\" xml:\"first,omitempty\" yaml:\"first,omitempty\""),
   (gs! "Last", gs! "json:\"last,omitempty\" xml:\"last,omitempty\" yaml:\"last,omitempty\""),
   (gs! "Middle", gs! "json:\"middle,omitempty\" xml:\"middle,omitempty\" yaml:\"middle,omitempty\""),
   (gs! "Preferred", gs! "json:\"preferred,omitempty\" xml:\"preferred,omitempty\" yaml:\"preferred,omitempty\""),
   (gs! "Nickname", gs! "json:\"nickname,omitempty\" xml:\"nickname,omitempty\" yaml:\"nickname,omitempty\""),
   (gs! "Confirmed", gs! "json:\"confirmed,omitempty\" xml:\"confirmed,omitempty\" yaml:\"confirmed,omitempty\""),
   (gs! "Primary", gs! "json:\"primary,omitempty\" xml:\"primary,omitempty\" yaml:\"primary,omitempty\""),
   (gs! "Legal", gs! "json:\"legal,omitempty\" xml:\"legal,omitempty\" yaml:\"legal,omitempty\""),
   (gs! "Alias", gs! "json:\"alias,omitempty\" xml:\"alias,omitempty\" yaml:\"alias,omitempty\"")]

/-- organization.go:18-22 -/
def rawOrganization : List (GoString × GoString) :=
  [(gs! "ID", gs! "json:\"id,omitempty\" xml:\"id,omitempty\" yaml:\"id,omitempty\""),
   (gs! "Name", gs! "json:\"name,omitempty\" xml:\"name,omitempty\" yaml:\"name,omitempty\""),
   (gs! "Aliases", gs! "json:\"aliases,omitempty\" xml:\"aliases,omitempty\" yaml:\"aliases,omitempty\"")]

/-- password.go:26-36 -/
def rawPassword : List (GoString × GoString) :=
  [(gs! "Purpose", gs! "json:\"purpose,omitempty\" xml:\"purpose,omitempty\" yaml:\"purpose,omitempty\""),
   (gs! "Algorithm", gs! "json:\"algorithm,omitempty\" xml:\"algorithm,omitempty\" yaml:\"algorithm,omitempty\""),
   (gs! "Hash", gs! "json:\"hash,omitempty\" xml:\"hash,omitempty\" yaml:\"hash,omitempty\""),
   (gs! "Cost", gs! "json:\"cost,omitempty\" xml:\"cost,omitempty\" yaml:\"cost,omitempty\""),
   (gs! "Expired", gs! "json:\"expired,omitempty\" xml:\"expired,omitempty\" yaml:\"expired,omitempty\""),
   (gs! "ExpiredAt", gs! "json:\"expired_at,omitempty\" xml:\"expired_at,omitempty\" yaml:\"expired_at,omitempty\""),
   (gs! "CreatedAt", gs! "json:\"created_at,omitempty\" xml:\"created_at,omitempty\" yaml:\"created_at,omitempty\""),
   (gs! "Disabled", gs! "json:\"disabled,omitempty\" xml:\"disabled,omitempty\" yaml:\"disabled,omitempty\""),
   (gs! "DisabledAt", gs! "json:\"disabled_at,omitempty\" xml:\"disabled_at,omitempty\" yaml:\"disabled_at,omitempty\"")]

/-- public_key.go:40-43 -/
def rawPublicKeyBundle : List (GoString × GoString) :=
  [(gs! "keys", gs! ""),
   (gs! "size", gs! "")]

/-- public_key.go:46-61 -/
def rawPublicKey : List (GoString × GoString) :=
  [(gs! "ID", gs! "json:\"id,omitempty\" xml:\"id,omitempty\" yaml:\"id,omitempty\""),
   (gs! "Usage", gs! "json:\"usage,omitempty\" xml:\"usage,omitempty\" yaml:\"usage,omitempty\""),
   (gs! "Type", gs! "json:\"type,omitempty\" xml:\"type,omitempty\" yaml:\"type,omitempty\""),
   (gs! "Fingerprint", gs! "json:\"fingerprint,omitempty\" xml:\"fingerprint,omitempty\" yaml:\"fingerprint,omitempty\""),
   (gs! "FingerprintMD5", gs! "json:\"fingerprint_md5,omitempty\" xml:\"fingerprint_md5,omitempty\" yaml:\"fingerprint_md5,omitempty\""),
   (gs! "Comment", gs! "json:\"comment,omitempty\" xml:\"comment,omitempty\" yaml:\"comment,omitempty\""),
   (gs! "Payload", gs! "json:\"payload,omitempty\" xml:\"payload,omitempty\" yaml:\"payload,omitempty\""),
   (gs! "OpenSSH", gs! "json:\"openssh,omitempty\" xml:\"openssh,omitempty\" yaml:\"openssh,omitempty\""),
   (gs! "Expired", gs! "json:\"expired,omitempty\" xml:\"expired,omitempty\" yaml:\"expired,omitempty\""),
   (gs! "ExpiredAt", gs! "json:\"expired_at,omitempty\" xml:\"expired_at,omitempty\" yaml:\"expired_at,omitempty\""),
   (gs! "CreatedAt", gs! "json:\"created_at,omitempty\" xml:\"created_at,omitempty\" yaml:\"created_at,omitempty\""),
   (gs! "Disabled", gs! "json:\"disabled,omitempty\" xml:\"disabled,omitempty\" yaml:\"disabled,omitempty\""),
   (gs! "DisabledAt", gs! "json:\"disabled_at,omitempty\" xml:\"disabled_at,omitempty\" yaml:\"disabled_at,omitempty\"")]

/-- registration.go:25-29 -/
def rawRegistration : List (GoString × GoString) :=
  [(gs! "User", gs! "json:\"user,omitempty\" xml:\"user,omitempty\" yaml:\"user,omitempty\""),
   (gs! "Created", gs! "json:\"created,omitempty\" xml:\"created,omitempty\" yaml:\"created,omitempty\""),
   (gs! "Aprroved", gs! "json:\"aprroved,omitempty\" xml:\"aprroved,omitempty\" yaml:\"aprroved,omitempty\"")]

/-- role.go:23-26 -/
def rawRole : List (GoString × GoString) :=
  [(gs! "Name", gs! "json:\"name,omitempty\" xml:\"name,omitempty\" yaml:\"name,omitempty\""),
   (gs! "Organization", gs! "json:\"organization,omitempty\" xml:\"organization,omitempty\" yaml:\"organization,omitempty\"")]

/-- user.go:25-36 -/
def rawUserMetadata : List (GoString × GoString) :=
  [(gs! "ID", gs! "json:\"id,omitempty\" xml:\"id,omitempty\" yaml:\"id,omitempty\""),
   (gs! "Enabled", gs! "json:\"enabled,omitempty\" xml:\"enabled,omitempty\" yaml:\"enabled,omitempty\""),
   (gs! "Username", gs! "json:\"username,omitempty\" xml:\"username,omitempty\" yaml:\"username,omitempty\""),
   (gs! "Title", gs! "json:\"title,omitempty\" xml:\"title,omitempty\" yaml:\"title,omitempty\""),
   (gs! "Name", gs! "json:\"name,omitempty\" xml:\"name,omitempty\" yaml:\"name,omitempty\""),
   (gs! "Email", gs! "json:\"email,omitempty\" xml:\"email,omitempty\" yaml:\"email,omitempty\""),
   (gs! "Created", gs! "json:\"created,omitempty\" xml:\"created,omitempty\" yaml:\"created,omitempty\""),
   (gs! "LastModified", gs! "json:\"last_modified,omitempty\" xml:\"last_modified,omitempty\" yaml:\"last_modified,omitempty\""),
   (gs! "Revision", gs! "json:\"revision,omitempty\" xml:\"revision,omitempty\" yaml:\"revision,omitempty\""),
   (gs! "Avatar", gs! "json:\"avatar,omitempty\" xml:\"avatar,omitempty\" yaml:\"avatar,omitempty\"")]

/-- user.go:39-42 -/
def rawUserMetadataBundle : List (GoString × GoString) :=
  [(gs! "users", gs! ""),
   (gs! "size", gs! "")]

/-- user.go:45-68 -/
def rawUser : List (GoString × GoString) :=
  [(gs! "ID", gs! "json:\"id,omitempty\" xml:\"id,omitempty\" yaml:\"id,omitempty\""),
   (gs! "Enabled", gs! "json:\"enabled,omitempty\" xml:\"enabled,omitempty\" yaml:\"enabled,omitempty\""),
   (gs! "Human", gs! "json:\"human,omitempty\" xml:\"human,omitempty\" yaml:\"human,omitempty\""),
   (gs! "Username", gs! "json:\"username,omitempty\" xml:\"username,omitempty\" yaml:\"username,omitempty\""),
   (gs! "Title", gs! "json:\"title,omitempty\" xml:\"title,omitempty\" yaml:\"title,omitempty\""),
   (gs! "Name", gs! "json:\"name,omitempty\" xml:\"name,omitempty\" yaml:\"name,omitempty\""),
   (gs! "Organization", gs! "json:\"organization,omitempty\" xml:\"organization,omitempty\" yaml:\"organization,omitempty\""),
   (gs! "Names", gs! "json:\"names,omitempty\" xml:\"names,omitempty\" yaml:\"names,omitempty\""),
   (gs! "Organizations", gs! "json:\"organizations,omitempty\" xml:\"organizations,omitempty\" yaml:\"organizations,omitempty\""),
   (gs! "StreetAddress", gs! "json:\"street_address,omitempty\" xml:\"street_address,omitempty\" yaml:\"street_address,omitempty\""),
   (gs! "EmailAddress", gs! "json:\"email_address,omitempty\" xml:\"email_address,omitempty\" yaml:\"email_address,omitempty\""),
   (gs! "EmailAddresses", gs! "json:\"email_addresses,omitempty\" xml:\"email_addresses,omitempty\" yaml:\"email_addresses,omitempty\""),
   (gs! "Passwords", gs! "json:\"passwords,omitempty\" xml:\"passwords,omitempty\" yaml:\"passwords,omitempty\""),
   (gs! "PublicKeys", gs! "json:\"public_keys,omitempty\" xml:\"public_keys,omitempty\" yaml:\"public_keys,omitempty\""),
   (gs! "APIKeys", gs! "json:\"api_keys,omitempty\" xml:\"api_keys,omitempty\" yaml:\"api_keys,omitempty\""),
   (gs! "MfaTokens", gs! "json:\"mfa_tokens,omitempty\" xml:\"mfa_tokens,omitempty\" yaml:\"mfa_tokens,omitempty\""),
   (gs! "Lockout", gs! "json:\"lockout,omitempty\" xml:\"lockout,omitempty\" yaml:\"lockout,omitempty\""),
   (gs! "Avatar", gs! "json:\"avatar,omitempty\" xml:\"avatar,omitempty\" yaml:\"avatar,omitempty\""),
   (gs! "Created", gs! "json:\"created,omitempty\" xml:\"created,omitempty\" yaml:\"created,omitempty\""),
   (gs! "LastModified", gs! "json:\"last_modified,omitempty\" xml:\"last_modified,omitempty\" yaml:\"last_modified,omitempty\""),
   (gs! "Revision", gs! "json:\"revision,omitempty\" xml:\"revision,omitempty\" yaml:\"revision,omitempty\""),
   (gs! "Roles", gs! "json:\"roles,omitempty\" xml:\"roles,omitempty\" yaml:\"roles,omitempty\"")]

/-- webauthn.go:24-36 -/
def rawWebAuthnAuthenticateRequest : List (GoString × GoString) :=
  [(gs! "ID", gs! "json:\"id,omitempty\" xml:\"id,omitempty\" yaml:\"id,omitempty\""),
   (gs! "Type", gs! "json:\"type,omitempty\" xml:\"type,omitempty\" yaml:\"type,omitempty\""),
   (gs! "AuthData", gs! "json:\"auth_data,omitempty\" xml:\"auth_data,omitempty\" yaml:\"auth_data,omitempty\""),
   (gs! "AuthDataEncoded", gs! "json:\"auth_data_encoded,omitempty\" xml:\"auth_data_encoded,omitempty\" yaml:\"auth_data_encoded,omitempty\""),
   (gs! "ClientData", gs! "json:\"client_data,omitempty\" xml:\"client_data,omitempty\" yaml:\"client_data,omitempty\""),
   (gs! "ClientDataEncoded", gs! "json:\"client_data_encoded,omitempty\" xml:\"client_data_encoded,omitempty\" yaml:\"client_data_encoded,omitempty\""),
   (gs! "Signature", gs! "json:\"signature,omitempty\" xml:\"signature,omitempty\" yaml:\"signature,omitempty\""),
   (gs! "SignatureEncoded", gs! "json:\"signature_encoded,omitempty\" xml:\"signature_encoded,omitempty\" yaml:\"signature_encoded,omitempty\""),
   (gs! "clientDataBytes", gs! ""),
   (gs! "signatureBytes", gs! ""),
   (gs! "authDataBytes", gs! "")]

/-- webauthn.go:39-47 -/
def rawWebAuthnRegisterRequest : List (GoString × GoString) :=
  [(gs! "ID", gs! "json:\"id,omitempty\" xml:\"id,omitempty\" yaml:\"id,omitempty\""),
   (gs! "Type", gs! "json:\"type,omitempty\" xml:\"type,omitempty\" yaml:\"type,omitempty\""),
   (gs! "Transports", gs! "json:\"transports,omitempty\" xml:\"transports,omitempty\" yaml:\"transports,omitempty\""),
   (gs! "Success", gs! "json:\"success,omitempty\" xml:\"success,omitempty\" yaml:\"success,omitempty\""),
   (gs! "AttestationObject", gs! "json:\"attestationObject,omitempty\" xml:\"attestationObject,omitempty\" yaml:\"attestationObject,omitempty\""),
   (gs! "ClientData", gs! "json:\"clientData,omitempty\" xml:\"clientData,omitempty\" yaml:\"clientData,omitempty\""),
   (gs! "Device", gs! "json:\"device,omitempty\" xml:\"device,omitempty\" yaml:\"device,omitempty\"")]

/-- webauthn.go:50-54 -/
def rawAttestationObject : List (GoString × GoString) :=
  [(gs! "AttestationStatement", gs! "json:\"attStmt,omitempty\" xml:\"attStmt,omitempty\" yaml:\"attStmt,omitempty\""),
   (gs! "AuthData", gs! "json:\"authData,omitempty\" xml:\"authData,omitempty\" yaml:\"authData,omitempty\""),
   (gs! "Format", gs! "json:\"fmt,omitempty\" xml:\"fmt,omitempty\" yaml:\"fmt,omitempty\"")]

/-- webauthn.go:57-66 -/
def rawAttestationStatement : List (GoString × GoString) :=
  [(gs! "Algorithm", gs! "json:\"alg,omitempty\" xml:\"alg,omitempty\" yaml:\"alg,omitempty\""),
   (gs! "Signature", gs! "json:\"sig,omitempty\" xml:\"sig,omitempty\" yaml:\"sig,omitempty\""),
   (gs! "Certificates", gs! "json:\"x5c,omitempty\" xml:\"x5c,omitempty\" yaml:\"x5c,omitempty\"")]

/-- webauthn.go:69-75 -/
def rawAuthData : List (GoString × GoString) :=
  [(gs! "RelyingPartyID", gs! "json:\"rpIdHash,omitempty\" xml:\"rpIdHash,omitempty\" yaml:\"rpIdHash,omitempty\""),
   (gs! "Flags", gs! "json:\"flags,omitempty\" xml:\"flags,omitempty\" yaml:\"flags,omitempty\""),
   (gs! "SignatureCounter", gs! "json:\"signatureCounter,omitempty\" xml:\"signatureCounter,omitempty\" yaml:\"signatureCounter,omitempty\""),
   (gs! "Extensions", gs! "json:\"extensions,omitempty\" xml:\"extensions,omitempty\" yaml:\"extensions,omitempty\""),
   (gs! "CredentialData", gs! "json:\"credentialData,omitempty\" xml:\"credentialData,omitempty\" yaml:\"credentialData,omitempty\"")]

/-- webauthn.go:80-87 -/
def rawCredentialData : List (GoString × GoString) :=
  [(gs! "AAGUID", gs! "json:\"aaguid,omitempty\" xml:\"aaguid,omitempty\" yaml:\"aaguid,omitempty\""),
   (gs! "CredentialID", gs! "json:\"credentialId,omitempty\" xml:\"credentialId,omitempty\" yaml:\"credentialId,omitempty\""),
   (gs! "PublicKey", gs! "json:\"publicKey,omitempty\" xml:\"publicKey,omitempty\" yaml:\"publicKey,omitempty\"")]

/-- webauthn.go:92-97 -/
def rawClientData : List (GoString × GoString) :=
  [(gs! "Challenge", gs! "json:\"challenge,omitempty\" xml:\"challenge,omitempty\" yaml:\"challenge,omitempty\""),
   (gs! "CrossOrigin", gs! "json:\"crossOrigin,omitempty\" xml:\"crossOrigin,omitempty\" yaml:\"crossOrigin,omitempty\""),
   (gs! "Origin", gs! "json:\"origin,omitempty\" xml:\"origin,omitempty\" yaml:\"origin,omitempty\""),
   (gs! "Type", gs! "json:\"type,omitempty\" xml:\"type,omitempty\" yaml:\"type,omitempty\"")]

/-- webauthn.go:101-104 -/
def rawDevice : List (GoString × GoString) :=
  [(gs! "Name", gs! "json:\"name,omitempty\" xml:\"name,omitempty\" yaml:\"name,omitempty\""),
   (gs! "Type", gs! "json:\"type,omitempty\" xml:\"type,omitempty\" yaml:\"type,omitempty\"")]

/-- pkg/requests/requests.go:23-35 -/
def rawReqRequest : List (GoString × GoString) :=
  [(gs! "ID", gs! "json:\"id,omitempty\" xml:\"id,omitempty\" yaml:\"id,omitempty\""),
   (gs! "Upstream", gs! "json:\"upstream,omitempty\" xml:\"upstream,omitempty\" yaml:\"upstream,omitempty\""),
   (gs! "Sandbox", gs! "json:\"sandbox,omitempty\" xml:\"sandbox,omitempty\" yaml:\"sandbox,omitempty\""),
   (gs! "User", gs! "json:\"user,omitempty\" xml:\"user,omitempty\" yaml:\"user,omitempty\""),
   (gs! "Query", gs! "json:\"query,omitempty\" xml:\"query,omitempty\" yaml:\"query,omitempty\""),
   (gs! "Key", gs! "json:\"key,omitempty\" xml:\"key,omitempty\" yaml:\"key,omitempty\""),
   (gs! "MfaToken", gs! "json:\"mfa_token,omitempty\" xml:\"mfa_token,omitempty\" yaml:\"mfa_token,omitempty\""),
   (gs! "WebAuthn", gs! "json:\"web_authn,omitempty\" xml:\"web_authn,omitempty\" yaml:\"web_authn,omitempty\""),
   (gs! "Flags", gs! "json:\"flags,omitempty\" xml:\"flags,omitempty\" yaml:\"flags,omitempty\""),
   (gs! "Response", gs! "json:\"response,omitempty\" xml:\"response,omitempty\" yaml:\"response,omitempty\""),
   (gs! "Logger", gs! "json:\"-\"")]

/-- pkg/requests/requests.go:38-49 -/
def rawReqResponse : List (GoString × GoString) :=
  [(gs! "Code", gs! "json:\"code,omitempty\" xml:\"code,omitempty\" yaml:\"code,omitempty\""),
   (gs! "RedirectURL", gs! "json:\"redirect_url,omitempty\" xml:\"redirect_url,omitempty\" yaml:\"redirect_url,omitempty\""),
   (gs! "Payload", gs! "json:\"-\""),
   (gs! "RedirectTokenName", gs! "json:\"redirect_token_name,omitempty\" xml:\"redirect_token_name,omitempty\" yaml:\"redirect_token_name,omitempty\""),
   (gs! "Authenticated", gs! "json:\"authenticated,omitempty\" xml:\"authenticated,omitempty\" yaml:\"authenticated,omitempty\""),
   (gs! "Authorized", gs! "json:\"authorized,omitempty\" xml:\"authorized,omitempty\" yaml:\"authorized,omitempty\""),
   (gs! "Workflow", gs! "json:\"workflow,omitempty\" xml:\"workflow,omitempty\" yaml:\"workflow,omitempty\""),
   (gs! "Title", gs! "json:\"title,omitempty\" xml:\"title,omitempty\" yaml:\"title,omitempty\""),
   (gs! "Message", gs! "json:\"message,omitempty\" xml:\"message,omitempty\" yaml:\"message,omitempty\"")]

/-- pkg/requests/requests.go:52-62 -/
def rawReqUpstream : List (GoString × GoString) :=
  [(gs! "Request", gs! "json:\"-\""),
   (gs! "Name", gs! "json:\"name,omitempty\" xml:\"name,omitempty\" yaml:\"name,omitempty\""),
   (gs! "SessionID", gs! "json:\"session_id,omitempty\" xml:\"session_id,omitempty\" yaml:\"session_id,omitempty\""),
   (gs! "BaseURL", gs! "json:\"base_url,omitempty\" xml:\"base_url,omitempty\" yaml:\"base_url,omitempty\""),
   (gs! "BasePath", gs! "json:\"base_path,omitempty\" xml:\"base_path,omitempty\" yaml:\"base_path,omitempty\""),
   (gs! "Method", gs! "json:\"method,omitempty\" xml:\"method,omitempty\" yaml:\"method,omitempty\""),
   (gs! "Realm", gs! "json:\"realm,omitempty\" xml:\"realm,omitempty\" yaml:\"realm,omitempty\""),
   (gs! "ContentType", gs! "json:\"content_type,omitempty\" xml:\"content_type,omitempty\" yaml:\"content_type,omitempty\""),
   (gs! "CookieNames", gs! "json:\"cookie_names,omitempty\" xml:\"cookie_names,omitempty\" yaml:\"cookie_names,omitempty\"")]

/-- pkg/requests/requests.go:65-69 -/
def rawReqSandbox : List (GoString × GoString) :=
  [(gs! "ID", gs! "json:\"id,omitempty\" xml:\"id,omitempty\" yaml:\"id,omitempty\""),
   (gs! "View", gs! "json:\"view,omitempty\" xml:\"view,omitempty\" yaml:\"view,omitempty\""),
   (gs! "Action", gs! "json:\"action,omitempty\" xml:\"action,omitempty\" yaml:\"action,omitempty\"")]

/-- pkg/requests/requests.go:72-75 -/
def rawReqQuery : List (GoString × GoString) :=
  [(gs! "ID", gs! "json:\"id,omitempty\" xml:\"id,omitempty\" yaml:\"id,omitempty\""),
   (gs! "Name", gs! "json:\"name,omitempty\" xml:\"name,omitempty\" yaml:\"name,omitempty\"")]

/-- pkg/requests/requests.go:78-87 -/
def rawReqUser : List (GoString × GoString) :=
  [(gs! "Username", gs! "json:\"username,omitempty\" xml:\"username,omitempty\" yaml:\"username,omitempty\""),
   (gs! "Email", gs! "json:\"email,omitempty\" xml:\"email,omitempty\" yaml:\"email,omitempty\""),
   (gs! "Password", gs! "json:\"password,omitempty\" xml:\"password,omitempty\" yaml:\"password,omitempty\""),
   (gs! "OldPassword", gs! "json:\"old_password,omitempty\" xml:\"old_password,omitempty\" yaml:\"old_password,omitempty\""),
   (gs! "FullName", gs! "json:\"full_name,omitempty\" xml:\"full_name,omitempty\" yaml:\"full_name,omitempty\""),
   (gs! "Roles", gs! "json:\"roles,omitempty\" xml:\"roles,omitempty\" yaml:\"roles,omitempty\""),
   (gs! "Disabled", gs! "json:\"disabled,omitempty\" xml:\"disabled,omitempty\" yaml:\"disabled,omitempty\""),
   (gs! "Challenges", gs! "json:\"challenges,omitempty\" xml:\"challenges,omitempty\" yaml:\"challenges,omitempty\"")]

/-- pkg/requests/requests.go:90-97 -/
def rawReqKey : List (GoString × GoString) :=
  [(gs! "ID", gs! "json:\"id,omitempty\" xml:\"id,omitempty\" yaml:\"id,omitempty\""),
   (gs! "Prefix", gs! "json:\"prefix,omitempty\" xml:\"prefix,omitempty\" yaml:\"prefix,omitempty\""),
   (gs! "Comment", gs! "json:\"comment,omitempty\" xml:\"comment,omitempty\" yaml:\"comment,omitempty\""),
   (gs! "Usage", gs! "json:\"usage,omitempty\" xml:\"usage,omitempty\" yaml:\"usage,omitempty\""),
   (gs! "Payload", gs! "json:\"payload,omitempty\" xml:\"payload,omitempty\" yaml:\"payload,omitempty\""),
   (gs! "Disabled", gs! "json:\"disabled,omitempty\" xml:\"disabled,omitempty\" yaml:\"disabled,omitempty\"")]

/-- pkg/requests/requests.go:100-110 -/
def rawReqMfaToken : List (GoString × GoString) :=
  [(gs! "ID", gs! "json:\"id,omitempty\" xml:\"id,omitempty\" yaml:\"id,omitempty\""),
   (gs! "Comment", gs! "json:\"comment,omitempty\" xml:\"comment,omitempty\" yaml:\"comment,omitempty\""),
   (gs! "Type", gs! "json:\"type,omitempty\" xml:\"type,omitempty\" yaml:\"type,omitempty\""),
   (gs! "Secret", gs! "json:\"secret,omitempty\" xml:\"secret,omitempty\" yaml:\"secret,omitempty\""),
   (gs! "Algorithm", gs! "json:\"algorithm,omitempty\" xml:\"algorithm,omitempty\" yaml:\"algorithm,omitempty\""),
   (gs! "Period", gs! "json:\"period,omitempty\" xml:\"period,omitempty\" yaml:\"period,omitempty\""),
   (gs! "Digits", gs! "json:\"digits,omitempty\" xml:\"digits,omitempty\" yaml:\"digits,omitempty\""),
   (gs! "Passcode", gs! "json:\"passcode,omitempty\" xml:\"passcode,omitempty\" yaml:\"passcode,omitempty\""),
   (gs! "Disabled", gs! "json:\"disabled,omitempty\" xml:\"disabled,omitempty\" yaml:\"disabled,omitempty\"")]

/-- pkg/requests/requests.go:113-117 -/
def rawReqWebAuthn : List (GoString × GoString) :=
  [(gs! "Register", gs! "json:\"register,omitempty\" xml:\"register,omitempty\" yaml:\"register,omitempty\""),
   (gs! "Challenge", gs! "json:\"challenge,omitempty\" xml:\"challenge,omitempty\" yaml:\"challenge,omitempty\""),
   (gs! "Request", gs! "json:\"request,omitempty\" xml:\"request,omitempty\" yaml:\"request,omitempty\"")]

/-- pkg/requests/requests.go:120-126 -/
def rawReqFlags : List (GoString × GoString) :=
  [(gs! "Enabled", gs! "json:\"enabled,omitempty\" xml:\"enabled,omitempty\" yaml:\"enabled,omitempty\""),
   (gs! "MfaRequired", gs! "json:\"mfa_required,omitempty\" xml:\"mfa_required,omitempty\" yaml:\"mfa_required,omitempty\""),
   (gs! "MfaConfigured", gs! "json:\"mfa_configured,omitempty\" xml:\"mfa_configured,omitempty\" yaml:\"mfa_configured,omitempty\""),
   (gs! "MfaApp", gs! "json:\"mfa_app,omitempty\" xml:\"mfa_app,omitempty\" yaml:\"mfa_app,omitempty\""),
   (gs! "MfaUniversal", gs! "json:\"mfa_universal,omitempty\" xml:\"mfa_universal,omitempty\" yaml:\"mfa_universal,omitempty\"")]

/-- pkg/qr/qr.go:26-37 -/
def rawQrCode : List (GoString × GoString) :=
  [(gs! "Type", gs! "json:\"type,omitempty\" xml:\"type,omitempty\" yaml:\"type,omitempty\""),
   (gs! "Secret", gs! "json:\"secret,omitempty\" xml:\"secret,omitempty\" yaml:\"secret,omitempty\""),
   (gs! "Algorithm", gs! "json:\"algorithm,omitempty\" xml:\"algorithm,omitempty\" yaml:\"algorithm,omitempty\""),
   (gs! "Label", gs! "json:\"label,omitempty\" xml:\"label,omitempty\" yaml:\"label,omitempty\""),
   (gs! "Issuer", gs! "json:\"issuer,omitempty\" xml:\"issuer,omitempty\" yaml:\"issuer,omitempty\""),
   (gs! "Period", gs! "json:\"period,omitempty\" xml:\"period,omitempty\" yaml:\"period,omitempty\""),
   (gs! "Digits", gs! "json:\"digits,omitempty\" xml:\"digits,omitempty\" yaml:\"digits,omitempty\""),
   (gs! "Counter", gs! "json:\"counter,omitempty\" xml:\"counter,omitempty\" yaml:\"counter,omitempty\""),
   (gs! "text", gs! ""),
   (gs! "encoded", gs! "")]

/-- All of them, with the structs they belong to. -/
def rawDeclared : List (Declared × List (GoString × GoString)) :=
  [(tAPIKeyBundle, rawAPIKeyBundle),
   (tAPIKey, rawAPIKey),
   (tCreditCard, rawCreditCard),
   (tCreditCardAssociation, rawCreditCardAssociation),
   (tCreditCardIssuer, rawCreditCardIssuer),
   (tPolicy, rawPolicy),
   (tPasswordPolicy, rawPasswordPolicy),
   (tUserPolicy, rawUserPolicy),
   (tDatabase, rawDatabase),
   (tEmailAddress, rawEmailAddress),
   (tHandle, rawHandle),
   (tImage, rawImage),
   (tLocation, rawLocation),
   (tLockoutState, rawLockoutState),
   (tMfaTokenBundle, rawMfaTokenBundle),
   (tMfaToken, rawMfaToken),
   (tMfaDevice, rawMfaDevice),
   (tName, rawName),
   (tOrganization, rawOrganization),
   (tPassword, rawPassword),
   (tPublicKeyBundle, rawPublicKeyBundle),
   (tPublicKey, rawPublicKey),
   (tRegistration, rawRegistration),
   (tRole, rawRole),
   (tUserMetadata, rawUserMetadata),
   (tUserMetadataBundle, rawUserMetadataBundle),
   (tUser, rawUser),
   (tWebAuthnAuthenticateRequest, rawWebAuthnAuthenticateRequest),
   (tWebAuthnRegisterRequest, rawWebAuthnRegisterRequest),
   (tAttestationObject, rawAttestationObject),
   (tAttestationStatement, rawAttestationStatement),
   (tAuthData, rawAuthData),
   (tCredentialData, rawCredentialData),
   (tClientData, rawClientData),
   (tDevice, rawDevice),
   (tReqRequest, rawReqRequest),
   (tReqResponse, rawReqResponse),
   (tReqUpstream, rawReqUpstream),
   (tReqSandbox, rawReqSandbox),
   (tReqQuery, rawReqQuery),
   (tReqUser, rawReqUser),
   (tReqKey, rawReqKey),
   (tReqMfaToken, rawReqMfaToken),
   (tReqWebAuthn, rawReqWebAuthn),
   (tReqFlags, rawReqFlags),
   (tQrCode, rawQrCode)]

end GoIdentity.Tag
