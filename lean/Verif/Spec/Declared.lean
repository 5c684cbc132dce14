import Verif.Model.Tag
/-!
# The structs declared in /repo

Their fields in order, with the types as reflection prints them and the tags json, xml, yaml.
-/
namespace GoIdentity.Tag

/-- A struct declaration. -/
structure Declared where
  name : GoString
  fields : List StructField

/-- A field whose three tags are given. -/
def three (name type json xml yaml : GoString) : StructField where
  name := name
  type := type
  tag t := if t = gs! "json" then json else if t = gs! "xml" then xml else if t = gs! "yaml" then yaml else []

/-- A field whose three tags are equal. -/
def same (name type value : GoString) : StructField := three name type value value value

/-- A field without tags. -/
def bare (name type : GoString) : StructField := three name type [] [] []

/-- api_key.go:25-28 -/
def tAPIKeyBundle : Declared where
  name := gs! "APIKeyBundle"
  fields :=
    [ bare (gs! "keys") (gs! "[]*identity.APIKey"),
      bare (gs! "size") (gs! "int") ]

/-- api_key.go:31-42 -/
def tAPIKey : Declared where
  name := gs! "APIKey"
  fields :=
    [ same (gs! "ID") (gs! "string") (gs! "id,omitempty"),
      same (gs! "Prefix") (gs! "string") (gs! "prefix,omitempty"),
      same (gs! "Usage") (gs! "string") (gs! "usage,omitempty"),
      same (gs! "Comment") (gs! "string") (gs! "comment,omitempty"),
      same (gs! "Payload") (gs! "string") (gs! "payload,omitempty"),
      same (gs! "Expired") (gs! "bool") (gs! "expired,omitempty"),
      same (gs! "ExpiredAt") (gs! "time.Time") (gs! "expired_at,omitempty"),
      same (gs! "CreatedAt") (gs! "time.Time") (gs! "created_at,omitempty"),
      same (gs! "Disabled") (gs! "bool") (gs! "disabled,omitempty"),
      same (gs! "DisabledAt") (gs! "time.Time") (gs! "disabled_at,omitempty") ]

/-- credit_card.go:24-31 -/
def tCreditCard : Declared where
  name := gs! "CreditCard"
  fields :=
    [ same (gs! "Number") (gs! "string") (gs! "number,omitempty"),
      same (gs! "Issuer") (gs! "*identity.CreditCardIssuer") (gs! "issuer,omitempty"),
      same (gs! "Association") (gs! "*identity.CreditCardAssociation") (gs! "association,omitempty"),
      same (gs! "Code") (gs! "string") (gs! "code,omitempty"),
      same (gs! "ExpiresAt") (gs! "time.Time") (gs! "expires_at,omitempty"),
      same (gs! "IssuedAt") (gs! "time.Time") (gs! "issued_at,omitempty") ]

/-- credit_card_association.go:63-68 -/
def tCreditCardAssociation : Declared where
  name := gs! "CreditCardAssociation"
  fields :=
    [ same (gs! "Name") (gs! "string") (gs! "name,omitempty"),
      same (gs! "Aliases") (gs! "[]string") (gs! "aliases,omitempty"),
      same (gs! "CodeName") (gs! "string") (gs! "code_name,omitempty"),
      same (gs! "CodeFormat") (gs! "string") (gs! "code_format,omitempty") ]

/-- credit_card_issuer.go:21-24 -/
def tCreditCardIssuer : Declared where
  name := gs! "CreditCardIssuer"
  fields :=
    [ same (gs! "Name") (gs! "string") (gs! "name,omitempty"),
      same (gs! "Aliases") (gs! "[]string") (gs! "aliases,omitempty") ]

/-- database.go:72-75 -/
def tPolicy : Declared where
  name := gs! "Policy"
  fields :=
    [ same (gs! "Password") (gs! "identity.PasswordPolicy") (gs! "password,omitempty"),
      same (gs! "User") (gs! "identity.UserPolicy") (gs! "user,omitempty") ]

/-- database.go:78-88 -/
def tPasswordPolicy : Declared where
  name := gs! "PasswordPolicy"
  fields :=
    [ same (gs! "KeepVersions") (gs! "int") (gs! "keep_versions"),
      same (gs! "MinLength") (gs! "int") (gs! "min_length"),
      same (gs! "MaxLength") (gs! "int") (gs! "max_length"),
      same (gs! "RequireUppercase") (gs! "bool") (gs! "require_uppercase"),
      same (gs! "RequireLowercase") (gs! "bool") (gs! "require_lowercase"),
      same (gs! "RequireNumber") (gs! "bool") (gs! "require_number"),
      same (gs! "RequireNonAlphaNumeric") (gs! "bool") (gs! "require_non_alpha_numeric"),
      same (gs! "BlockReuse") (gs! "bool") (gs! "block_reuse"),
      same (gs! "BlockPasswordChange") (gs! "bool") (gs! "block_password_change") ]

/-- database.go:91-96 -/
def tUserPolicy : Declared where
  name := gs! "UserPolicy"
  fields :=
    [ same (gs! "MinLength") (gs! "int") (gs! "min_length"),
      same (gs! "MaxLength") (gs! "int") (gs! "max_length"),
      same (gs! "AllowNonAlphaNumeric") (gs! "bool") (gs! "allow_non_alpha_numeric"),
      same (gs! "AllowUppercase") (gs! "bool") (gs! "allow_uppercase") ]

/-- database.go:99-111 -/
def tDatabase : Declared where
  name := gs! "Database"
  fields :=
    [ bare (gs! "mu") (gs! "*sync.RWMutex"),
      same (gs! "Version") (gs! "string") (gs! "version,omitempty"),
      same (gs! "Policy") (gs! "identity.Policy") (gs! "policy,omitempty"),
      same (gs! "Revision") (gs! "uint64") (gs! "revision,omitempty"),
      same (gs! "LastModified") (gs! "time.Time") (gs! "last_modified,omitempty"),
      same (gs! "Users") (gs! "[]*identity.User") (gs! "users,omitempty"),
      bare (gs! "refEmailAddress") (gs! "map[string]*identity.User"),
      bare (gs! "refUsername") (gs! "map[string]*identity.User"),
      bare (gs! "refID") (gs! "map[string]*identity.User"),
      bare (gs! "refAPIKey") (gs! "map[string]*identity.User"),
      bare (gs! "path") (gs! "string") ]

/-- email.go:34-39 -/
def tEmailAddress : Declared where
  name := gs! "EmailAddress"
  fields :=
    [ same (gs! "Address") (gs! "string") (gs! "address,omitempty"),
      same (gs! "Confirmed") (gs! "bool") (gs! "confirmed,omitempty"),
      same (gs! "Domain") (gs! "string") (gs! "domain,omitempty"),
      same (gs! "isPrimary") (gs! "bool") (gs! "is_primary,omitempty") ]

/-- handle.go:18-21 -/
def tHandle : Declared where
  name := gs! "Handle"
  fields :=
    [ same (gs! "Github") (gs! "string") (gs! "github,omitempty"),
      same (gs! "Twitter") (gs! "string") (gs! "twitter,omitempty") ]

/-- image.go:22-28 -/
def tImage : Declared where
  name := gs! "Image"
  fields :=
    [ same (gs! "Title") (gs! "string") (gs! "title,omitempty"),
      same (gs! "Body") (gs! "string") (gs! "body,omitempty"),
      same (gs! "Config") (gs! "image.Config") (gs! "config,omitempty"),
      same (gs! "Path") (gs! "string") (gs! "path,omitempty") ]

/-- location.go:18-28 -/
def tLocation : Declared where
  name := gs! "Location"
  fields :=
    [ same (gs! "Street") (gs! "string") (gs! "street,omitempty"),
      same (gs! "City") (gs! "string") (gs! "city,omitempty"),
      same (gs! "State") (gs! "string") (gs! "state,omitempty"),
      same (gs! "ZipCode") (gs! "string") (gs! "zip_code,omitempty"),
      same (gs! "Confirmed") (gs! "bool") (gs! "confirmed,omitempty"),
      same (gs! "Current") (gs! "bool") (gs! "current,omitempty"),
      same (gs! "Domicile") (gs! "bool") (gs! "domicile,omitempty"),
      same (gs! "Residential") (gs! "bool") (gs! "residential,omitempty"),
      same (gs! "Commercial") (gs! "bool") (gs! "commercial,omitempty") ]

/-- lockout.go:24-28 -/
def tLockoutState : Declared where
  name := gs! "LockoutState"
  fields :=
    [ same (gs! "Enabled") (gs! "bool") (gs! "enabled,omitempty"),
      same (gs! "StartTime") (gs! "time.Time") (gs! "start_time,omitempty"),
      same (gs! "EndTime") (gs! "time.Time") (gs! "end_time,omitempty") ]

/-- mfa_token.go:41-44 -/
def tMfaTokenBundle : Declared where
  name := gs! "MfaTokenBundle"
  fields :=
    [ bare (gs! "tokens") (gs! "[]*identity.MfaToken"),
      bare (gs! "size") (gs! "int") ]

/-- mfa_token.go:47-65 -/
def tMfaToken : Declared where
  name := gs! "MfaToken"
  fields :=
    [ same (gs! "ID") (gs! "string") (gs! "id,omitempty"),
      same (gs! "Type") (gs! "string") (gs! "type,omitempty"),
      same (gs! "Algorithm") (gs! "string") (gs! "algorithm,omitempty"),
      same (gs! "Comment") (gs! "string") (gs! "comment,omitempty"),
      same (gs! "Secret") (gs! "string") (gs! "secret,omitempty"),
      same (gs! "Period") (gs! "int") (gs! "period,omitempty"),
      same (gs! "Digits") (gs! "int") (gs! "digits,omitempty"),
      same (gs! "Expired") (gs! "bool") (gs! "expired,omitempty"),
      same (gs! "ExpiredAt") (gs! "time.Time") (gs! "expired_at,omitempty"),
      same (gs! "CreatedAt") (gs! "time.Time") (gs! "created_at,omitempty"),
      same (gs! "Disabled") (gs! "bool") (gs! "disabled,omitempty"),
      same (gs! "DisabledAt") (gs! "time.Time") (gs! "disabled_at,omitempty"),
      same (gs! "Device") (gs! "*identity.MfaDevice") (gs! "device,omitempty"),
      same (gs! "Parameters") (gs! "map[string]string") (gs! "parameters,omitempty"),
      same (gs! "Flags") (gs! "map[string]bool") (gs! "flags,omitempty"),
      same (gs! "SignatureCounter") (gs! "uint32") (gs! "signature_counter,omitempty"),
      bare (gs! "pubkey") (gs! "*ecdsa.PublicKey") ]

/-- mfa_token.go:68-72 -/
def tMfaDevice : Declared where
  name := gs! "MfaDevice"
  fields :=
    [ same (gs! "Name") (gs! "string") (gs! "name,omitempty"),
      same (gs! "Vendor") (gs! "string") (gs! "vendor,omitempty"),
      same (gs! "Type") (gs! "string") (gs! "type,omitempty") ]

/-- name.go:23-33 -/
def tName : Declared where
  name := gs! "Name"
  fields :=
    [ same (gs! "First") (gs! "string") (gs! "first,omitempty"),
      same (gs! "Last") (gs! "string") (gs! "last,omitempty"),
      same (gs! "Middle") (gs! "string") (gs! "middle,omitempty"),
      same (gs! "Preferred") (gs! "string") (gs! "preferred,omitempty"),
      same (gs! "Nickname") (gs! "bool") (gs! "nickname,omitempty"),
      same (gs! "Confirmed") (gs! "bool") (gs! "confirmed,omitempty"),
      same (gs! "Primary") (gs! "bool") (gs! "primary,omitempty"),
      same (gs! "Legal") (gs! "bool") (gs! "legal,omitempty"),
      same (gs! "Alias") (gs! "bool") (gs! "alias,omitempty") ]

/-- organization.go:18-22 -/
def tOrganization : Declared where
  name := gs! "Organization"
  fields :=
    [ same (gs! "ID") (gs! "uint64") (gs! "id,omitempty"),
      same (gs! "Name") (gs! "string") (gs! "name,omitempty"),
      same (gs! "Aliases") (gs! "[]string") (gs! "aliases,omitempty") ]

/-- password.go:26-36 -/
def tPassword : Declared where
  name := gs! "Password"
  fields :=
    [ same (gs! "Purpose") (gs! "string") (gs! "purpose,omitempty"),
      same (gs! "Algorithm") (gs! "string") (gs! "algorithm,omitempty"),
      same (gs! "Hash") (gs! "string") (gs! "hash,omitempty"),
      same (gs! "Cost") (gs! "int") (gs! "cost,omitempty"),
      same (gs! "Expired") (gs! "bool") (gs! "expired,omitempty"),
      same (gs! "ExpiredAt") (gs! "time.Time") (gs! "expired_at,omitempty"),
      same (gs! "CreatedAt") (gs! "time.Time") (gs! "created_at,omitempty"),
      same (gs! "Disabled") (gs! "bool") (gs! "disabled,omitempty"),
      same (gs! "DisabledAt") (gs! "time.Time") (gs! "disabled_at,omitempty") ]

/-- public_key.go:40-43 -/
def tPublicKeyBundle : Declared where
  name := gs! "PublicKeyBundle"
  fields :=
    [ bare (gs! "keys") (gs! "[]*identity.PublicKey"),
      bare (gs! "size") (gs! "int") ]

/-- public_key.go:46-61 -/
def tPublicKey : Declared where
  name := gs! "PublicKey"
  fields :=
    [ same (gs! "ID") (gs! "string") (gs! "id,omitempty"),
      same (gs! "Usage") (gs! "string") (gs! "usage,omitempty"),
      same (gs! "Type") (gs! "string") (gs! "type,omitempty"),
      same (gs! "Fingerprint") (gs! "string") (gs! "fingerprint,omitempty"),
      same (gs! "FingerprintMD5") (gs! "string") (gs! "fingerprint_md5,omitempty"),
      same (gs! "Comment") (gs! "string") (gs! "comment,omitempty"),
      same (gs! "Payload") (gs! "string") (gs! "payload,omitempty"),
      same (gs! "OpenSSH") (gs! "string") (gs! "openssh,omitempty"),
      same (gs! "Expired") (gs! "bool") (gs! "expired,omitempty"),
      same (gs! "ExpiredAt") (gs! "time.Time") (gs! "expired_at,omitempty"),
      same (gs! "CreatedAt") (gs! "time.Time") (gs! "created_at,omitempty"),
      same (gs! "Disabled") (gs! "bool") (gs! "disabled,omitempty"),
      same (gs! "DisabledAt") (gs! "time.Time") (gs! "disabled_at,omitempty") ]

/-- registration.go:25-29 -/
def tRegistration : Declared where
  name := gs! "Registration"
  fields :=
    [ same (gs! "User") (gs! "*identity.User") (gs! "user,omitempty"),
      same (gs! "Created") (gs! "time.Time") (gs! "created,omitempty"),
      same (gs! "Aprroved") (gs! "bool") (gs! "aprroved,omitempty") ]

/-- role.go:23-26 -/
def tRole : Declared where
  name := gs! "Role"
  fields :=
    [ same (gs! "Name") (gs! "string") (gs! "name,omitempty"),
      same (gs! "Organization") (gs! "string") (gs! "organization,omitempty") ]

/-- user.go:25-36 -/
def tUserMetadata : Declared where
  name := gs! "UserMetadata"
  fields :=
    [ same (gs! "ID") (gs! "string") (gs! "id,omitempty"),
      same (gs! "Enabled") (gs! "bool") (gs! "enabled,omitempty"),
      same (gs! "Username") (gs! "string") (gs! "username,omitempty"),
      same (gs! "Title") (gs! "string") (gs! "title,omitempty"),
      same (gs! "Name") (gs! "string") (gs! "name,omitempty"),
      same (gs! "Email") (gs! "string") (gs! "email,omitempty"),
      same (gs! "Created") (gs! "time.Time") (gs! "created,omitempty"),
      same (gs! "LastModified") (gs! "time.Time") (gs! "last_modified,omitempty"),
      same (gs! "Revision") (gs! "int") (gs! "revision,omitempty"),
      same (gs! "Avatar") (gs! "string") (gs! "avatar,omitempty") ]

/-- user.go:39-42 -/
def tUserMetadataBundle : Declared where
  name := gs! "UserMetadataBundle"
  fields :=
    [ bare (gs! "users") (gs! "[]*identity.UserMetadata"),
      bare (gs! "size") (gs! "int") ]

/-- user.go:45-68 -/
def tUser : Declared where
  name := gs! "User"
  fields :=
    [ same (gs! "ID") (gs! "string") (gs! "id,omitempty"),
      same (gs! "Enabled") (gs! "bool") (gs! "enabled,omitempty"),
      same (gs! "Human") (gs! "bool") (gs! "human,omitempty"),
      same (gs! "Username") (gs! "string") (gs! "username,omitempty"),
      same (gs! "Title") (gs! "string") (gs! "title,omitempty"),
      same (gs! "Name") (gs! "*identity.Name") (gs! "name,omitempty"),
      same (gs! "Organization") (gs! "*identity.Organization") (gs! "organization,omitempty"),
      same (gs! "Names") (gs! "[]*identity.Name") (gs! "names,omitempty"),
      same (gs! "Organizations") (gs! "[]*identity.Organization") (gs! "organizations,omitempty"),
      same (gs! "StreetAddress") (gs! "[]*identity.Location") (gs! "street_address,omitempty"),
      same (gs! "EmailAddress") (gs! "*identity.EmailAddress") (gs! "email_address,omitempty"),
      same (gs! "EmailAddresses") (gs! "[]*identity.EmailAddress") (gs! "email_addresses,omitempty"),
      same (gs! "Passwords") (gs! "[]*identity.Password") (gs! "passwords,omitempty"),
      same (gs! "PublicKeys") (gs! "[]*identity.PublicKey") (gs! "public_keys,omitempty"),
      same (gs! "APIKeys") (gs! "[]*identity.APIKey") (gs! "api_keys,omitempty"),
      same (gs! "MfaTokens") (gs! "[]*identity.MfaToken") (gs! "mfa_tokens,omitempty"),
      same (gs! "Lockout") (gs! "*identity.LockoutState") (gs! "lockout,omitempty"),
      same (gs! "Avatar") (gs! "*identity.Image") (gs! "avatar,omitempty"),
      same (gs! "Created") (gs! "time.Time") (gs! "created,omitempty"),
      same (gs! "LastModified") (gs! "time.Time") (gs! "last_modified,omitempty"),
      same (gs! "Revision") (gs! "int") (gs! "revision,omitempty"),
      same (gs! "Roles") (gs! "[]*identity.Role") (gs! "roles,omitempty") ]

/-- webauthn.go:24-36 -/
def tWebAuthnAuthenticateRequest : Declared where
  name := gs! "WebAuthnAuthenticateRequest"
  fields :=
    [ same (gs! "ID") (gs! "string") (gs! "id,omitempty"),
      same (gs! "Type") (gs! "string") (gs! "type,omitempty"),
      same (gs! "AuthData") (gs! "*identity.AuthData") (gs! "auth_data,omitempty"),
      same (gs! "AuthDataEncoded") (gs! "string") (gs! "auth_data_encoded,omitempty"),
      same (gs! "ClientData") (gs! "*identity.ClientData") (gs! "client_data,omitempty"),
      same (gs! "ClientDataEncoded") (gs! "string") (gs! "client_data_encoded,omitempty"),
      same (gs! "Signature") (gs! "string") (gs! "signature,omitempty"),
      same (gs! "SignatureEncoded") (gs! "string") (gs! "signature_encoded,omitempty"),
      bare (gs! "clientDataBytes") (gs! "[]uint8"),
      bare (gs! "signatureBytes") (gs! "[]uint8"),
      bare (gs! "authDataBytes") (gs! "[]uint8") ]

/-- webauthn.go:39-47 -/
def tWebAuthnRegisterRequest : Declared where
  name := gs! "WebAuthnRegisterRequest"
  fields :=
    [ same (gs! "ID") (gs! "string") (gs! "id,omitempty"),
      same (gs! "Type") (gs! "string") (gs! "type,omitempty"),
      same (gs! "Transports") (gs! "[]string") (gs! "transports,omitempty"),
      same (gs! "Success") (gs! "bool") (gs! "success,omitempty"),
      same (gs! "AttestationObject") (gs! "*identity.AttestationObject") (gs! "attestationObject,omitempty"),
      same (gs! "ClientData") (gs! "*identity.ClientData") (gs! "clientData,omitempty"),
      same (gs! "Device") (gs! "*identity.Device") (gs! "device,omitempty") ]

/-- webauthn.go:50-54 -/
def tAttestationObject : Declared where
  name := gs! "AttestationObject"
  fields :=
    [ same (gs! "AttestationStatement") (gs! "*identity.AttestationStatement") (gs! "attStmt,omitempty"),
      same (gs! "AuthData") (gs! "*identity.AuthData") (gs! "authData,omitempty"),
      same (gs! "Format") (gs! "string") (gs! "fmt,omitempty") ]

/-- webauthn.go:57-66 -/
def tAttestationStatement : Declared where
  name := gs! "AttestationStatement"
  fields :=
    [ same (gs! "Algorithm") (gs! "int64") (gs! "alg,omitempty"),
      same (gs! "Signature") (gs! "string") (gs! "sig,omitempty"),
      same (gs! "Certificates") (gs! "[]string") (gs! "x5c,omitempty") ]

/-- webauthn.go:69-75 -/
def tAuthData : Declared where
  name := gs! "AuthData"
  fields :=
    [ same (gs! "RelyingPartyID") (gs! "string") (gs! "rpIdHash,omitempty"),
      same (gs! "Flags") (gs! "map[string]bool") (gs! "flags,omitempty"),
      same (gs! "SignatureCounter") (gs! "uint32") (gs! "signatureCounter,omitempty"),
      same (gs! "Extensions") (gs! "interface {}") (gs! "extensions,omitempty"),
      same (gs! "CredentialData") (gs! "*identity.CredentialData") (gs! "credentialData,omitempty") ]

/-- webauthn.go:80-87 -/
def tCredentialData : Declared where
  name := gs! "CredentialData"
  fields :=
    [ same (gs! "AAGUID") (gs! "string") (gs! "aaguid,omitempty"),
      same (gs! "CredentialID") (gs! "string") (gs! "credentialId,omitempty"),
      same (gs! "PublicKey") (gs! "map[string]interface {}") (gs! "publicKey,omitempty") ]

/-- webauthn.go:92-97 -/
def tClientData : Declared where
  name := gs! "ClientData"
  fields :=
    [ same (gs! "Challenge") (gs! "string") (gs! "challenge,omitempty"),
      same (gs! "CrossOrigin") (gs! "bool") (gs! "crossOrigin,omitempty"),
      same (gs! "Origin") (gs! "string") (gs! "origin,omitempty"),
      same (gs! "Type") (gs! "string") (gs! "type,omitempty") ]

/-- webauthn.go:101-104 -/
def tDevice : Declared where
  name := gs! "Device"
  fields :=
    [ same (gs! "Name") (gs! "string") (gs! "name,omitempty"),
      same (gs! "Type") (gs! "string") (gs! "type,omitempty") ]

/-- pkg/requests/requests.go:23-35 -/
def tReqRequest : Declared where
  name := gs! "Request"
  fields :=
    [ same (gs! "ID") (gs! "string") (gs! "id,omitempty"),
      same (gs! "Upstream") (gs! "requests.Upstream") (gs! "upstream,omitempty"),
      same (gs! "Sandbox") (gs! "requests.Sandbox") (gs! "sandbox,omitempty"),
      same (gs! "User") (gs! "requests.User") (gs! "user,omitempty"),
      same (gs! "Query") (gs! "requests.Query") (gs! "query,omitempty"),
      same (gs! "Key") (gs! "requests.Key") (gs! "key,omitempty"),
      same (gs! "MfaToken") (gs! "requests.MfaToken") (gs! "mfa_token,omitempty"),
      same (gs! "WebAuthn") (gs! "requests.WebAuthn") (gs! "web_authn,omitempty"),
      same (gs! "Flags") (gs! "requests.Flags") (gs! "flags,omitempty"),
      same (gs! "Response") (gs! "requests.Response") (gs! "response,omitempty"),
      three (gs! "Logger") (gs! "*zap.Logger") (gs! "-") (gs! "") (gs! "") ]

/-- pkg/requests/requests.go:38-49 -/
def tReqResponse : Declared where
  name := gs! "Response"
  fields :=
    [ same (gs! "Code") (gs! "int") (gs! "code,omitempty"),
      same (gs! "RedirectURL") (gs! "string") (gs! "redirect_url,omitempty"),
      three (gs! "Payload") (gs! "interface {}") (gs! "-") (gs! "") (gs! ""),
      same (gs! "RedirectTokenName") (gs! "string") (gs! "redirect_token_name,omitempty"),
      same (gs! "Authenticated") (gs! "bool") (gs! "authenticated,omitempty"),
      same (gs! "Authorized") (gs! "bool") (gs! "authorized,omitempty"),
      same (gs! "Workflow") (gs! "string") (gs! "workflow,omitempty"),
      same (gs! "Title") (gs! "string") (gs! "title,omitempty"),
      same (gs! "Message") (gs! "string") (gs! "message,omitempty") ]

/-- pkg/requests/requests.go:52-62 -/
def tReqUpstream : Declared where
  name := gs! "Upstream"
  fields :=
    [ three (gs! "Request") (gs! "*http.Request") (gs! "-") (gs! "") (gs! ""),
      same (gs! "Name") (gs! "string") (gs! "name,omitempty"),
      same (gs! "SessionID") (gs! "string") (gs! "session_id,omitempty"),
      same (gs! "BaseURL") (gs! "string") (gs! "base_url,omitempty"),
      same (gs! "BasePath") (gs! "string") (gs! "base_path,omitempty"),
      same (gs! "Method") (gs! "string") (gs! "method,omitempty"),
      same (gs! "Realm") (gs! "string") (gs! "realm,omitempty"),
      same (gs! "ContentType") (gs! "string") (gs! "content_type,omitempty"),
      same (gs! "CookieNames") (gs! "[]string") (gs! "cookie_names,omitempty") ]

/-- pkg/requests/requests.go:65-69 -/
def tReqSandbox : Declared where
  name := gs! "Sandbox"
  fields :=
    [ same (gs! "ID") (gs! "string") (gs! "id,omitempty"),
      same (gs! "View") (gs! "string") (gs! "view,omitempty"),
      same (gs! "Action") (gs! "string") (gs! "action,omitempty") ]

/-- pkg/requests/requests.go:72-75 -/
def tReqQuery : Declared where
  name := gs! "Query"
  fields :=
    [ same (gs! "ID") (gs! "string") (gs! "id,omitempty"),
      same (gs! "Name") (gs! "string") (gs! "name,omitempty") ]

/-- pkg/requests/requests.go:78-87 -/
def tReqUser : Declared where
  name := gs! "User"
  fields :=
    [ same (gs! "Username") (gs! "string") (gs! "username,omitempty"),
      same (gs! "Email") (gs! "string") (gs! "email,omitempty"),
      same (gs! "Password") (gs! "string") (gs! "password,omitempty"),
      same (gs! "OldPassword") (gs! "string") (gs! "old_password,omitempty"),
      same (gs! "FullName") (gs! "string") (gs! "full_name,omitempty"),
      same (gs! "Roles") (gs! "[]string") (gs! "roles,omitempty"),
      same (gs! "Disabled") (gs! "bool") (gs! "disabled,omitempty"),
      same (gs! "Challenges") (gs! "[]string") (gs! "challenges,omitempty") ]

/-- pkg/requests/requests.go:90-97 -/
def tReqKey : Declared where
  name := gs! "Key"
  fields :=
    [ same (gs! "ID") (gs! "string") (gs! "id,omitempty"),
      same (gs! "Prefix") (gs! "string") (gs! "prefix,omitempty"),
      same (gs! "Comment") (gs! "string") (gs! "comment,omitempty"),
      same (gs! "Usage") (gs! "string") (gs! "usage,omitempty"),
      same (gs! "Payload") (gs! "string") (gs! "payload,omitempty"),
      same (gs! "Disabled") (gs! "bool") (gs! "disabled,omitempty") ]

/-- pkg/requests/requests.go:100-110 -/
def tReqMfaToken : Declared where
  name := gs! "MfaToken"
  fields :=
    [ same (gs! "ID") (gs! "string") (gs! "id,omitempty"),
      same (gs! "Comment") (gs! "string") (gs! "comment,omitempty"),
      same (gs! "Type") (gs! "string") (gs! "type,omitempty"),
      same (gs! "Secret") (gs! "string") (gs! "secret,omitempty"),
      same (gs! "Algorithm") (gs! "string") (gs! "algorithm,omitempty"),
      same (gs! "Period") (gs! "int") (gs! "period,omitempty"),
      same (gs! "Digits") (gs! "int") (gs! "digits,omitempty"),
      same (gs! "Passcode") (gs! "string") (gs! "passcode,omitempty"),
      same (gs! "Disabled") (gs! "bool") (gs! "disabled,omitempty") ]

/-- pkg/requests/requests.go:113-117 -/
def tReqWebAuthn : Declared where
  name := gs! "WebAuthn"
  fields :=
    [ same (gs! "Register") (gs! "string") (gs! "register,omitempty"),
      same (gs! "Challenge") (gs! "string") (gs! "challenge,omitempty"),
      same (gs! "Request") (gs! "string") (gs! "request,omitempty") ]

/-- pkg/requests/requests.go:120-126 -/
def tReqFlags : Declared where
  name := gs! "Flags"
  fields :=
    [ same (gs! "Enabled") (gs! "bool") (gs! "enabled,omitempty"),
      same (gs! "MfaRequired") (gs! "bool") (gs! "mfa_required,omitempty"),
      same (gs! "MfaConfigured") (gs! "bool") (gs! "mfa_configured,omitempty"),
      same (gs! "MfaApp") (gs! "bool") (gs! "mfa_app,omitempty"),
      same (gs! "MfaUniversal") (gs! "bool") (gs! "mfa_universal,omitempty") ]

/-- pkg/qr/qr.go:26-37 -/
def tQrCode : Declared where
  name := gs! "Code"
  fields :=
    [ same (gs! "Type") (gs! "string") (gs! "type,omitempty"),
      same (gs! "Secret") (gs! "string") (gs! "secret,omitempty"),
      same (gs! "Algorithm") (gs! "string") (gs! "algorithm,omitempty"),
      same (gs! "Label") (gs! "string") (gs! "label,omitempty"),
      same (gs! "Issuer") (gs! "string") (gs! "issuer,omitempty"),
      same (gs! "Period") (gs! "int") (gs! "period,omitempty"),
      same (gs! "Digits") (gs! "int") (gs! "digits,omitempty"),
      same (gs! "Counter") (gs! "int") (gs! "counter,omitempty"),
      bare (gs! "text") (gs! "string"),
      bare (gs! "encoded") (gs! "string") ]

/-- All of them, with the options the test suite checks them under (internal/tag/tag_test.go:30-265). -/
def declared : List (Declared × Options) :=
  [(tAPIKeyBundle, {}),
   (tAPIKey, {}),
   (tCreditCard, {}),
   (tCreditCardAssociation, {}),
   (tCreditCardIssuer, {}),
   (tPolicy, {}),
   (tPasswordPolicy, { disableTagOnEmpty := true }),
   (tUserPolicy, { disableTagOnEmpty := true }),
   (tDatabase, {}),
   (tEmailAddress, {}),
   (tHandle, {}),
   (tImage, {}),
   (tLocation, {}),
   (tLockoutState, {}),
   (tMfaTokenBundle, {}),
   (tMfaToken, {}),
   (tMfaDevice, {}),
   (tName, {}),
   (tOrganization, {}),
   (tPassword, {}),
   (tPublicKeyBundle, {}),
   (tPublicKey, {}),
   (tRegistration, {}),
   (tRole, {}),
   (tUserMetadata, {}),
   (tUserMetadataBundle, {}),
   (tUser, {}),
   (tWebAuthnAuthenticateRequest, {}),
   (tWebAuthnRegisterRequest, { disableTagMismatch := true }),
   (tAttestationObject, { disableTagMismatch := true }),
   (tAttestationStatement, { disableTagMismatch := true }),
   (tAuthData, { disableTagMismatch := true }),
   (tCredentialData, { disableTagMismatch := true }),
   (tClientData, { disableTagMismatch := true }),
   (tDevice, {}),
   (tReqRequest, {}),
   (tReqResponse, {}),
   (tReqUpstream, {}),
   (tReqSandbox, {}),
   (tReqQuery, {}),
   (tReqUser, {}),
   (tReqKey, {}),
   (tReqMfaToken, {}),
   (tReqWebAuthn, {}),
   (tReqFlags, {}),
   (tQrCode, {})]

end GoIdentity.Tag
