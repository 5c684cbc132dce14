{"id": "C01", "title": "Usernames are unique, ignoring case", "statement": "After any sequence of Database calls on a database opened with NewDatabase, no two distinct stored users have usernames that are equal after strings.ToLower; an AddUser whose lower-cased username is already taken returns an error and stores nothing.", "quantifier": "every database file that NewDatabase accepts (or no file), every sequence of API calls with every request content, every clock/random/IO outcome", "why_tests_cant": "A test can only run finitely many histories; the claim is an invariant over all histories and all start files.", "anchors": ["database.go:NewDatabase", "database.go:AddUser", "README.md"]}
{"id": "C02", "title": "Email addresses are unique across the database, ignoring case", "statement": "After any sequence of Database calls, one lower-cased email address belongs to at most one stored user, and to that user at most once; AddUser with a taken address returns an error and stores nothing.", "quantifier": "every accepted start file, every call history, every outcome of clock/random/IO", "why_tests_cant": "Invariant over all histories.", "anchors": ["database.go:NewDatabase", "database.go:AddUser", "email.go:NewEmailAddress", "README.md"]}
{"id": "C03", "title": "User IDs are unique", "statement": "In every history in which each AddUser draws at least one unused UUID among its ten attempts, no two stored users share an ID. (Without that premise the tenth collision is silently ignored, and if the ID drawn by NewUser is in use too, a duplicate is stored; C97 counts how rare that is.)", "quantifier": "every accepted start file, every history, every sequence of generated UUIDs", "why_tests_cant": "Depends on ten consecutive random collisions, which no test can provoke.", "anchors": ["database.go:AddUser", "database.go:NewDatabase", "uuid.go:NewID", "README.md"]}
{"id": "C04", "title": "Lookups resolve to exactly the user that owns the name or address", "statement": "In every reachable database an identifier without '@' resolves (AuthenticateUser, IdentifyUser) to a user iff it is at least 2 bytes long and equals, after lower-casing, that user's lower-cased username; an identifier containing '@' resolves iff it is at least 6 bytes long and equals, after lower-casing, one of that user's lower-cased email addresses. The in-memory indexes never disagree with the stored user list.", "quantifier": "every reachable database and every identifier byte string", "why_tests_cant": "Index/list agreement is an invariant over all histories.", "anchors": ["database.go:getUser", "database.go:getUserByUsername", "database.go:getUserByEmailAddress", "database.go:AuthenticateUser", "database.go:IdentifyUser"]}
{"id": "C05", "title": "A user just added is found under any case variant of its username and email", "statement": "After a successful AddUser, AuthenticateUser/IdentifyUser and the username+email identity check resolve the new user's username (at least 2 bytes, for AuthenticateUser and IdentifyUser free of '@') and email (at least 6 bytes), in any letter case, to that user, for the rest of the history. For ASCII texts this means: same length, and equal up to the case of the letters A to Z. Other characters are lowered one by one, as Unicode says.", "quantifier": "every reachable database, every accepted AddUser request, every later call sequence", "why_tests_cant": "Needs every later history.", "anchors": ["database.go:AddUser", "database.go:validateUserIdentity", "database.go:getUser"]}
{"id": "C06", "title": "A successful AddUser appends exactly one user with the requested attributes", "statement": "If AddUser returns nil, GetUserCount grows by one, all previously stored users are unchanged and in the same order, and the new last user has the requested username and email, exactly one enabled password, the requested roles (duplicates collapsed, order kept) and the parsed name.", "quantifier": "every reachable database, every request", "why_tests_cant": "Universally quantified over request contents and database states.", "anchors": ["database.go:AddUser", "user.go:NewUserWithRoles"]}
{"id": "C07", "title": "A rejected call changes nothing", "statement": "If a mutating call fails for any reason other than a failed file write, neither the stored users, nor the lookup results, nor the revision, nor any file changes. A mutating call changes the database exactly if it returns nil or an error wrapping ErrDatabaseCommit.", "quantifier": "every reachable database, every mutating call, every request that is rejected before the commit step", "why_tests_cant": "There are unboundedly many rejection reasons/states; tests sample a few.", "anchors": ["database.go:AddUser", "database.go:AddPublicKey", "database.go:DeletePublicKey", "database.go:AddAPIKey", "database.go:DeleteAPIKey", "database.go:ChangeUserPassword", "database.go:AddMfaToken", "database.go:DeleteMfaToken"]}
{"id": "C08", "title": "Account calls act only when username and email name the same user", "statement": "AddPublicKey, GetPublicKeys, DeletePublicKey, AddAPIKey, GetAPIKeys, DeleteAPIKey, ChangeUserPassword, AddMfaToken, GetMfaTokens, DeleteMfaToken, GetUser, GetUsers and DeleteUser succeed only if the request's username and email both resolve and resolve to one and the same stored user; otherwise they return an error without effect.", "quantifier": "every reachable database whose users were added with unused UUIDs (C03), every request", "why_tests_cant": "All states and all username/email pairs.", "anchors": ["database.go:validateUserIdentity"]}
{"id": "C09", "title": "Calls made for one user never touch another user", "statement": "A call whose request resolves to user A leaves every other stored user's record (passwords, keys, tokens, roles, names, revision, timestamps) identical.", "quantifier": "every reachable database, every call, every user other than the addressed one", "why_tests_cant": "Frame property over all states and calls.", "anchors": ["database.go", "user.go"]}
{"id": "C10", "title": "Users are never lost", "statement": "No call removes a user or changes a stored user's ID, username, email addresses, names, roles or creation time; GetUserCount never decreases, and DeleteUser always returns an error and changes nothing.", "quantifier": "every history", "why_tests_cant": "Holds along every history.", "anchors": ["database.go:DeleteUser", "database.go:GetUserCount", "README.md"]}
{"id": "C11", "title": "Password authentication is sound", "statement": "AuthenticateUser with a non-empty password returns nil only if the identifier resolves to a stored user and one of that user's passwords that is neither disabled nor expired matches the given password under bcrypt; in every other case it returns an error and code 400.", "quantifier": "every reachable database, identifier and password", "why_tests_cant": "Universal over all credentials.", "anchors": ["database.go:AuthenticateUser", "user.go:VerifyPassword", "password.go:Match"]}
{"id": "C12", "title": "Registered password works", "statement": "After a successful AddUser with password p, AuthenticateUser with that username (free of '@') or e-mail address accepts exactly the passwords whose bcrypt digest, under the salt drawn then, is that of p without surrounding whitespace, for the rest of any history without password changes for that user. So p itself works if it has no surrounding whitespace, and otherwise does not (barring a digest collision): hashing trims whitespace but verification does not.", "quantifier": "every reachable database, every accepted request, every later history without a password change for the user", "why_tests_cant": "Quantifies over all passwords and later histories.", "anchors": ["database.go:AddUser", "database.go:AuthenticateUser", "password.go:hash", "password.go:Match"]}
{"id": "C13", "title": "Changing a password revokes the old one", "statement": "ChangeUserPassword succeeds only if the supplied old password currently verifies; after success exactly those passwords authenticate that have the bcrypt digest of the new (trimmed) password, so the new one does, and no password that bcrypt's key schedule distinguishes from it does (barring a digest collision), including the old one and every earlier one.", "quantifier": "every reachable database, every request, every candidate password", "why_tests_cant": "All candidate passwords.", "anchors": ["database.go:ChangeUserPassword", "user.go:ChangePassword", "user.go:AddPassword", "user.go:VerifyPassword"]}
{"id": "C14", "title": "At most one password is active", "statement": "In every history that starts from an empty database each user always has exactly one password that is not disabled, and it is the most recent one.", "quantifier": "every history", "why_tests_cant": "Invariant over all histories.", "anchors": ["user.go:AddPassword", "password.go:Disable"]}
{"id": "C15", "title": "Password history is bounded by policy", "statement": "A user never holds more than a bound fixed by the policy: after a change with KeepVersions k >= 1 at most k+3 passwords are kept (12 when k < 1), and the most recent ones are the ones kept. The advertised bound k does not hold.", "quantifier": "every history of password changes, every KeepVersions", "why_tests_cant": "All lengths of history.", "anchors": ["user.go:AddPassword", "database.go:ChangeUserPassword", "database.go:PasswordPolicy"]}
{"id": "C16", "title": "Only the registered password is accepted (bcrypt key schedule)", "statement": "Barring digest collisions, a stored password hash of p accepts q iff p and q agree on their first 72 bytes, for NUL-free p and q; in particular for passwords of at most 71 bytes only p itself is accepted. Bytes after the 60 characters of a stored hash are ignored, and exactly the texts of one form (version up to 2, cost 4 to 31, 22 characters of salt in bcrypt's base64, 31 of digest; two characters are not looked at) accept a password at all: any other stored hash accepts nothing.", "quantifier": "all NUL-free byte strings p and q", "why_tests_cant": "Infinite input space.", "anchors": ["password.go:hash", "password.go:Match", "api_key.go:Match"]}
{"id": "C17", "title": "Password hashing rejects blank passwords and unknown algorithms", "statement": "NewPasswordWithOptions returns an error exactly when the trimmed password is empty, the algorithm is not bcrypt, or bcrypt itself fails (cost above 31 or no entropy); otherwise the result is enabled, unexpired, carries the purpose and algorithm, and has a cost of 10 or the requested cost when that is at least 8. A cost parameter that is not an int makes it panic.", "quantifier": "all passwords, purposes, algorithms and costs", "why_tests_cant": "Infinite input space.", "anchors": ["password.go:NewPasswordWithOptions", "password.go:hash"]}
{"id": "C18", "title": "An issued API key identifies its owner", "statement": "After AddAPIKey returns nil, LookupAPIKey with the returned secret returns nil and the owner's username and primary email, for the rest of any history in which that key is not deleted.", "quantifier": "every reachable database, every issued key, every later history that does not delete it", "why_tests_cant": "All later histories.", "anchors": ["database.go:AddAPIKey", "database.go:LookupAPIKey", "user.go:LookupAPIKey"]}
{"id": "C19", "title": "API key lookup is sound", "statement": "LookupAPIKey returns nil only if the payload is at least 72 bytes long and some stored user owns an API key whose 24-byte prefix equals the payload's and whose hash accepts the payload; the username and email it reports are that user's. It never changes the database.", "quantifier": "every reachable database, every payload", "why_tests_cant": "All payloads.", "anchors": ["database.go:LookupAPIKey", "user.go:LookupAPIKey", "api_key.go:Match"]}
{"id": "C20", "title": "A deleted API key stops working", "statement": "After DeleteAPIKey returns nil, the removed key's prefix is unknown and LookupAPIKey fails for every payload with that prefix, until a new key with the same prefix is issued; other keys are unaffected.", "quantifier": "every reachable database in which key IDs are distinct, every later lookup", "why_tests_cant": "All payloads and later histories.", "anchors": ["database.go:DeleteAPIKey", "user.go:DeleteAPIKey", "database.go:LookupAPIKey"]}
{"id": "C21", "title": "Disabled API keys", "statement": "A disabled API key should not authenticate. (The code violates this: AddAPIKey with Disabled set hides the key from GetAPIKeys but LookupAPIKey still accepts it.)", "quantifier": "every reachable database and disabled key", "why_tests_cant": "Universal claim about all disabled keys; its failure is a concrete reachable history.", "anchors": ["api_key.go:NewAPIKey", "user.go:LookupAPIKey", "database.go:GetAPIKeys"]}
{"id": "C22", "title": "API key prefixes are unique across the database", "statement": "In every history no two API keys stored in the database share a prefix, and the prefix index maps each stored key's prefix to its owner.", "quantifier": "every history with distinct key IDs", "why_tests_cant": "Invariant over all histories.", "anchors": ["database.go:AddAPIKey", "database.go:DeleteAPIKey", "database.go:NewDatabase"]}
{"id": "C23", "title": "AddAPIKey terminates", "statement": "AddAPIKey returns for every request in every reachable database. (The code violates this: when the drawn secret's prefix is in use the retry loop never draws a new secret and spins while holding the lock. It does return whenever the drawn prefix is unused, within 12 hash attempts.)", "quantifier": "every reachable database, every random draw, every entropy failure pattern", "why_tests_cant": "Needs a random collision; non-termination cannot be observed by a test.", "anchors": ["database.go:AddAPIKey"]}
{"id": "C24", "title": "Generated secrets have the promised shape", "statement": "GetRandomString(n) has n characters (40 if n < 1), GetRandomStringFromRange(a,b) with a != b has a length in [min, max), every character is ASCII alphanumeric; API secrets therefore have 72..95 characters, are not shortened by hashing and always pass LookupAPIKey's length check.", "quantifier": "every random draw and every length", "why_tests_cant": "All random outcomes.", "anchors": ["random.go:GetRandomString", "random.go:GetRandomStringFromRange", "random.go:gen", "uuid.go:NewRandomString"]}
{"id": "C25", "title": "Key and token listings are exact", "statement": "GetPublicKeys and GetAPIKeys return, in stored order, exactly the addressed user's keys with the requested usage that are not disabled; GetMfaTokens returns exactly the tokens that are not disabled; each bundle's Size equals the number of items.", "quantifier": "every reachable database and request", "why_tests_cant": "All states.", "anchors": ["database.go:GetPublicKeys", "database.go:GetAPIKeys", "database.go:GetMfaTokens", "public_key.go:PublicKeyBundle", "api_key.go:APIKeyBundle", "mfa_token.go:MfaTokenBundle"]}
{"id": "C26", "title": "Public keys behave like a set keyed by type and fingerprint", "statement": "In every history no user holds two public keys with equal type and fingerprint; AddPublicKey succeeds only for a new pair and appends exactly one key; DeletePublicKey removes exactly the keys with the given ID and fails without effect when there is none.", "quantifier": "every history from a database with the property, every request", "why_tests_cant": "Invariant over all histories.", "anchors": ["user.go:AddPublicKey", "user.go:DeletePublicKey", "public_key.go:NewPublicKey"]}
{"id": "C27", "title": "Public key acceptance rules", "statement": "NewPublicKey accepts only usage ssh or gpg and a non-empty payload of a recognised form; a PEM RSA payload is accepted only with usage ssh. The same RSA key given once as PEM and once as an OpenSSH line yields different fingerprints, so it is not recognised as a duplicate.", "quantifier": "every payload, usage and library behaviour", "why_tests_cant": "All payloads.", "anchors": ["public_key.go:parse", "public_key.go:parsePublicKeyRSA", "public_key.go:parsePublicKeyOpenSSH", "public_key.go:parsePublicKeyPGP"]}
{"id": "C28", "title": "MFA tokens of a user have distinct secrets and comments", "statement": "In every history from an empty database, no user has two MFA tokens with the same secret or the same comment; AddMfaToken rejects such a token without effect; DeleteMfaToken removes exactly the tokens with the given ID.", "quantifier": "every history", "why_tests_cant": "Invariant over all histories.", "anchors": ["user.go:AddMfaToken", "user.go:DeleteMfaToken", "database.go:AddMfaToken"]}
{"id": "C29", "title": "TOTP codes follow RFC 4226 truncation", "statement": "For every secret, counter and supported algorithm the generated code has exactly `digits` decimal digits (4..8) and its value is the 31-bit big-endian integer at the dynamic offset of the HMAC modulo 10^digits; no index is out of range and no arithmetic overflows. Codes depend on the secret only through its HMAC key: trailing zero bytes within a block do not matter, and a secret longer than a block has the codes of its hash.", "quantifier": "all HMAC outputs, counters, digits 4..8", "why_tests_cant": "Infinite input space.", "anchors": ["mfa_token.go:generateMfaCode"]}
{"id": "C30", "title": "TOTP validation window", "statement": "ValidateCodeWithTime accepts a passcode iff, after trimming, its length is the token's digit count (4..8) and it equals the code of the time step of ts, the next one or the previous one (in the first step, whose predecessor is counter 2^64-1, see the theorems); nothing else is accepted.", "quantifier": "all tokens with positive period and known algorithm, all codes, all non-negative times", "why_tests_cant": "Infinite input space.", "anchors": ["mfa_token.go:ValidateCodeWithTime", "mfa_token.go:ValidateCode"]}
{"id": "C31", "title": "TOTP enrolment", "statement": "NewMfaToken of type totp succeeds only with algorithm sha1/sha256/sha512 (empty means sha1, case ignored), period 30..300, digits 4..8 (0 means 6) and a passcode valid for the current time step or one of the two before it; the resulting token carries exactly these parameters.", "quantifier": "all requests and times from ten minutes after the epoch", "why_tests_cant": "Infinite input space.", "anchors": ["mfa_token.go:NewMfaToken"]}
{"id": "C32", "title": "Floating-point step computation is exact", "statement": "The time step floor(float64(t)/float64(period)) equals the integer quotient t/period for every time 0 <= t < 2^53 and every period from 1 to 2^53, for every division that rounds to a nearest binary64 number, however ties are broken.", "quantifier": "all times and periods in range, every such rounding", "why_tests_cant": "The range cannot be enumerated.", "anchors": ["mfa_token.go:ValidateCodeWithTime"]}
{"id": "C33", "title": "WebAuthn authentication is sound", "statement": "AuthenticateUser with an empty password and a WebAuthn request returns nil only if the addressed user has an enabled u2f token with the request's credential id and ES256 key type, the client data has type webauthn.get, is not cross-origin and carries the expected challenge, the authenticator data carries the registered rpIdHash and the user-present bit, and the signature verifies under the registered key over authData || SHA-256(clientData).", "quantifier": "every reachable database, every request, every signature oracle", "why_tests_cant": "All requests.", "anchors": ["user.go:VerifyWebAuthnRequest", "mfa_token.go:WebAuthnRequest", "webauthn.go:unpackWebAuthnRequest"]}
{"id": "C34", "title": "Authenticator data decoding", "statement": "Authenticator data is rejected iff shorter than 37 bytes; otherwise the rpIdHash is the lower-case hex of the first 32 bytes, each of the eight flags is the corresponding bit of byte 32, and the counter is the big-endian value of bytes 33..36.", "quantifier": "all byte strings", "why_tests_cant": "Infinite input space.", "anchors": ["mfa_token.go:unpackAuthData"]}
{"id": "C35", "title": "WebAuthn registration", "statement": "NewMfaToken of type u2f yields a token only from a registration with non-empty id, type public-key, known transports, rpIdHash, flags and an EC2/ES256 key (curve absent or P-256); it stores the challenge as secret, the id, coordinates and counter verbatim. A public key field of the wrong JSON type panics.", "quantifier": "all registration documents", "why_tests_cant": "All documents.", "anchors": ["mfa_token.go:NewMfaToken", "webauthn.go:WebAuthnRegisterRequest"]}
{"id": "C36", "title": "Roles parse and print consistently", "statement": "NewRole fails exactly on blank input; for every accepted input whose trimmed form has no leading '/', printing the role gives the trimmed input and parsing that gives the same role; a role with a non-empty, '/'-free organisation and parts that survive trimming parses back to itself, and such roles print differently when they differ. With a leading '/' printing loses the slash, so the printed form names another role (or none).", "quantifier": "all byte strings", "why_tests_cant": "Infinite input space.", "anchors": ["role.go:NewRole", "role.go:String"]}
{"id": "C37", "title": "A user's roles form a set in insertion order", "statement": "AddRole adds a role iff it is not already held (same name and organisation), keeps the order, and reports an error only for blank input; HasRole(s) is true iff the parsed role is held; AddRoles appends the new ones in the order given; no sequence of AddRole/AddRoles calls creates duplicates.", "quantifier": "all sequences of role strings", "why_tests_cant": "All sequences.", "anchors": ["user.go:AddRole", "user.go:AddRoles", "user.go:HasRole", "user.go:GetRolesClaim"]}
{"id": "C38", "title": "Names parse as documented", "statement": "ParseName accepts exactly the inputs with one comma ('Last, First') or, failing that, exactly one space ('First Last'), trimming both parts; GetFullName of a parsed name with non-empty trimmed comma-free parts is 'Last, First', and parsing that again returns the same name.", "quantifier": "all byte strings", "why_tests_cant": "Infinite input space.", "anchors": ["name.go:ParseName", "name.go:GetFullName"]}
{"id": "C39", "title": "Email syntax", "statement": "NewEmailAddress accepts exactly the language of its regular expression: a non-empty local part of permitted characters, one '@', and dot-separated labels of 1..63 alphanumeric or inner-hyphen characters; the stored address is the input, the domain is the part after '@', and the address contains exactly one '@'.", "quantifier": "all byte strings", "why_tests_cant": "Infinite input space.", "anchors": ["email.go:NewEmailAddress", "email.go:init"]}
{"id": "C40", "title": "Default policy enforcement", "statement": "Opening a database fills each zero policy limit with its default and changes no non-zero value; doing it twice is the same as once, it reports a change iff some limit was zero, and afterwards no limit is zero.", "quantifier": "all stored policies", "why_tests_cant": "All integer values.", "anchors": ["database.go:enforceDefaultPolicy", "database.go:NewDatabase"]}
{"id": "C41", "title": "Length policy is enforced", "statement": "AddUser and ChangeUserPassword never store a password whose given form is shorter or longer (in bytes) than the policy in force, and AddUser never stores a username outside the policy length. The Require*/Allow* character flags and BlockReuse are not enforced.", "quantifier": "all policies and requests", "why_tests_cant": "All policies and inputs.", "anchors": ["database.go:checkPolicyCompliance", "database.go:AddUser", "database.go:ChangeUserPassword"]}
{"id": "C42", "title": "Published username pattern is accepted by the policy check", "statement": "Every username matching the regular expression returned by GetUsernamePolicyRegex passes the length policy (when MinLength >= 1 and MaxLength >= 1); the converse fails. The published password pattern counts characters while enforcement counts bytes; for ASCII passwords without line breaks both agree when no Require* flag is set.", "quantifier": "all policies and usernames", "why_tests_cant": "All strings and policies.", "anchors": ["database.go:GetUsernamePolicyRegex", "database.go:GetPasswordPolicyRegex", "database.go:checkUserPolicyCompliance"]}
{"id": "C43", "title": "Read-only calls change nothing", "statement": "GetUsers, GetUser, GetPublicKeys, GetAPIKeys, GetMfaTokens, AuthenticateUser, IdentifyUser, LookupAPIKey, GetUserCount, GetPath and the policy getters leave all users, indexes, revision and files unchanged.", "quantifier": "every database state and request", "why_tests_cant": "All states.", "anchors": ["database.go"]}
{"id": "C44", "title": "Every commit advances the revision and reaches the disk", "statement": "A mutating call that returns nil increases Revision by exactly one (modulo 2^64) and the file at the database path then holds the serialisation of exactly the in-memory database; a failed write reports an error.", "quantifier": "every reachable database, mutating call, IO outcome", "why_tests_cant": "All states and IO outcomes.", "anchors": ["database.go:commit", "database.go:Save"]}
{"id": "C45", "title": "Closing and reopening preserves the database", "statement": "After any successful mutating call (or Save) on a path not starting with '~', NewDatabase on that path succeeds and yields the same users, policy and revision, and the same result for every lookup, provided all stored strings are valid UTF-8.", "quantifier": "every database reachable on a well-behaved runtime (four-digit years, unused UUIDs) whose strings are valid UTF-8", "why_tests_cant": "Round-trip for all databases.", "anchors": ["database.go:NewDatabase", "database.go:commit", "internal/utils/file.go:ReadFileBytes"]}
{"id": "C46", "title": "JSON encoding of the database round-trips", "statement": "Parsing the bytes written by a commit gives back the database value that was written, for all field values (valid UTF-8 strings, 64-bit integers, four-digit years), including omitted empty fields, escapes and nested structures.", "quantifier": "all database values", "why_tests_cant": "Infinite input space.", "anchors": ["database.go:commit", "user.go:User", "mfa_token.go:MfaToken"]}
{"id": "C47", "title": "Torn writes are detected", "statement": "If the process stops in the middle of a commit's file write, leaving any strict prefix of the new document, NewDatabase on that file returns an error; it never opens a database with part of the users. (The write is not atomic: the previous contents are lost, so 'old or new' does not hold.)", "quantifier": "all databases and all crash points in the write", "why_tests_cant": "All crash points.", "anchors": ["database.go:commit", "database.go:NewDatabase"]}
{"id": "C48", "title": "A failed write leaves memory ahead of disk", "statement": "When the file write fails the call returns an error but the in-memory change stays and the revision has advanced; the next successful Save persists it. A failed call is therefore not a no-op.", "quantifier": "every mutating call and IO failure", "why_tests_cant": "All states.", "anchors": ["database.go:commit", "database.go:AddUser"]}
{"id": "C49", "title": "Copy writes a snapshot without moving the database", "statement": "Copy(fp) writes the serialisation of the current database to fp, leaves every other file unchanged, and afterwards the database path is what it was, whether or not the write succeeded.", "quantifier": "every database, target path, IO outcome", "why_tests_cant": "All states and paths.", "anchors": ["database.go:Copy", "database.go:GetPath"]}
{"id": "C50", "title": "NewDatabase rejects inconsistent files", "statement": "NewDatabase on an existing file fails if some user has an ID not of 36 bytes, an empty username or no password, or if two users share a username (ignoring case), an ID, an email (ignoring case) or an API key prefix; if none of these holds and the document decodes, it succeeds and the result satisfies all uniqueness invariants.", "quantifier": "all documents", "why_tests_cant": "All documents.", "anchors": ["database.go:NewDatabase", "user.go:Valid"]}
{"id": "C51", "title": "Concurrent calls are serialisable", "statement": "Any interleaving of concurrent Database calls that lock (writers exclusively, readers shared) produces the same final database and the same results as executing them one at a time in the order in which they acquired the lock.", "quantifier": "every number of goroutines, every schedule", "why_tests_cant": "The schedule space is unbounded.", "anchors": ["database.go", "README.md"]}
{"id": "C52", "title": "GetPath is stable under concurrency", "statement": "GetPath always returns the path the database was opened with. (False under concurrency: GetPath takes no lock and can observe Copy's temporary path.)", "quantifier": "every schedule", "why_tests_cant": "Depends on the schedule.", "anchors": ["database.go:GetPath", "database.go:Copy"]}
{"id": "C53", "title": "IdentifyUser does not reveal unknown users through identity fields", "statement": "For an identifier that resolves to nobody, IdentifyUser returns nil with username nobody, email nobody@localhost and the password challenge; for a known user it returns the stored username, primary email, name, roles and challenges with code 200. The response code differs between the two cases.", "quantifier": "every reachable database and identifier", "why_tests_cant": "All states.", "anchors": ["database.go:IdentifyUser", "user.go:GetChallenges", "user.go:GetFlags"]}
{"id": "C54", "title": "Challenges and MFA flags", "statement": "IdentifyUser's challenges include mfa iff the user has any MFA token; with Flags.Enabled, MfaConfigured is set iff some token is not disabled, MfaApp iff an enabled totp token exists, MfaUniversal iff an enabled u2f token exists (starting from cleared flags). For a user with only disabled tokens the two disagree.", "quantifier": "every user and token list", "why_tests_cant": "All token lists.", "anchors": ["user.go:GetChallenges", "user.go:GetFlags", "database.go:IdentifyUser"]}
{"id": "C55", "title": "GetUsers returns one metadata record per user", "statement": "GetUsers returns, in stored order, exactly one metadata record per stored user with that user's ID, username, email, name, title, timestamps and revision; the bundle size equals GetUserCount.", "quantifier": "every reachable database", "why_tests_cant": "All states.", "anchors": ["database.go:GetUsers", "user.go:GetMetadata", "user.go:UserMetadataBundle"]}
{"id": "C56", "title": "User revision counts modifications", "statement": "Each successful account modification (password, email, role, key, token added or removed) increases that user's revision by exactly one (as a 64-bit number, so the largest is followed by the smallest) and sets LastModified to a reading of the clock made during the call; rejected ones do not.", "quantifier": "every user and modification", "why_tests_cant": "All states.", "anchors": ["user.go:Revise", "user.go:AddPassword", "user.go:AddRole"]}
{"id": "C57", "title": "QR code text carries exactly the token parameters", "statement": "Build succeeds iff label set, secret at least 6 bytes, digits 0 or 4..8, period 0 or 30..180, type totp or hotp (with counter >= 1), algorithm empty/sha1/sha256/sha512 in any case; the resulting otpauth URI parses back to the same type, label, secret, issuer, algorithm, digits, counter and period (reading '+' in the label as a space; read as a path, a space in the label comes back as '+'), and GetEncoded is the base64 of Get; a refused code gets the text of the first requirement it does not meet. Label and issuer are written with a plus for a space and, for every other byte that is no letter, digit, hyphen, underscore, dot or tilde, a percent sign and two capital hexadecimal digits; the parameters come in the order secret, issuer, algorithm, digits, counter, period.", "quantifier": "all codes", "why_tests_cant": "Infinite input space.", "anchors": ["pkg/qr/qr.go:validate", "pkg/qr/qr.go:Build"]}
{"id": "C58", "title": "Errors keep their identity", "statement": "StandardError.WithArgs returns a non-nil error whenever some argument is an error or no argument is nil, returns nil when some argument is nil and none is an error, and the returned error unwraps to the original StandardError.", "quantifier": "all argument lists", "why_tests_cant": "All argument lists.", "anchors": ["pkg/errors/errors.go:WithArgs", "pkg/errors/errors.go:Unwrap"]}
{"id": "C59", "title": "Credit card association lookup", "statement": "AddAssociation sets the association iff the given string is one of the five association names, and fails without effect otherwise; AddIssuer fails for every input because the issuer table is empty. With a filled table it would store the first issuer that has the name or alias, as it is or in lower case, and change nothing else.", "quantifier": "all strings", "why_tests_cant": "All strings.", "anchors": ["credit_card.go:AddAssociation", "credit_card.go:AddIssuer"]}
{"id": "C60", "title": "Primary email claim", "statement": "The email reported for a user (IdentifyUser, LookupAPIKey) is one of the user's addresses whenever there is one, and empty otherwise; for users created by AddUser it is the registered address.", "quantifier": "every user", "why_tests_cant": "All users.", "anchors": ["user.go:GetMailClaim", "email.go:Primary"]}
{"id": "C61", "title": "Home-relative paths are inconsistent", "statement": "Reopening with the same path should read the file that was written. (False for paths starting with '~': creation and commits use the literal path, loading expands the home directory.)", "quantifier": "all paths", "why_tests_cant": "All paths and file systems.", "anchors": ["internal/utils/file.go:expandHomePath", "database.go:NewDatabase", "database.go:commit"]}
{"id": "C62", "title": "Struct tag compliance checker", "statement": "GetTagCompliance reports success iff every exported field carries the expected json, xml and yaml tags (up to the first '-'), according to the options; Disabled always succeeds.", "quantifier": "all struct descriptions and options", "why_tests_cant": "All structs.", "anchors": ["internal/tag/tag.go:GetTagCompliance"]}
{"id": "C63", "title": "Status of accounts and credentials", "statement": "Which stored status a call honours: AuthenticateUser refuses disabled or expired passwords and disabled security keys, but reads nothing else of a user than live password hashes and the enabled tokens' types and parameters; LookupAPIKey ignores whether a key is disabled or expired; neither these nor IdentifyUser look at the account's enabled flag or lockout; ValidateCode ignores the token's status; the Disable methods mark a credential disabled and expired and change nothing else. (One would expect disabled accounts, keys and expired tokens to be refused: they are not.)", "quantifier": "all databases, users, credentials, requests and status values", "why_tests_cant": "Non-interference over all status values and requests.", "anchors": ["database.go:AuthenticateUser", "database.go:LookupAPIKey", "database.go:IdentifyUser", "api_key.go:Disable", "public_key.go:Disable", "mfa_token.go:Disable", "password.go:Disable"]}
{"id": "C64", "title": "Secrets are stored only as hashes", "statement": "What AddUser and ChangeUserPassword store, write and return depends on the new password only through its length, whether it is blank and the 23 bytes bcrypt's Blowfish yields for it; the old password and the password given to AuthenticateUser matter only through whether the stored hashes accept them; no other call reads a password; AddAPIKey stores only the secret's first 24 bytes and its hash.", "quantifier": "all databases, requests, passwords and API secrets", "why_tests_cant": "Non-interference quantifies over pairs of secrets and all hash functions.", "anchors": ["password.go:hash", "user.go:VerifyPassword", "api_key.go:NewAPIKey", "database.go:AddUser", "database.go:ChangeUserPassword", "database.go:AddAPIKey"]}
{"id": "C65", "title": "Text in, text out", "statement": "If all strings of requests and UUIDs are valid UTF-8 and the libraries return valid UTF-8, every stored string is valid UTF-8 (trimming, splitting and joining never cut a character), whatever file the database was opened from; hence reopening after a successful mutating call (C45) needs no condition on what is stored.", "quantifier": "all histories of calls and all files", "why_tests_cant": "All strings in all histories.", "anchors": ["role.go:NewRole", "name.go:ParseName", "public_key.go:parsePublicKeyOpenSSH", "mfa_token.go:NewMfaToken", "database.go:commit", "database.go:NewDatabase"]}
{"id": "C66", "title": "The lock neither deadlocks nor starves", "statement": "With Go's writer-preferring RWMutex and the locking of the database methods (one lock per call, released on return): calls are serialisable as in C51, a writer excludes all others, no set of calls deadlocks, any fair schedule lets all calls return within a bounded number of steps, a queued reader waits for at most one writer, an announced writer only for the readers already inside; and a call that never returns from its write section stops every other locking call.", "quantifier": "any number of goroutines, all schedules and programs", "why_tests_cant": "All interleavings.", "anchors": ["database.go:mu", "database.go:AddAPIKey"]}
{"id": "C67", "title": "How much clock skew a one-time code tolerates", "statement": "The code of a moment t is accepted at every moment within one period of t; an accepted code is the code of a moment less than two periods away; the code of step s, if of no other step, is accepted exactly from the beginning of step s-1 to the end of step s+1, any number of times. A code accepted at enrolment need not be accepted by validation at the same moment.", "quantifier": "all secrets, algorithms, periods, digit counts 4 to 8, times from one period after the epoch, and codes", "why_tests_cant": "Real-valued windows at the boundaries of steps, all secrets.", "anchors": ["mfa_token.go:ValidateCodeWithTime", "mfa_token.go:NewMfaToken"]}
{"id": "C68", "title": "When each call succeeds", "statement": "Every mutating call succeeds exactly if stated preconditions on the request, the database and the file system hold: AddUser (policy, well-formed fields, free user name and address, randomness, writable file), ChangeUserPassword, AddPublicKey, AddAPIKey, AddMfaToken, the three deletions, Save and Copy; the reading calls succeed exactly if the request addresses a user; IdentifyUser always and DeleteUser never succeeds.", "quantifier": "all reachable databases, requests, file systems and random draws", "why_tests_cant": "An equivalence: no rejected request is acceptable, and no acceptable one is rejected, over all strings.", "anchors": ["database.go:AddUser", "database.go:ChangeUserPassword", "database.go:AddAPIKey", "database.go:AddPublicKey", "database.go:AddMfaToken", "database.go:Save"]}
{"id": "C69", "title": "Which public keys are accepted and what is stored", "statement": "NewPublicKey accepts exactly three forms: an RSA key in PEM, an OpenSSH one-line key, and (usage gpg) an armored PGP block with exactly one entity; and the stored record (type, payload, fingerprints, OpenSSH line, comment, status, times) is determined by the request. It never panics.", "quantifier": "all requests, clocks and library behaviours", "why_tests_cant": "All byte strings as payload.", "anchors": ["public_key.go:NewPublicKey", "public_key.go:parse", "public_key.go:parsePublicKeyRSA", "public_key.go:parsePublicKeyOpenSSH", "public_key.go:parsePublicKeyPGP"]}
{"id": "C70", "title": "Which calls can panic or fail to return", "statement": "Of all calls on a database only AddMFAToken can panic, and it does exactly if the user exists, the token type is u2f, and the registration is complete with a COSE key of a fatal shape (a member missing or of a wrong dynamic type); only AddAPIKey can fail to return; NewDatabase panics only if an array in the file has a null element.", "quantifier": "all databases, requests, file systems, random draws and file contents", "why_tests_cant": "Absence of panics on all inputs, and an exact description of the inputs that panic.", "anchors": ["database.go:AddMFAToken", "mfa_token.go:NewMfaToken", "mfa_token.go:WebAuthnRegisterRequest", "database.go:NewDatabase", "database.go:AddAPIKey"]}
{"id": "C71", "title": "Password hashing work done for known and unknown users", "statement": "AuthenticateUser computes one bcrypt hash at cost 10 whether or not the user exists, to hide which users exist, provided the password is not blank and there is entropy; a login with a blank non-empty password does one computation exactly if the user exists, and the returned error tells as well. LookupAPIKey computes bcrypt exactly if a stored key has the presented 24-byte prefix.", "quantifier": "all reachable databases and requests", "why_tests_cant": "A statement about the amount of work for all requests, not about results.", "anchors": ["database.go:AuthenticateUser", "user.go:VerifyPassword", "password.go:NewPassword", "database.go:LookupAPIKey", "user.go:LookupAPIKey"]}
{"id": "C72", "title": "Two open databases on one file", "statement": "Two Database values opened on one path never see each other's changes, whatever the interleaving of their calls; the last successful write replaces the file completely, so users added through the other one are gone when the file is opened again, although AddUser had returned nil.", "quantifier": "all interleavings of calls on two databases sharing a file system", "why_tests_cant": "All interleavings and all calls.", "anchors": ["database.go:NewDatabase", "database.go:commit", "database.go:AddUser"]}
{"id": "C73", "title": "Recorded times are in order", "statement": "If the clock never goes back, then at any moment: a user's creation time is at most its modification time, which is at most the database's; passwords, keys and tokens were made (and, if disabled, later disabled) within the user's life; a password taken out of use expires no later than it is disabled; passwords are listed newest first and keys and tokens oldest first.", "quantifier": "all histories of calls with a non-decreasing clock, read any number of times per call", "why_tests_cant": "All histories.", "anchors": ["user.go:Revise", "user.go:AddPassword", "password.go:Disable", "database.go:commit", "api_key.go:NewAPIKey", "public_key.go:NewPublicKey", "mfa_token.go:NewMfaToken"]}
{"id": "C74", "title": "Generated secrets are as random as their draws", "statement": "GetRandomString maps the sequences of n draws one-to-one onto the strings of n letters and digits, so uniform draws give uniform strings; of an issued API secret (72 to 95 characters) only the first 72 characters are ever checked: any string with the same first 72 is accepted, and (barring digest collisions) no other one with its prefix.", "quantifier": "all lengths, draws, databases and presented secrets", "why_tests_cant": "A bijection over 62^n strings.", "anchors": ["random.go:gen", "random.go:GetRandomString", "database.go:AddAPIKey", "database.go:LookupAPIKey"]}
{"id": "C75", "title": "Every error has a well-formed text", "statement": "Every error a call or NewDatabase returns formats without a %! complaint: each verb of its text and of the texts it wraps has one argument of a fitting kind; constants returned without arguments have no verb, except ErrWebAuthnVerifyRequest, whose text reaches the caller of a failed WebAuthn login with a literal %v. The text is the text of the constant in which each %v, %s and %q stands for the next string as it is or in quotes, and each %v and %d for the next integer in decimal with its sign. The wording of every constant is the one written in pkg/errors; two different constants have different wordings, except for three pairs.", "quantifier": "all calls, databases, files, requests and runtime choices", "why_tests_cant": "Every error path of every call, many of them I/O failures.", "anchors": ["pkg/errors/errors.go:WithArgs", "pkg/errors/errors.go:Error", "user.go:VerifyWebAuthnRequest", "database.go:NewDatabase"]}
{"id": "C76", "title": "Errors quote no secrets", "statement": "Strings quoted by an error of a call are the request's username, email, full name, key usage, key/token/query identifiers, token type and algorithm, the type of a sent public key or registration, the path, or a fixed message; never a password, passcode, token secret, API secret or other stored data. NewDatabase's errors quote only the path and usernames, identifiers, email addresses and key prefixes in the file.", "quantifier": "all calls, databases, files, requests and runtime choices", "why_tests_cant": "Absence of a leak on every error path.", "anchors": ["pkg/errors/errors.go:WithArgs", "database.go:AddUser", "database.go:AddAPIKey", "database.go:AuthenticateUser", "mfa_token.go:NewMfaToken", "public_key.go:parse"]}
{"id": "C77", "title": "The file is read exactly as the JSON grammar says", "statement": "The decoder used by NewDatabase (and by the WebAuthn documents) accepts a text exactly if it is derivable in the RFC 8259 grammar with at most 10000 nested arrays and objects, and reads the value the grammar assigns to it; no text has two values. Hence a file that is not JSON is rejected and left alone, two files that spell the same value decode to the same database, every file the code writes is JSON (nested at most six deep), and a top-level member with a name other than the five stored ones has no effect unless it is nested too deep.", "quantifier": "all byte strings, values and databases", "why_tests_cant": "Equivalence of a recursive parser with a grammar over all byte strings.", "anchors": ["database.go:NewDatabase", "database.go:commit", "mfa_token.go:NewMfaToken", "mfa_token.go:WebAuthnRequest", "webauthn.go:unpackWebAuthnRequest"]}
{"id": "C78", "title": "The file always holds what is in memory", "statement": "As long as no write to its own path fails, at every point of a session (after any calls, successful or rejected) opening the file again succeeds, changes nothing and finds the users, policy and version in memory, with the same answers to all read-only calls; revision and modification time too unless a copy was written elsewhere. Through any sequence of calls and restarts a user keeps its place, names, addresses and identifier; its passwords change only by ChangeUserPassword, and keys and tokens go only by the corresponding delete call. Without copies the revision advances by exactly the number of mutating calls that returned nil (modulo 2^64).", "quantifier": "all sessions of calls and restarts with UTF-8 strings on a well-behaved runtime", "why_tests_cant": "Unbounded histories with restarts at arbitrary points.", "anchors": ["database.go:NewDatabase", "database.go:commit", "database.go:Copy", "database.go:Save"]}
{"id": "C79", "title": "What calls write to the request", "statement": "Each call writes only certain fields of the request it is given. Mutating calls other than AddAPIKey, DeleteAPIKey and AddMfaToken write nothing; listings write the payload, and only if they succeed; AuthenticateUser writes the code (200 or 400) and nothing else; AddAPIKey the secret, its hash and its prefix; DeleteAPIKey the prefix of the deleted key; LookupAPIKey the prefix and, on success, the owner's name, address and code 200; AddMfaToken the normalised algorithm. Passwords, query, WebAuthn documents, token secret and passcode, and the key's other fields are never written. The code is not reset by a failed LookupAPIKey or an IdentifyUser of an unknown user, so a reused request still says 200. Identifying and then authenticating equals authenticating for a known user; for an unknown one it authenticates as the user called nobody.", "quantifier": "all calls, requests, file systems and runtime choices; the last two sentences for all reachable databases", "why_tests_cant": "All fields of all requests on all error paths.", "anchors": ["requests/request.go:Request", "database.go:AuthenticateUser", "database.go:IdentifyUser", "database.go:LookupAPIKey", "database.go:AddAPIKey", "mfa_token.go:NewMfaToken"]}
{"id": "C80", "title": "From the QR code to the login", "statement": "An authenticator that reads the text built for a TOTP token computes codes that the library accepts: AddMfaToken with the parameters of the QR code and a code shown at most two periods ago succeeds (if the user exists, has no token with that secret or comment, and the file can be written), and until the token is deleted it accepts every code the authenticator shows while the clocks differ by at most a period. Tokens with a period above 180 seconds or a secret under 6 bytes can be enrolled but have no QR code; hotp codes can be built but never enrolled.", "quantifier": "all QR codes, requests, moments and later histories", "why_tests_cant": "Composes text, URI reader, HMAC, enrolment and validation over all secrets, moments and histories.", "anchors": ["pkg/qr/qr.go:Build", "mfa_token.go:NewMfaToken", "mfa_token.go:ValidateCodeWithTime", "database.go:AddMfaToken"]}
{"id": "C81", "title": "RSA keys in the formats of SSH, X.509 and PEM", "statement": "An OpenSSH line is accepted exactly if its base64 field holds an RSA key in the format of RFC 4253 with an odd exponent from 3 up to 24 bits. Stored are the fingerprints ssh-keygen shows (of the key in its shortest form, however it was written), the base64 field as given, the comment, and a PEM block with the key's X.509 DER form. A PEM block of type RSA PUBLIC KEY with any RSA key of positive modulus and positive 63-bit exponent in X.509 form is accepted, with white space around it or not. The PEM block stored for a line reads back as the same key if the modulus is positive. Padding makes no difference; equal fingerprints mean equal keys or a SHA-256 collision. Against expectation: a line with a modulus of zero or below is accepted and its stored PEM block is refused; a key with an even or large exponent is accepted as PEM but not as a line; PKCS #1 blocks (the usual contents of RSA PUBLIC KEY) and PUBLIC KEY blocks are refused; every key can be stored twice for one user, once in each form.", "quantifier": "all RSA keys, payloads, requests and, for the last clause, reachable databases", "why_tests_cant": "All integers, all encodings of them and all texts around them.", "anchors": ["public_key.go:parsePublicKeyOpenSSH", "public_key.go:parsePublicKeyRSA", "public_key.go:NewPublicKey", "user.go:AddPublicKey"]}
{"id": "C82", "title": "ECDSA in the WebAuthn login", "statement": "For a registered key on the curve P-256 (and a signature with nothing after its two integers) the WebAuthn login succeeds, all other parts being right, exactly if the signature is the DER form of a pair that the holder of the private key can make by FIPS 186-4 for the SHA-256 of the authenticator data followed by the SHA-256 of the client data. Bytes that are not a sequence of two positive integers are refused whatever the key. Every point of the curve is the public key of exactly one private key; a pair has one form as bytes and is valid for at most four digests. Against expectation: registration does not check that a key is on the curve; an accepted signature can be turned into a different accepted one without the key (s to n - s); and an accepted login succeeds again, at any time, as long as the user has the same tokens, as the signature counter is compared with nothing.", "quantifier": "all reachable databases, keys, signatures and data", "why_tests_cant": "There are 2^256 keys and as many digests; a test can check signatures, not that no other bytes are accepted.", "anchors": ["mfa_token.go:WebAuthnRequest", "mfa_token.go:derivePublicKey", "user.go:VerifyWebAuthnRequest", "database.go:AuthenticateUser"]}
{"id": "C83", "title": "The numbers of a security key registration", "statement": "Key type, algorithm and curve of a registered public key are compared as floating-point numbers. A JSON number literal of up to 9000 characters passes for the integer n (0 < |n| < 2^52) exactly if n is the float64 nearest to the number it stands for, with ties to even; so 2.0, 0.2e1 and 2.0000000000000001 all mean key type 2. A literal is out of range exactly if its absolute value is 2^1024 - 2^970 or more. A value of unspecified type (a member of the public key, the extensions) is taken exactly if every number in it, at any depth of arrays and objects, is in range. A complete registration with three numbers and two coordinates is accepted exactly if the numbers round to 2, -7 and 1.", "quantifier": "all number literals of the JSON grammar up to the length, all requests", "why_tests_cant": "Infinitely many spellings; the boundary cases lie between adjacent floats.", "anchors": ["mfa_token.go:NewMfaToken", "webauthn.go:WebAuthnRegisterRequest"]}
{"id": "C84", "title": "A user's calls depend on that user only", "statement": "Two databases with the same policy and path that hold the same users among those a request speaks of (by username or by email address) answer an account call alike, leave equal request contents and leave equal records of that user, whatever other users they hold; AuthenticateUser and IdentifyUser depend only on the denoted user, LookupAPIKey only on the users that have a key with the presented prefix, AddUser only on whether the name and the address are taken (and on free identifiers). Hence no history of calls under other names changes how a user's next call is answered (AddAPIKey excepted, as others may own the prefix it draws).", "quantifier": "all pairs of reachable databases, all calls, requests, histories and runtime choices", "why_tests_cant": "It compares the answers of two arbitrary databases (non-interference); no single execution shows it.", "anchors": ["database.go:validateUserIdentity", "database.go:AuthenticateUser", "database.go:LookupAPIKey", "database.go:AddUser"]}
{"id": "C85", "title": "Calls for different users commute", "statement": "Two account calls whose requests speak of different users can be exchanged: each gives the same answer in either order, and the same users and the same revision remain. The only coupling is through API key prefixes: two created keys must draw different prefixes and a created key must not draw the prefix of an existing key (otherwise the later call may search for ever).", "quantifier": "all reachable databases, all pairs of account calls, requests and runtime choices", "why_tests_cant": "All pairs of calls in both orders, over all databases.", "anchors": ["database.go:AddPublicKey", "database.go:AddAPIKey", "database.go:ChangeUserPassword", "database.go:AddMfaToken"]}
{"id": "C86", "title": "Restarts are invisible", "statement": "Ending the program between two calls and opening the file again, at any points and any number of times, changes nothing: every call gives the same answer and leaves the same request as without the restarts, and in the end the database in memory (lookup tables included) and the files are the same. Conditions: writes succeed, copies go nowhere else, stored strings are valid UTF-8, and no user has two API keys of one identifier. Without the last condition it is false: after one call deleted two keys of one identifier, a creation that never returns would succeed after a restart.", "quantifier": "all histories of calls and restarts from any opened database", "why_tests_cant": "All interleavings of calls and restarts.", "anchors": ["database.go:NewDatabase", "database.go:commit", "database.go:DeleteAPIKey"]}
{"id": "C87", "title": "Attempts leave no trace", "statement": "If writes work and no copies are made, only mutating calls that return nil have an effect: without all the rejected and all the reading calls of a history the database and the files would be the same. So failed logins, lookups and identifications are neither counted nor delayed and lock nothing: a login is answered alike after any number of attempts (one would expect lockouts: there is a lockout record, but no call ever sets it, nor the enabled flag).", "quantifier": "all databases, histories of calls and requests", "why_tests_cant": "Histories of any length.", "anchors": ["database.go:AuthenticateUser", "database.go:LookupAPIKey", "lockout.go:LockoutState", "user.go:NewUser"]}
{"id": "C88", "title": "Policies nobody can satisfy", "statement": "NewDatabase accepts any limits. If the maximum length of usernames or passwords is below the minimum (or below 1), no call ever adds a user, in any history; otherwise the first user can be added. As zero limits are filled with defaults one by one, a file that only sets a minimum above the default maximum (or a maximum below the default minimum) gets such a policy without an error.", "quantifier": "all policies, databases, histories and requests", "why_tests_cant": "All limits and all requests: that nothing is accepted cannot be seen from examples.", "anchors": ["database.go:enforceDefaultPolicy", "database.go:checkPolicyCompliance", "database.go:NewDatabase"]}
{"id": "C89", "title": "Struct tags name the fields", "statement": "The tag derived from a field name spells the name's letters and digits in lower case with underscores, so names that differ beyond case and underscores get different tags; a field tagged as suggested passes the check; every struct declared in the repository passes it; and the member names and omissions of the stored file are those of the tags.", "quantifier": "all identifiers, options and fields; all declared structs", "why_tests_cant": "All field names; the test suite only checks the structs declared today.", "anchors": ["internal/tag/tag.go:convertFieldToTag", "internal/tag/tag.go:GetTagCompliance", "internal/tag/tag_test.go", "database.go:Database", "user.go:User"]}
{"id": "C90", "title": "What is accepted as an RSA key in PEM", "statement": "Whatever is stored as an RSA key from a PEM payload stands in a block that begins a line and has the label RSA PUBLIC KEY at both ends; it is the DER form of X.509 with a positive modulus and an exponent of at most 63 bits, and the fingerprints are that key's. A payload without both labels is refused. Every such DER form is accepted, including ones with further bytes after the key, so the stored payload can carry bytes of anyone's choice.", "quantifier": "all payloads, keys, times and identifiers", "why_tests_cant": "All texts and all DER encodings; the tests use three PEM files.", "anchors": ["public_key.go:NewPublicKey", "public_key.go:parsePublicKeyRSA"]}
{"id": "C91", "title": "API secrets come from a small seed", "statement": "The generator of API secrets is seeded once with the clock, of which 2^31-2 values are different, whatever the generator does with them: for each number of earlier draws there are 2^31-2 strings one of which is accepted as the secret; processes started a multiple of 2.147483647 s apart issue interchangeable secrets; and if 40 characters identify their place in the sequence, the identifier of a key, which GetAPIKeys shows, determines 24 strings one of which is accepted.", "quantifier": "all generators, start times, databases, requests and numbers of earlier draws", "why_tests_cant": "It is about all seeds and all generators; the outputs look random to any test.", "anchors": ["random.go:seed", "random.go:gen", "random.go:GetRandomStringFromRange", "database.go:AddAPIKey", "api_key.go:NewAPIKey"]}
{"id": "C92", "title": "Files, directories and permissions", "statement": "On a Unix file tree, whatever programs do with the package: what it makes is private (files at most 0600, directories at most 0700, whatever the umask); nothing is removed and what existed keeps its kind and mode; a call touches only the place its file's path leads to, and NewDatabase besides that only adds missing directories; where no file stands in the way NewDatabase makes exactly those directories and the file, otherwise it fails and makes nothing; calls and Copy never make directories; a database is found again under every path that leads to the same file.", "quantifier": "all well-formed trees, paths, umasks, histories of calls and openings, and failures of system calls", "why_tests_cant": "Paths, trees and umasks are unbounded, and a file mode or a stray write elsewhere is seen only if a test looks for it.", "anchors": ["database.go:NewDatabase", "database.go:commit", "database.go:Copy", "internal/utils/file.go:ReadFileBytes"]}
{"id": "C93", "title": "The database is a plain list of accounts", "statement": "Every call, and every history of calls, answers and changes the accounts exactly as a plain list of accounts would, one with no lookup maps, positions, revision or files, where accounts are found by searching the list, replaced in it, and appended to it: same requests left, same verdicts (success, error, crash, never returns), same accounts. So two databases with equal accounts, policy and path cannot be told apart by any history, whatever their files hold. It needs distinct identifiers of accounts and of one account's keys: without the latter a call on the database can hang where the list would answer.", "quantifier": "all databases opened from any file, all histories of calls with any requests, all write failures, all runtime choices with unused identifiers and a working source of randomness", "why_tests_cant": "Agreement of four indexes with the list after every possible history of calls is a statement about unboundedly many states.", "anchors": ["database.go:AddUser", "database.go:validateUserIdentity", "database.go:getUser", "database.go:AddAPIKey", "database.go:LookupAPIKey", "database.go:commit"]}
{"id": "C94", "title": "User identifiers are version 4 UUIDs", "statement": "NewID returns a canonical version 4 UUID for every 16 bytes drawn, every such UUID can be drawn, and two draws give the same one exactly if they agree in the 122 bits that are not fixed. In the life of a new database whose AddUser calls never draw the same 122 bits first, all accounts have distinct version 4 UUIDs. getUserByID finds such an account under its identifier in any letter case and nothing else; an identifier written in upper case in the file is accepted but never found.", "quantifier": "all draws of 16 bytes; all histories of a new database; all lookups", "why_tests_cant": "2^128 draws; the repository's test looks at the length of one identifier.", "anchors": ["uuid.go:NewID", "database.go:AddUser", "database.go:getUserByID"]}
{"id": "C95", "title": "Goroutines share a plain list of accounts", "statement": "Any number of goroutines calling one opened database, each call divided into steps in any way, under any schedule that Go's mutex allows, is linearisable to the list of accounts of C93: if the calls are put in the order in which they got the lock and answered one at a time by the list, every call that has returned left the request and gave the verdict that the list gives at its place, and when no call is under way the accounts are those of the list. The order has every returned call exactly once, and a call that had returned before another began comes before it. Assumed: unused identifiers are drawn, the source of randomness works, and no call on the list fails to return.", "quantifier": "all opened databases, files, sets of calls, divisions into steps, schedules", "why_tests_cant": "Schedules and histories are unbounded, and a race shows up only under rare interleavings.", "anchors": ["database.go:NewDatabase", "database.go:AddUser", "database.go:AuthenticateUser", "database.go:AddAPIKey"]}
{"id": "C96", "title": "Struct tags as source text", "statement": "The tag check reads the tags from the source text as Go does. A key has a value exactly if the text starts with pairs key:\"text\" with any number of spaces before each, a key being printable characters other than space, quote and colon; the first pair with that key counts, and its text is unquoted by Go's rules: plain text stands for itself, escapes for the bytes or characters they name. In a tag of the usual form each key has the value of its first pair. The suggestion lists, in order, exactly the exported fields without yaml tag whose json and xml tags are not '-', if absent tags are reported; each suggested line ends in a tag without backquotes that gives its field the expected value for json, xml and yaml, so that the field passes the check. The tags of the 46 declared structs are those in their source text. Not so: a field that lacks only its json tag is reported, but no change is suggested for it.", "quantifier": "all tag texts, keys, fields, options", "why_tests_cant": "Tag texts are unbounded, and the tests only use well-formed tags.", "anchors": ["internal/tag/tag.go:GetTagCompliance", "internal/tag/tag.go:makeTags"]}
{"id": "C97", "title": "How rare duplicate identifiers are", "statement": "An AddUser that stores an account gives it an identifier in use exactly if NewUser's draw and all ten of its own are in use. Of the 2^1408 draws of one call exactly (64 m)^11 are so, if the m accounts have distinct version 4 UUIDs. In any history of n calls on a database opened with m accounts, at most the share n ((m+n)/2^122)^11 of all draws leads to two accounts with one identifier: with up to 2^32 accounts and calls, less than one in 2^958.", "quantifier": "all opened databases, files, histories; counted over all draws", "why_tests_cant": "Such a share can only be counted, never observed; a generator that is slightly less random passes any test.", "anchors": ["database.go:AddUser", "uuid.go:NewID", "user.go:NewUser"]}
{"id": "C98", "title": "Adding and deleting cancel out", "statement": "After a successful AddAPIKey, AddPublicKey or AddMfaToken, the matching delete call that names the account and the ID of the new item succeeds whenever the file can be written, provided the account had no item with that ID. It leaves the accounts, the four lookup maps, the policy and the path exactly as they were before the addition; only the account's and the database's revision (two more) and times of last change differ. Without the proviso this fails: two API keys with one ID are deleted together.", "quantifier": "all reachable databases, requests, files, random draws, clocks", "why_tests_cant": "A test compares a few fields; the claim is that nothing else at all remains, neither in the lists nor in the maps.", "anchors": ["database.go:AddAPIKey", "database.go:DeleteAPIKey", "database.go:AddPublicKey", "database.go:DeletePublicKey", "database.go:AddMfaToken", "database.go:DeleteMfaToken"]}
{"id": "C99", "title": "The random generator always returns and is unbiased", "statement": "math/rand as the package uses it (modelled with its 607 constants): every number is the sum of those 607 and 273 places before it modulo 2^64; Intn(n) returns a number below n for every n from 1 to 2^63-1 and every state, after at most 38242 rounds of its retry loop; for n < 2^31 it maps equally many 31-bit numbers to each value below n; a seeding step is multiplication by 48271 modulo 2^31-1 without leaving 32 bits; and the generator depends only on the start time modulo 2^31-1, so that what C91 says about all such generators holds of it.", "quantifier": "all start times, states, bounds n", "why_tests_cant": "No test shows that a retry loop ends for every state, nor an exact count over 2^31 numbers for every n.", "anchors": ["random.go:seed", "random.go:gen", "random.go:GetRandomStringFromRange", "uuid.go:NewRandomString"]}
{"id": "C100", "title": "API secrets follow from earlier characters", "statement": "As long as Intn(62) refuses no number, each character drawn is one of four determined by the characters drawn 607 and 273 places before it. So from the 607 characters drawn before a successful AddAPIKey, 4^72 strings (of 62^72) can be computed one of which LookupAPIKey accepts. The owner of an API key sees at least 112 characters drawn one after the other, its secret followed by its identifier.", "quantifier": "all start times, states, databases, requests", "why_tests_cant": "The dependence spans 607 characters and holds up to a carry; the output looks random to any test of single keys.", "anchors": ["random.go:seed", "random.go:gen", "database.go:AddAPIKey", "api_key.go:NewAPIKey"]}
{"id": "C101", "title": "A restart can freeze AddAPIKey", "statement": "A process issues an API key. If a process started a multiple of 2.147483647 seconds earlier or later, which has made as many draws from the generator, works on a database in which that key is stored, then AddAPIKey does not return there for any user (hash salts being available). In particular this holds if the file just written is opened again by such a process.", "quantifier": "all start times and multiples, numbers of draws, reachable databases, requests", "why_tests_cant": "It needs two processes whose start times differ by an exact multiple of 2^31-1 nanoseconds, and no test observes that a call never returns.", "anchors": ["database.go:AddAPIKey", "random.go:seed", "database.go:NewDatabase"]}
{"id": "C102", "title": "The generator is shared without a lock", "statement": "The generator behind identifiers and API secrets is one variable of the process, used without a lock. As long as the calls exclude each other (all on one database) none panics and each number goes to one goroutine, in the order of the calls. Calls on two databases do not exclude each other: whenever the process was started and however many numbers were drawn, two goroutines can be scheduled so that one indexes the generator's array with -1 and panics, and so that both get the same numbers; two calls of AddAPIKey on different databases then issue secrets that are accepted by each other.", "quantifier": "all start times, numbers of draws, schedules of memory accesses (safety); some schedule for each state (failure)", "why_tests_cant": "Data races show up under rare schedules only; that exclusive calls never panic is a statement about all schedules.", "anchors": ["random.go:seed", "random.go:gen", "database.go:AddAPIKey", "public_key.go:NewPublicKey", "mfa_token.go:NewMfaToken"]}
{"id": "C103", "title": "GetUser hands out the record itself", "statement": "GetUser answers with the record of the named user, not with a copy. Calls that name other users leave the answer as it is; every later call that modifies that user changes what the earlier answer shows. What the caller writes through the answer is saved by the next successful call that writes, made by anybody for another user, and only that call is counted as a revision; the records of third users stay as they were; if one user is given the name of another in this way, the file written next cannot be opened any more.", "quantifier": "all reachable databases, users, histories; all writes by the caller", "why_tests_cant": "A test reads an answer once, right after the call; what the answer shows after any later history is not a finite check.", "anchors": ["database.go:GetUser", "database.go:commit", "database.go:NewDatabase"]}
{"id": "C104", "title": "Guessing one-time codes", "statement": "At any moment at least one and at most three of the 10^digits codes of a TOTP token are accepted and nothing else is; every token stored in the history of a database created empty is a TOTP token with a supported algorithm, a period of 30..300 s and 4..8 digits, or a U2F token, so one of at most 10^8 tries at a stored TOTP token is accepted at any moment (tries are not counted, C87). The 31-bit number read from a digest is unbiased: each of the 2^31 values comes from the same number of digests; a code comes from floor(2^31/10^digits) of these values, or one more, so no code has more than 22/21 of its share.", "quantifier": "all tokens, moments, codes, digest sizes from 20 bytes; all histories", "why_tests_cant": "The number of accepted codes of every token and the distribution over all digests of 160 bits and more are beyond enumeration.", "anchors": ["mfa_token.go:ValidateCodeWithTime", "mfa_token.go:generateMfaCode", "mfa_token.go:NewMfaToken"]}
{"id": "C105", "title": "Published policy summaries", "statement": "GetUsernamePolicySummary and GetPasswordPolicySummary return one sentence that tells the two length bounds in decimal and the character restrictions in a fixed order. Two policies have the same username sentence exactly if their user policies are equal, and the same password sentence exactly if lengths and required classes are equal. Only the lengths told are enforced: a name and a password pass the check exactly if their byte lengths lie between the numbers told; the default policy announces lowercase alpha-numeric names and accepts others.", "quantifier": "all policies (also negative lengths), names and passwords", "why_tests_cant": "All policies and pairs of policies.", "anchors": ["database.go:GetUsernamePolicySummary", "database.go:GetPasswordPolicySummary", "database.go:checkPolicyCompliance"]}
{"id": "C106", "title": "Form of stored accounts, and carrying them over", "statement": "Every account in the history of a database created empty has a non-empty username within the policy, exactly one address (of the accepted syntax, which is its email claim), at most one name, distinct roles made by NewRole, and no other personal data: enabled, human, title, organisations, street addresses, lockout and avatar are never set. A role made by NewRole survives printing and reading exactly if it has an organisation, or a trimmed non-empty name without slash. If roles and name survive, another database in which username and address are free accepts the account with what the first database tells about it and stores the same username, address, roles and name. Otherwise it may change: /org/admin arrives as the role admin of org.", "quantifier": "all histories, accounts and target databases", "why_tests_cant": "All histories of calls and all pairs of databases.", "anchors": ["user.go:NewUserWithRoles", "user.go:HasEmailAddresses", "role.go:NewRole", "name.go:ParseName", "database.go:AddUser"]}
{"id": "C107", "title": "The global generator is never seeded", "statement": "NewRandomString and the length of API secrets use the global generator of math/rand, which nothing in the library seeds; before Go 1.20 it is then the generator of seed 1. In all such processes NewRandomString reads off one fixed endless text, so processes that have drawn equally often return the same strings; the k-th issued API secrets of all such processes have the same length, and for each pair of draw counts there are 2^31-2 candidates for the exact secret.", "quantifier": "all processes that do not seed the generator, all numbers of draws, lengths, databases and start times", "why_tests_cant": "Says that outputs agree across all processes and start times; tests see one process.", "anchors": ["uuid.go:NewRandomString", "random.go:GetRandomStringFromRange", "database.go:AddAPIKey"]}
{"id": "C108", "title": "The journal of calls decides who gets in", "statement": "Take any history of calls on a database that was created empty, and write down each call with its request, its random draws, and what it returned. A password is accepted for a login name exactly if the journal has an accepted registration that the name means, and the last accepted registration or password change of that account set a password with the same digest. A string is accepted as an API key exactly if it has at least 72 bytes and some accepted AddAPIKey returned a secret with the same first 24 bytes and the same digest whose identifier no later accepted DeleteAPIKey of the same account named; the reported username and email address are those of the account's registration. Accepted means: returned nil or an error wrapping ErrDatabaseCommit.", "quantifier": "all histories of calls with any requests, draws, clocks and file failures, all presented names, passwords and strings", "why_tests_cant": "An equivalence over unboundedly long histories; it excludes every way of getting in that the journal does not show.", "anchors": ["database.go:AuthenticateUser", "database.go:LookupAPIKey", "database.go:AddUser", "database.go:ChangeUserPassword", "database.go:AddAPIKey", "database.go:DeleteAPIKey"]}
{"id": "C109", "title": "The journal of calls gives the contents of the accounts", "statement": "Take any history of calls on a database that was created empty, with its journal as in C108. The accounts are the accepted registrations, in order, with their usernames and email addresses. Each account contains exactly the public keys, API keys and MFA tokens that accepted calls for it added and no later accepted call for it deleted by identifier, in the order of addition; the added item is the one built from the request, the clock and the draws of that call. A successful listing shows these, without the disabled ones and, for keys, with the requested usage only.", "quantifier": "all histories of calls with any requests, draws, clocks and file failures; all accounts; all listing requests", "why_tests_cant": "An equation over unboundedly long histories; any lost, duplicated, reordered or misdirected item would break it.", "anchors": ["database.go:AddPublicKey", "database.go:DeletePublicKey", "database.go:AddAPIKey", "database.go:DeleteAPIKey", "database.go:AddMfaToken", "database.go:DeleteMfaToken", "database.go:GetPublicKeys", "database.go:GetAPIKeys", "database.go:GetMfaTokens"]}
{"id": "C110", "title": "The computation inside bcrypt", "statement": "The Blowfish tables start as the first 33344 binary digits of pi after the point. Encryption of a block is a permutation whatever the tables are, and never reads outside them. The first step of the key schedule takes in 72 bytes of key, read cyclically, and tells any two such keys apart; so a digest depends on cost, salt and the 72 bytes of password, NUL, password, ... only. The 24 bytes computed consist of three different blocks of 8, of which the stored text shows 23 bytes; so a stored hash whose digest begins with the same 8 bytes twice accepts no password. A salt that can be read from a stored hash has 1 to 16 bytes, so the key schedule never reads from an empty one.", "quantifier": "all passwords, salts, costs, tables, blocks and stored hashes", "why_tests_cant": "All keys and tables; that no password whatever is accepted by a hash cannot be tried out.", "anchors": ["password.go:hash", "password.go:Match", "api_key.go:Match"]}
{"id": "C111", "title": "Base64 texts", "statement": "The base64 decoder (WebAuthn documents, SSH keys, QR texts) reads exactly the texts that, without carriage returns and newlines, consist of characters A-Z a-z 0-9 + / and at most two signs = that make the length a multiple of four, as the bytes whose bits these characters have in order; spare bits are ignored. The encoder writes the one such text without line breaks whose spare bits are zero. bcrypt's texts have the alphabet . / A-Z a-z 0-9, no padding and zero spare bits; a stored salt is read exactly if, without line breaks, its characters are of that alphabet and their number is two more than a multiple of four.", "quantifier": "all byte strings and texts", "why_tests_cant": "All texts; a decoder that also accepted the URL alphabet or text after the padding passes every test on texts that the encoder wrote.", "anchors": ["mfa_token.go:NewMfaToken", "webauthn.go:unpackWebAuthnRequest", "public_key.go:parsePublicKeyOpenSSH", "pkg/qr/qr.go:Build", "password.go:Match"]}
{"id": "C112", "title": "What a document puts into the records", "statement": "A file is read as a database exactly if it is a JSON document (C77) and its members, taken in their order, lead from the empty database to that database. Each member concerns the field its name spells (in any letter case, with the long s for s and the Kelvin sign for k); other members are passed over. Null leaves texts, marks, numbers, times and inner records alone, removes optional records, lists and maps, and is an empty text inside a list of texts. Numbers must be decimal integers in the range of the field. Times must be RFC 3339 texts of existing dates, cut at nanoseconds. The last of several members about one plain field counts; the last member of a map key counts. The same holds for the three WebAuthn documents. The spelling of every field of every record is part of the statement. A record holds empty texts and lists, zero, false, nothing, and the time 0001-01-01T00:00:00Z where its document is silent.", "quantifier": "all byte strings and all records", "why_tests_cant": "All documents; a decoder that accepted an array for a record, a 31st of April or a null dropped from a list passes every test on files the library wrote.", "anchors": ["database.go:NewDatabase", "webauthn.go:unpackWebAuthnRequest", "mfa_token.go:NewMfaToken", "user.go:User", "password.go:Password"]}
{"id": "C113", "title": "Keys of other kinds inside an RSA PUBLIC KEY block", "statement": "The label RSA PUBLIC KEY does not make the key an RSA key: an Ed25519, ECDSA (P-256, P-384, P-521) or DSA key in X.509 form under that label is accepted and stored, with the SSH type of its own algorithm, its SSH blob and the fingerprints of that blob; nothing else that is not RSA is. Of an Ed25519 key only the length (32 bytes) is checked and of a DSA key only that its four numbers are positive; an ECDSA point must lie on its curve, and a P-224 key is refused as SSH has no name for it. As an OpenSSH line the same key is refused by its type, and every line with a readable blob that is neither RSA, one of the listed kinds nor a certificate is refused as unreadable.", "quantifier": "all payloads, requests and keys", "why_tests_cant": "All DER documents and SSH blobs, including malformed ones; the tests of the repository contain one RSA key and no key of another kind.", "anchors": ["public_key.go:parsePublicKeyRSA", "public_key.go:parsePublicKeyOpenSSH", "public_key.go:NewPublicKey"]}
{"id": "C114", "title": "Quoted values in error texts", "statement": "The verb %q of an error text writes a string between double quotes with printable characters as they are and everything else escaped, so that the written form is valid UTF-8 of printable characters, its end can be seen, and strconv.Unquote gives back every byte of any string. Hence a line end or other control character in the text of an error comes from a value written with %s or %v. The usage of a key that is added is such a value: every error of AddPublicKey shows it as it was sent, so a request with a made-up usage puts any line into the error text, also for an unknown user; AddAPIKey does the same for a caller who names no stored user.", "quantifier": "all byte strings, formats, error values, databases and requests; all tables of printable characters above U+00FF", "why_tests_cant": "All byte strings, including invalid UTF-8; a test compares a few texts and no test sends a usage with a line end.", "anchors": ["pkg/errors/errors.go:WithArgs", "database.go:AddPublicKey", "user.go:AddPublicKey", "database.go:AddAPIKey"]}
{"id": "C115", "title": "Digests", "statement": "The digests behind passcodes, fingerprints and signatures are those of the standards: SHA-1, SHA-256 and SHA-512 of FIPS 180-4 (padding, schedule, rounds, and constants that are fractions of square and cube roots of the first primes), MD5 of RFC 1321 (with the sines of 1 to 64 as constants) and HMAC of RFC 2104; every message has exactly one digest of each kind. So a passcode is the one of RFC 4226 over the standard HMAC, and the fingerprints of a key are the standard digests of its wire form.", "quantifier": "all byte strings as messages and keys", "why_tests_cant": "All messages of all lengths, and every padding case; test vectors cover a few lengths.", "anchors": ["mfa_token.go:generateMfaCode", "public_key.go:NewPublicKey", "mfa_token.go:WebAuthnRequest"]}
{"id": "C116", "title": "A refused assertion is refused for the first check it fails, and says so", "statement": "MfaToken.WebAuthnRequest returns an error exactly if one of its checks fails, and the error is the one of the first failing check in the order: token type, u2f_id, key_type, kind of key, the coordinates and algorithm of the registered key, base64 and JSON of the payload, credential id, client data (present, base64, JSON), signature (present, base64), authenticator data (present, base64, 37 bytes), type of the client data, cross origin, hash of the relying party, user-present bit, signature. Otherwise it returns the decoded request with client data and authenticator data filled in and the encoded client data and signature emptied. There is exactly one reason or exactly one result, and the branch for an unsupported algorithm at the end is never taken.", "quantifier": "every token, stored or not, and every payload", "why_tests_cant": "All combinations of failing checks over all tokens and payloads; a test shows one failing check at a time.", "anchors": ["mfa_token.go:WebAuthnRequest", "mfa_token.go:derivePublicKey", "mfa_token.go:unpackAuthData", "pkg/errors/mfa_token.go"]}
{"id": "C117", "title": "Every database call ends as its table of checks says, with exactly that error", "statement": "Each of the nineteen calls on a database has an ordered table of checks about the users, the request, the policy and what the runtime delivered (clock, salts, random bytes, file system). The call ends in exactly the way of the first check that applies: with that error and everything wrapped around it (errors of the libraries are named, not quoted; C75 has the wording of the others), with success, or (COSE key members of the wrong JSON type in AddMfaToken) with a panic, or (AddAPIKey with a prefix in use) never. The order of the checks decides which of several reasons is reported: for instance AddUser reports the username policy before the password policy, both before the hash, the email address, the roles, the name, and only then a name or address in use; every mutating call reports trouble with the file last. For AddMfaToken the clock must show a time between ten minutes after 1970 and 2^63 seconds; for AddAPIKey the keys' identifiers must be distinct and at least twelve rounds of its loop observed.", "quantifier": "every database reachable by calls from an opened one, every call, every request, every outcome of the clock, the random sources, the salts and the file system", "why_tests_cant": "The tables have more than a hundred checks, and which error is reported depends on the first of any combination of them; tests look at one error at a time.", "anchors": ["database.go", "user.go", "public_key.go:parse", "mfa_token.go:NewMfaToken", "api_key.go:NewAPIKey", "password.go:NewPassword", "pkg/errors"]}
{"id": "C118", "title": "Opening a database ends as its table of checks says, with exactly that error", "statement": "NewDatabase has an ordered table of checks: the stat of the path; where nothing is there, making the directories and writing the new file; a directory at the path; the home directory, reading and decoding the file; rewriting it if a limit of the policy is missing; and then for each user in the order of the document its identifier's length, its username, its passwords, a username (ignoring case) or identifier of an earlier user, the first email address (ignoring case) that an earlier user or the user itself already has, and the first API key prefix likewise. NewDatabase ends in exactly the way of the first check that applies, with that error in full, and otherwise succeeds; an empty path at which a file is found makes it panic. Documents with a null where a record belongs are left out.", "quantifier": "every path, every file system, every document without null records, every outcome of stat, mkdir, read and write", "why_tests_cant": "A document can be wrong in many places at once; tests look at one defect at a time and mostly ask only whether there is an error.", "anchors": ["database.go:NewDatabase", "user.go:Valid", "internal/utils/file.go"]}
{"id": "C119", "title": "What becomes of an OpenSSH line, byte by byte", "statement": "Let the second field of a line starting with ssh-rsa be base64 text of some bytes. The key is accepted exactly if the bytes are an RSA key; it is refused for its type, which the error names, exactly if they are a well-formed key or certificate of another type; and it is refused as unreadable exactly if they are neither. Well-formed is the format of OpenSSH's keys and certificates: a certificate holds its name, a nonce, a key of the matching kind, serial number and kind, identifier, principals, validity, critical options and extensions with names in strictly ascending order, a reserved string, the signing key (a key or certificate again) and a signature. Bytes have at most one type, and no certificate is ever accepted, not even one for an RSA key.", "quantifier": "every OpenSSH line and every byte string", "why_tests_cant": "The format nests to any depth and each part can be wrong in its own way; a few certificates from ssh-keygen do not show which of the other byte strings are taken for one.", "anchors": ["public_key.go:parsePublicKeyOpenSSH", "golang.org/x/crypto/ssh ParsePublicKey"]}
{"id": "C120", "title": "Which PEM block of a payload is read", "statement": "From a payload that mentions RSA PUBLIC KEY the first block is read, after white space of Unicode is taken off both ends, and nothing else: text before it and after it, header lines, blanks after the labels, either kind of line end and lines of any length make no difference. Two payloads with the same first block give the same key and fingerprints. If the first block has another label (without a colon) the payload is refused and the error names that label, even if a good key follows. A payload without any block is refused with an empty label.", "quantifier": "all payloads with usage ssh, all times and identifiers", "why_tests_cant": "What may stand around a block, and where else in a text a block could begin, is unbounded; a handful of files written by one tool never has a second block, a header or a broken block before the good one.", "anchors": ["public_key.go:parsePublicKeyRSA", "encoding/pem Decode", "bytes.TrimSpace"]}
{"id": "C121", "title": "Registrations and handles", "statement": "NewRegistration holds the given user and the time of the call and is not approved; NewHandle is empty. Written as JSON and read again, a registration (its user with all credentials included) and a handle are what they were; a registration document that was cut short is refused. What is read is what the members say: a registration that can be read is approved exactly if the last non-null member spelled aprroved (with the code's misspelling, letters small or capital) is true, and a member approved in the usual spelling approves nothing.", "quantifier": "all users, times, registrations and handles of valid UTF-8 and calendar dates; all documents", "why_tests_cant": "Every field of the user is part of the written document, and a document may repeat, null or respell its members; a test writes and reads a few records of its own.", "anchors": ["registration.go:NewRegistration", "registration.go:Registration", "handle.go:NewHandle", "handle.go:Handle"]}
{"id": "C122", "title": "Opening a document with nulls", "statement": "A null in place of a user, of an email address, of a password or of an API key of a user makes NewDatabase panic if everything before it (in the order in which the users, and per user the addresses, passwords and keys, are gone through) would have been accepted; if something before it is refused, that refusal is the outcome instead. Nulls among names, organizations, street addresses, public keys, MFA tokens and roles change nothing. Whatever nulls a document has, these are all the cases; without nulls the outcome and the files are those of NewDatabase as modelled elsewhere. A document with nulls that is written is read back with them. If a limit of the policy is missing, the file is written again, with the limits, the next revision and the time, before the users are gone through: a failure to write is then the outcome, whatever nulls there are, and otherwise the call ends as above. So if everything before a null is in order, the call panics, the file has been changed, still holds the null, and every later call panics on it.", "quantifier": "all documents, files, paths, failures of the file system and times", "why_tests_cant": "A null may stand at any place of any list, after any number of good or bad records; which of the panic and the refusals comes first depends on all the records before it.", "anchors": ["database.go:NewDatabase", "database.go:enforceDefaultPolicy", "database.go:commit", "user.go:Valid"]}
{"id": "C123", "title": "Nulls that opening overlooks", "statement": "For a user with nulls among tokens, public keys or roles, which NewDatabase accepts: IdentifyUser panics exactly if a role is null, or if flags are asked for and a token is null, and never fails otherwise; if it does not panic, it returns the roles, and asks for a second factor if there is any token, null or not; listing tokens (or public keys) and deleting any of them panics exactly if one is null, so that neither call removes the null; the check for duplicates of AddMfaToken and AddPublicKey panics exactly if a null comes before every duplicate; HasRole panics exactly if the role can be read and a null comes before it. AddRole of a role that can be read likewise panics if a null comes before every equal role, changes nothing if an equal role comes first, and else appends it. A WebAuthn login that can be read is decided by the first enabled token it names, and panics if a null comes before every such token. Without nulls all of these are what they are in the rest of the model.", "quantifier": "all users with nulls at any places, all requests, tokens, keys and roles", "why_tests_cant": "Whether a call panics depends on the order of nulls and duplicates in lists of any length; a test has a few lists.", "anchors": ["user.go:GetFlags", "user.go:GetRolesClaim", "user.go:VerifyWebAuthnRequest", "user.go:HasRole", "user.go:AddRole", "user.go:AddMfaToken", "user.go:DeleteMfaToken", "user.go:AddPublicKey", "user.go:DeletePublicKey", "database.go:IdentifyUser", "database.go:GetMfaTokens", "database.go:GetPublicKeys"]}
