# Formal model of greenpau/go-identity in Lean 4

Source: `/repo` (Go, go-identity 1.1.6). Model: `/verif/lean/Verif`. Properties: `properties.jsonl`.
Claims and exact theorem names: `MANIFEST.json`. Mutation log: `seeded/LOG.jsonl`.

## 1. Shape of the model

* A Go `string`/`[]byte` is `GoString = List UInt8`. `len` is the byte length. UTF-8 decoding, `strings.ToLower`,
  `strings.TrimSpace`, `strings.Split`, `strings.Join`, `strings.Contains` are executable functions on it.
* A Go function that returns `error` becomes a function to `Except GoErr _` or returns `Outcome`. `GoErr` keeps the
  `StandardError` constant and the arguments given to `WithArgs`.
* A method that mutates through a pointer returns the new value. `*User` pointers held by the four lookup maps are
  indices into `Database.users` (users are only ever appended, so an index is a stable address).
* Go maps that are only read by key (`refUsername`, ...) are functions `GoString -> Option Nat`.
* Everything the runtime decides is an explicit input of each call, collected in `Nondet`: the clock, the UUIDs, the random
  draws, bcrypt salts (or an entropy failure), the outcome of the file write. Theorems quantify over all of it.
* External algorithms are fields of `Ext` (a parameter of everything): the non-ASCII part of `unicode.ToLower`,
  the Blowfish computation inside bcrypt (also given as a function, C110), OpenPGP parsing.  SHA-1, SHA-256, SHA-512, MD5,
  HMAC, ECDSA over P-256, the rest of bcrypt (key, cost, salt, text of a hash, comparison), PEM, the SSH and X.509 forms of keys
  and the comparison of float literals are executable functions.
  Where a theorem needs a law of an external algorithm the law is a visible hypothesis and an instance satisfying
  it is exhibited.
* A call that panics or never returns has the outcome `panic` / `hang`, so these are observable in the model.
* Files: `FS = GoString -> Option Node`; a commit writes the exact bytes of `json.MarshalIndent`. A write may succeed, fail on
  open, or fail after any number of bytes; a crash leaves any prefix.
* Concurrency: a separate transition system of goroutines, an RWMutex and micro-steps inside critical sections.

## 2. Plan per property

| Property | What is modelled | How it is proved |
|---|---|---|
| C01 C02 C03 C04 C05 | `NewDatabase`, all calls, lookup maps | one invariant (`Inv`) relating maps and user list, shown for the loader and preserved by every call; induction over histories |
| C06 C07 C08 C09 C10 C43 C44 C48 C49 C55 C56 | each Database call as a function | case analysis per call; per-call frame lemmas lifted to histories by induction |
| C11 C12 C13 C14 C15 C16 C17 | passwords, bcrypt key schedule | structural lemmas on the password list; induction over histories; byte-level lemma on the key schedule |
| C18 C19 C20 C21 C22 C23 C24 | API keys, random strings, retry loop | invariant + case analysis; C21 and C23 are refuted by concrete reachable histories and the true part is proved |
| C25 C26 C27 C28 | key and token bundles | list lemmas, invariants |
| C29 C30 C31 C32 | TOTP | arithmetic on lists of bytes; rational-number rounding argument for C32 |
| C33 C34 C35 | WebAuthn | inversion of the decision function; byte-level lemmas |
| C36 C37 C38 C39 | roles, names, email regex | list lemmas; equivalence of an executable matcher with Mathlib's regular-expression semantics |
| C40 C41 C42 | policies | arithmetic, regular-expression semantics |
| C45 C46 C47 C50 C61 | JSON encoder/decoder down to bytes, file system | codec round-trip, prefix-extension lemma for the parser |
| C51 C52 | RWMutex transition system | simulation by induction on schedules; witness schedule for C52 |
| C53 C54 C60 | IdentifyUser | case analysis |
| C57 | QR builder, base32, base64, query escaping, its error texts | codec round-trips; case analysis over the ordered checks |
| C58 C59 | error wrapper, credit cards | case analysis |
| C62 | tag compliance checker over struct descriptions | list induction |
| C63 | which status fields authentication, lookup and identification read; the Disable methods | two databases with equal views give equal outcomes |
| C64 | secrets reach storage, files and responses only through hash, length and blankness (for API keys: prefix and hash) | two runs compared call by call |
| C65 | stored strings stay valid UTF-8 if requests and libraries deal in UTF-8 | cutting lemmas for UTF-8, then induction over histories |
| C66 | the writer-preferring RWMutex: refinement to the simple lock, deadlock freedom, termination of fair schedules, bypass bounds, an endless writer | invariant over schedules, simulation, decreasing measure |
| C67 | clock skew tolerated by one-time codes, exact life time of a code, enrolment against validation | from C30's window by integer division |
| C68 | exact success condition of every mutating call and every read | inverses of the step lemmas, over reachable databases |
| C69 | exactly which public keys are accepted, and the record stored | case analysis of the three parsers against a declarative grammar |
| C70 | which calls panic or do not return: an equivalence | case analysis of every call; the fatal COSE keys described on the JSON value |
| C71 | bcrypt computations made by a login and a key lookup | instrumented copies of the functions (`Model/Work.lean`), tied to the model by an erasure theorem |
| C72 | two handles on one file: separate memories, last writer wins, updates lost | memory effect independent of files; C44 and C45 |
| C73 | recorded times are ordered if the clock is | invariant over histories carrying the clock, for any preorder of instants |
| C74 | generated strings biject with draws; only 72 characters of an API secret count | the alphabet has no repetition; bcrypt's 72-byte key |
| C75 | every error formats; one constant is returned with its `%v` unfilled | a model of Sprintf; each error path carries arguments that fit its text |
| C76 | errors quote no secrets | each error path quotes only strings from a listed set |
| C77 | file read as the JSON grammar says | RFC 8259 as inductive relations; parser sound and complete by induction on fuel |
| C78 | file always current; nothing lost over restarts | invariant over sessions: reopening gives the users in memory; per-call cases from C45, C49, C07 |
| C79 | What calls write to the request | by cases on the code of each call; unknown user and stale code as counterexamples to the natural reading |
| C80 | QR code, authenticator, enrolment, validation | composition of C57, C31, C67, C68 and C28 through an independent reader of the URI |
| C81 | RSA public keys down to bytes: SSH wire form, DER, PEM, MD5 and SHA-256 fingerprints | decoders invert encoders; both compared with RFC 4251/4253, DER and PEM stated as relations (`Spec/KeyFormats.lean`) |
| C82 | ECDSA in WebAuthn | Jacobian formulas against Mathlib's group law; primes by Pratt certificates; order by counting |
| C83 | Numbers of a registration | rounding to nearest even, exactly, over the rationals |
| C84 | Non-interference between users | relational: two databases that agree on the addressed user |
| C85 | Calls for different users commute | from C84 and the frame of each call |
| C86 | Restarts are invisible | induction over the events; the reopened database equals the one in memory |
| C87 | Attempts leave no trace | induction over the history, C07 and C43 |
| C88 | Policies nobody can satisfy | C68 and C40, induction over the history |
| C89 | Struct tags name the fields | ToSnake as an executable function; byte-wise induction; table of all declarations |
| C90 | What is accepted as an RSA key in PEM | inversion of the PEM and DER readers; RFC forms as relations |
| C91 | API secrets come from a small seed | the secret as a function of reduced seed and position; C74 for the 72 characters that count; choice of the inverse |
| C92 | Files, directories and permissions | a tree of files with path lookup, stat, mkdir, MkdirAll and WriteFile; the calls on it coupled to the calls on files by path; cleaning a path keeps its place; induction over histories |
| C93 | The database is a plain list of accounts | a map-free specification of all 19 calls over a list; each lookup shown equal to a search of the list; simulation of each call; induction over histories |
| C94 | User identifiers are version 4 UUIDs | digits of a byte by cases; the 36 places of the text one by one; induction over histories with the drawn identifiers |
| C95 | Linearisability | serialisability (C66) composed with the refinement to a list of accounts (C93) |
| C96 | Struct tags as source text | grammar of tags as an inductive relation, soundness and completeness of the reader; the suggestion is such a tag |
| C97 | Rarity of duplicate identifiers | fibres of the map from 16 bytes to UUIDs have 64 elements; induction over the history counting by the first call's draws |
| C98 | Adding and deleting cancel out | the new item is the last of the list and the only one the filter drops; the prefix was free before |
| C99 | Generator returns, unbiased | large numbers cannot persist: their distance to 2^63 doubles every 607 steps; counting residues |
| C100 | Secrets follow from earlier draws | the recurrence survives dropping the low 32 bits up to a carry, and reduction modulo 62 as 2^31 is 2 modulo 62 |
| C101 | Restart can freeze AddAPIKey | same reduced seed gives the same 24 characters (C99); endless loop (C23); reopening (C45) |
| C102 | Generator shared without a lock | memory accesses of Uint64 interleaved; invariant for exclusive schedules; two goroutines in step |
| C103 | GetUser hands out the record | position of a user is its pointer; frame lemmas for a database altered by the caller; C50 |
| C104 | Guessing one-time codes | C30; rewriting the four bytes read by the truncation is a bijection between the digests of any two numbers |
| C105 | Published policy summaries | texts by cases on the flags; a spelled number followed by a non-digit can be read back |
| C106 | Form of stored accounts | induction over histories; C36, C38, C39 for the round trip; C68 for acceptance |
| C107 | Global generator never seeded | C99's model of the generator at seed 1; the draws are a function of their number |
| C108 | Journal decides who gets in | induction over the history: every account corresponds to its registering line, its last password line and its live key lines |
| C109 | Journal gives the contents | induction over the history; a recursive reading of the journal that commutes with adding a line |
| C110 | Inside bcrypt | Machin's formula with error bounds for the tables; each Feistel round is invertible; closed form of the cyclic key reading |
| C111 | Base64 texts | groups of four digits as one number in base 64 and base 256; uniqueness of digits |
| C112 | What a document puts into the records | the decoder as independent slots of a record, one induction over the members; exact readers for numbers and times |
| C113 | Keys of other kinds inside an RSA PUBLIC KEY block | DER and SSH forms as relations, readers inverted; curve points by congruence; keys of openssl and ssh-keygen as cases |
| C114 | Quoted values in error texts | strconv.Quote as an executable function and as a relation; read back by the relation of C96; formats as a relation |
| C115 | Digests | the standards over words of 32 and 64 bits; constants by roots of primes and by sines (powers of exp i in integers); equivalence with the executable functions |
| C116 | Why an assertion is refused | the checks as an inductive relation with one case each; the function is proved equal to it in both directions |
| C117 | How every call ends | one ordered table of checks per call; each phase of a call (identity, policy, hashing, key reading, enrolment, registration, writing) is proved to end as its part of the table says or to pass it, and the tables leave no choice, so the outcome is equivalent to the table |
| C118 | How opening ends | the table of NewDatabase; the loaders of email addresses and prefixes return the first repeated text, the maps know exactly the users before, and the table leaves no choice, so the outcome is equivalent to the table |
| C119 | OpenSSH lines byte by byte | a grammar of keys and certificates, independent of the parser; the parser is sound and complete for it (induction on the nesting of signing keys) |
| C120 | Which PEM block is read | a grammar of blocks with their position in the text; the reader's search is followed by induction: it never runs past a block, and a decoded body has neither dash nor colon; trimming is shown to leave the one text without white space at its ends |
| C121 | Registrations and handles | the codec chain of C46 and the reading relation of C112 for two more records; the last-member rule of C112; the spelling by inversion letter by letter |
| C122 | Opening a document with nulls | a second model of opening that keeps nil pointers; a simulation with the model of NewDatabase on the part before the first null; the codec chain of C46 for lists with nulls |
| C123 | Nulls that opening overlooks | the loops over pointers as a walk and a search, each by induction; folds compared with the list functions of the plain model |

## 3. Trusted base

* Lean's kernel. Axioms used: at most `propext`, `Classical.choice`, `Quot.sound`; `AXIOMS.md` lists them for every claimed
  theorem (regenerate with `tools/axioms.py`). No own axioms, no `sorry`, no `native_decide`, no `bv_decide`.
* The reading of the Go code: every definition cites the lines it models. Nothing was run.
* The reading of the Go standard library and of golang.org/x/crypto (August 2021, so bcrypt has no 72-byte limit), as far as
  it is modelled: `strings`, `unicode/utf8`, `strconv`, `encoding/json`, `encoding/base64`, `encoding/base32`, `net/url`,
  `time` (RFC 3339 text), `sync.RWMutex`, `crypto/sha1`, `crypto/sha256`, `crypto/sha512`, `crypto/hmac`, bcrypt,
  `crypto/md5`, `encoding/pem`, `encoding/asn1` and `crypto/x509` as of Go 1.15 (public keys of all kinds they know, C113), x/crypto/ssh (public
  keys and certificates, C119), `crypto/ecdsa` over P-256 (written after FIPS 186-4; proved in C82 to be what the group law of Mathlib says).  The hash functions are written after FIPS 180-4, RFC 1321 and RFC 2104 (C115 proves them equal to a second description over bit vectors, with constants described by roots and sines); `Lemmas/Sha.lean` and `Props/Vectors.lean` check the published test vectors
  (FIPS, RFC 2202, 4231, 4226, 6238; RFC 1321 in
  `Props/KeyFormats.lean`, with a key from ssh-keygen) and that the constants are the digits of the roots of primes they should be.
* The class `Ext` (Model/Ext.lean) holds what is assumed to exist as a function but not modelled: lower-casing of non-ASCII
  letters, the digest bcrypt computes with Blowfish from cost, salt and 72-byte key, ECDSA with a key that is not on the curve
  or a signature with a third element, OpenPGP parsing, the home directory, the application version. Theorems hold for every `Ext`. No law of bcrypt is
  assumed: a theorem that says a wrong password is refused excludes that this password has the right digest by accident
  (`NoCollision` in `Spec/Laws.lean`). Model/Blowfish has the computation itself; C110 shows what it says of the key material and puts it in
  place of the parameter (`withBlowfish`). It stays a parameter elsewhere because the examples could not be evaluated in the kernel with it. Other laws are visible hypotheses, satisfied by the toy instance in `Spec/Toy.lean`.
* `tools/toycheck.txt` checks that no general theorem was stated for the toy instance by accident.

### How the model was checked against the code

Besides reading: `Verif/Conformance` evaluates the cases of the repository's own test tables (role, name, email, password,
api_key, credit_card, qr, mfa_token with its real WebAuthn registration, public_key, user and all of database_test.go) in
the model; each gives the result or error text the table expects. Random passwords and RSA keys of the tests are fixed, the
clock stands still, and what OpenPGP says about the test key is taken from gpg. The structs of tag_test.go are in C89. These
are tests of the model, not properties. Model/Blowfish is written from the published algorithm; its digests for three passwords (costs 4, 5
and 10, one password longer than 72 bytes) were compared with those of the C library's crypt, and one is a published test case.

## 4. What is modelled

| File in /repo | Modelled in | Left out |
|---|---|---|
| database.go | Model/Database, Model/Nulls, Model/NullCalls, Model/Live, Model/Tree, Model/Policy, Model/Concurrency, Model/RWLock, Model/Work | `init` (version string is `Ext.appVersion`) |
| user.go | Model/Users | - |
| password.go | Model/Small, Model/Bcrypt, Model/Blowfish | - |
| api_key.go, random.go, uuid.go, role.go, name.go, email.go | Model/Small, Model/Uuid, Model/Rand, Model/SharedRand | - |
| public_key.go | Model/PublicKeys, Model/SshKeys, Model/Pkix, Model/Der, Model/Pem, Model/Md5 | OpenPGP keys |
| mfa_token.go, webauthn.go | Model/Mfa, Model/Sha, Model/P256, Model/Float64, Model/Structs | the `pubkey` cache (see C51_cache_invisible) |
| lockout.go, image.go, location.go, organization.go | Model/Types, Model/Structs (as stored data) | constructors, which return zero values and are not called |
| credit_card*.go | Model/CreditCard | - |
| handle.go, registration.go | Model/Registration | - |
| internal/tag/tag.go | Model/Tag, Model/StructTag (`reflect.StructTag.Get` and `strconv.Unquote` on the source text of a tag); Spec/Declared lists all structs with their tags, Spec/RawTags their source text | - |
| internal/utils/file.go | Model/Database, Model/Path, Model/Tree | - |
| pkg/errors | Model/Errors, Model/ErrorText, Model/Quote | all constants but `ErrDatabaseOperation` and `ErrGetUser`, which nothing uses; texts of library errors are tags, and so is Go's print of a user record (`%v` of a `*User`: nested pointers print as addresses) |
| pkg/qr | Model/Qr | - |
| pkg/requests | Model/Types | fields the library neither reads nor writes (ID, Upstream, Sandbox, Logger) |
| cmd/authdbctl | - | prints its version and exits |
| *_test.go | Conformance/* (the tables) | internal/tests (helpers) |

## 5. Simplifications

* The readings of the clock during a call are a sequence (`Nondet.now : Clock`) used up in the order the code reads it; the
  reading of `commit` is a separate input (`Nondet.commitTime`), and so is the Unix time of the one-time code check
  (`Nondet.unix`). Nothing relates them except where a property says so (C73). The readings that `AddAPIKey`'s loop discards
  are not numbered.
* A Go `int` has 64 bits. User revisions (int) and the database revision (uint64) wrap around.
* `GetUser`, `GetPublicKeys`, `GetAPIKeys`, `GetMfaTokens` hand out live pointers. Histories consist of Database calls; a caller that
  writes through the pointer to a user is the subject of C103 only (Model/Live), and one that reads or writes while a call
  runs is outside the model.
* Outside C92 the file system is a map from literal path strings, so that two spellings of one file are two paths. Model/Tree has
  a tree of directories and files with modes, path lookup and the system calls; `NewDatabase` is written out on it, and a call
  is `exec` on the files as seen by path, of which C92_call_writes shows that it writes as `ioutil.WriteFile` does on the tree
  (C92_open_by_path and C92_call_by_path relate the two views). There are no links, owners or permission checks in the tree; a
  refused system call is one of the failures `Nondet` may choose. Names have no length limit.
* JSON: outside C122 a `null` element in an array of pointers is reported as a panic while decoding. Model/Nulls keeps such
  elements, up to the end of `NewDatabase`. Of the calls on a database opened with nulls among names, tokens and the like, the
  loops over those lists are modelled (Model/NullCalls, C123), but not the histories of such calls. A repeated array member replaces the earlier one; the decoder
  stops at the first type mismatch (Go goes on, but returns an error and every caller discards the value); lenient time
  spellings that nothing writes are rejected, and a time written with escape sequences, which Go rejects, is read as if without.
* `json.MarshalIndent` fails for years above 9999; the clock is assumed not to give one.
* Texts of errors made by libraries are abstracted to short tags, except those of a commit to a directory, of reading a missing
  file or directory, of bcrypt's cost check and of a missing home directory, which are as in Go.
* `timeStep` for negative times or non-positive periods is the parameter `Ext.oddStep`; for the rest `Props/Float.lean` proves
  that the floating-point computation is the integer quotient.
* `math/rand` and `crypto/rand` are arbitrary sequences of draws in the model of the calls. C91 adds how `rand.NewSource` reduces its seed;
  C99 and C100 use a model of the whole generator (Model/Rand). Its 607 constants are not in /repo: they were recomputed as the
  state after 7.8e12 steps, which is how Go's authors made them, and reproduce Go's published output for seed 1.
* In the model of the calls each call has its own draws. C102 takes `Uint64` apart into memory accesses as the source has them
  (Model/SharedRand); a compiler may keep a field in a register and so merge reads, and Go promises nothing for racing accesses.
* Concurrency: a call is a list of atomic micro-steps; a pointer write is atomic; a call that hangs is one that is never
  scheduled to leave. `LookupAPIKey` works on local data before it locks.
* The tag checker decides "exported" from the first byte read as a Latin-1 character, as the code does.
* The published password pattern uses lookaheads, which Go's regexp lacks; its meaning is taken from JavaScript.
* The UUIDs a call draws are arbitrary strings (`Nondet.userID`, `Nondet.ids`); C94 says which ones `NewID` makes of 16 random bytes.
* Requests are never nil pointers.
* C118 (how opening ends) excludes files with a `null` record, which are the subject of C122.
  C120 is about PEM labels without a colon: a label line with one can be taken for a header.
* Code after the unconditional return of `DeleteUser` (database.go:339-349) is unreachable and left out.

## 6. Where the code does not do what one would expect

Proved about the model, with a concrete witness each (theorem or example named in the property's file).

1. AddAPIKey never draws a new secret when the prefix is taken: it spins forever holding the write lock (C23).
2. A disabled API key still authenticates (C21).
3. DeleteAPIKey with several keys of equal ID removes them all but clears only one prefix from the index; the others stay
   taken until the database is reopened (C22).
4. Hashing trims white space, verifying does not: a password registered with surrounding blanks never works (C12).
5. KeepVersions k keeps up to k+3 passwords (C15).
6. bcrypt's key is the password with a NUL appended, repeated: NUL bytes make different passwords collide, and bytes after the
   72nd are ignored (C16).
7. The policy's character flags, BlockReuse and BlockPasswordChange are never enforced (C41).
8. Eleven UUID collisions in a row (one in `NewUser`, ten in `AddUser`; see C97) store a duplicate ID, after which the identity check accepts mixed pairs (C03, C08).
9. The same RSA key given as PEM and as an OpenSSH line gets two fingerprints and is stored twice (C27). An OpenSSH line is
   accepted with usage gpg, a PGP block with usage ssh, and a PEM block called RSA PUBLIC KEY may hold another kind of key.
10. TOTP at time step 0 also tries counter 2^64-1 (C30). Codes can be replayed within their window. Up to three
    of the 10^digits codes are accepted at a time and tries are not counted (C87), so four digits fall to ten thousand tries (C104).
11. WebAuthn: registration panics on a public key member of the wrong JSON type (C35), accepts a registration without
   coordinates that can never authenticate, and never checks client data or attestation. Authentication does not check the
   origin, the user-verified bit or the signature counter (C33 lists exactly what is checked).
12. Roles with a leading slash print as another role, so two different roles have one claim (C36, C37).
13. A name whose part contains a comma does not survive printing and parsing (C38).
14. A user with only disabled tokens is challenged for MFA while the flags say MFA is not configured (C54).
15. IdentifyUser's response code tells known from unknown users (C53).
16. A path starting with `~` is written literally but read from the home directory, and `~name` means `~/name` (C61).
17. The credit card issuer table is empty, so AddIssuer always fails (C59).
18. GetPath takes no lock and can observe Copy's temporary path (C52). MfaToken caches its public key while only the read lock is
   held, a data race in Go's sense (mfa_token.go:310-314, 533), harmless in the model (C51_cache_invisible).
19. The QR label is escaped for a query but placed in a path, so a blank reads as `+` (C57).
20. The published password pattern counts characters, enforcement counts bytes; the username pattern is narrower than
   enforcement (C42).
21. Files are overwritten in place: an interrupted write loses the old contents (C47).
22. Strings that are not valid UTF-8 are silently altered on disk; a TOTP secret with such bytes works until the database is
   reopened (C45, C46).
23. An account's Enabled and Lockout fields are consulted by no authentication, lookup or identification call: a locked or disabled account authenticates, and AddUser leaves
   Enabled false. Expired API keys and expired security keys still work, and ValidateCode ignores a token's status (C63).
24. AuthenticateUser hashes the password even for an unknown user so that timing does not reveal who exists, but a password of
   blanks is refused before it is hashed, and the error returned differs anyway (C71).
25. Nothing ties an open database to its file: a second process (or a second NewDatabase on the same path) silently overwrites
   the first one's changes (C72).
26. The last up to 23 characters of an issued API secret are never checked, because bcrypt reads 72 bytes (C74).
27. `ErrWebAuthnVerifyRequest` is always returned without arguments, so a failed WebAuthn login says `webauthn authentication
    request failed: %v` (user.go:299-309; C75).
28. A request that is used twice can show a stale code: a failed `LookupAPIKey`, and `IdentifyUser` of an unknown user, leave
    `Response.Code` as it was (database.go:641-650, 665-686; C79_stale_code).
29. `IdentifyUser` of an unknown user overwrites the username with `nobody`, and returns nil.  Authenticating with the same
    request afterwards authenticates as the user called `nobody`, if somebody has registered that name
    (C79_unknown_becomes_nobody).
30. Two MFA tokens with different secrets can have the same codes for ever: HMAC pads a short key with zero bytes and hashes a
    long one, so a secret and the same secret with zero bytes after it pass for different ones (C29_zero_bytes_ignored,
    C29_long_secret_is_hashed, C28).
31. Enrolment and the QR code disagree on what is allowed: periods of 181 to 300 seconds and secrets under 6 bytes enrol but have
    no QR code; hotp codes can be built but never enrolled (C80).
32. An OpenSSH line may have any modulus, also zero or negative; the PEM block stored for such a key is refused by the code
    itself (C81_modulus_not_checked).
33. A PEM block `RSA PUBLIC KEY` must hold the X.509 form, which everybody else labels `PUBLIC KEY`; the PKCS #1 form, which
    everybody else labels `RSA PUBLIC KEY` (so `ssh-keygen -e -m PEM`), is refused, and so is the label `PUBLIC KEY`
    (C81_pkcs1_refused, C81_public_key_label_refused).  The OpenSSH path stores its PEM blocks under the wrong label too.
34. PEM keys with even exponents, exponent 1 or exponents above 24 bits are accepted; as OpenSSH lines they are not
    (C81_exponent_gap).
35. A security key whose coordinates are not those of a point of the curve can be registered (C82_key_not_checked; what logging in
    with it does depends on Go's curve code).  An accepted assertion can be replayed, with the same or a different signature
    (C82_replay, C82_malleable), if the caller lets the challenge be chosen by the client.
36. Nothing counts failed attempts: there is no lockout or throttling, and the database after any number of failed logins is the
    one before (C87).  A restart is invisible to every later call, except that it frees prefixes left behind by DeleteAPIKey and
    so cures the endless loop of AddAPIKey (C86).
37. A policy may be unsatisfiable: defaults fill in each limit separately, so a file with only a minimum length above the default
    maximum closes the database to new users for ever (C88).
38. A failed commit of DeletePublicKey names the key's usage where every other error of that call names its ID
    (database.go:534).
39. A PEM key may be followed by arbitrary bytes inside its block, in three places, and the stored payload keeps them
    (C90_block_carries_other_bytes): the payload of a key is not determined by the key.
40. API secrets come from `math/rand` seeded with the time.  The library reduces the seed modulo 2^31-1, so the 72 characters that
    count are one of 2^31-2 strings for each position in the sequence, and identifiers shown to everyone come from the same
    sequence (C91).
41. `ioutil.WriteFile` gives its mode to new files only: a database file that others can read stays readable for them (C92_kept).
42. A path that ends in a slash makes `NewDatabase` fail only after it has made the whole path a directory, so that the name is lost
    for the database (C92_slash_leaves_directories).
43. `NewDatabase` makes the directories of the lexically cleaned path but opens the path as given: `missing/../db.json` fails
    (C92_dotdot_fails).
44. `NewDatabase` makes missing directories, `Copy` does not and fails (C92_no_directory).
45. `getUserByID` lower-cases what it looks for, but NewDatabase files the identifiers as they are written: an account with upper-case
    letters in its identifier is never found by it (C94_upper_case_not_found).  Only tests call it.
46. `GetTagCompliance` suggests a change only for a field without yaml tag; a field that lacks its json or xml tag alone is reported
    without a suggestion (C96_not_suggested).
47. The characters of API secrets follow a linear recurrence: up to four choices each, they are determined by the characters drawn
    607 and 273 places before, which other users may have been shown (C100).
48. Because the seed is reduced modulo 2^31-1, a process restarted at the wrong moment draws the secrets it has issued before; as
    AddAPIKey tests the prefix but does not draw again, it then never returns (C101).
49. The generator is shared by all databases of a process without a lock: concurrent calls on two databases can panic with an
    index out of range, or hand the same secret to two users (C102).
50. `GetUser` hands out the database's own record without a copy: it changes under the caller's hands, and a caller that writes
    to it changes the database without lock, check or revision, up to making the file unusable (C103).
51. `NewRandomString` draws from the global generator of math/rand, which nothing seeds: before Go 1.20 its first string is
    `fpllngzieyoh43e0133ols6k1hh2gdny` in every process (C107).
52. An account with the role `/org/admin` becomes an account with the role `admin` of `org` when it is registered again with what
    its claims tell (C106_slash_role_changes).
53. A block labelled `RSA PUBLIC KEY` may hold an Ed25519, ECDSA or DSA key, which is stored; the same key as an OpenSSH line is
    refused. Any 32 bytes pass for an Ed25519 key and any four positive numbers for a DSA key (C113).
54. `AddPublicKey` and `AddAPIKey` put the requested usage into their errors with `%s`, unlike the errors they wrap, which use `%q`: a usage
    with a line end forges lines of a log that records the error (C114_forged_line).
55. Three checks of `WebAuthnRequest` can never fail: "client data is nil", "auth data is nil" and, at the end, the unsupported algorithm, which
    `derivePublicKey` has refused before (C116).  The reasons of C116 reach no caller of the database: `VerifyWebAuthnRequest` replaces them all by
    one constant (C75).
56. A payload that mentions `RSA PUBLIC KEY` anywhere is read as PEM, and only its first block counts: a good key behind a block of another kind
    is refused (C120_first_block_decides).
57. The mark of an approved registration is spelled `aprroved`, in the field and in its tags: a document that says `approved` is read without
    complaint as a registration that is not approved (C121).
58. `NewDatabase` panics on a file in which a user, an email address, a password or an API key is `null` (C122_first_null_decides). If the
    policy lacks a limit it first writes the file again, with the null and the next revision (C122_written_then_panics).
59. A null among roles or tokens is accepted on opening and makes `IdentifyUser`, and listing and deleting tokens, panic later (C123).

Two property statements changed after reading the code: C32 now says which divisions it covers (rounding to nearest), and C36
excludes a leading slash.
