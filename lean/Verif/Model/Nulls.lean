import Verif.Model.Database
/-!
# Documents with `null` where a record belongs

`encoding/json` stores a nil pointer for a `null` in an array of pointers.  `Model/Codec` reports that as a panic; here the nil
pointers are kept, `NewDatabase` is written out on them, and the panic comes where one is dereferenced.
-/
namespace GoIdentity
variable [Ext]

/-- Decodes the elements of an array of struct pointers, nil pointers included. -/
def decSlots {σ : Type} (fs : List (Field σ)) (zero : σ) : List Json → Res (List (Option σ))
  | [] => .ok []
  | .null :: js =>
    match decSlots fs zero js with
    | .ok xs => .ok (none :: xs)
    | .err e => .err e
    | .panic => .panic
  | j :: js =>
    match decStruct fs j zero with
    | .ok x =>
      match decSlots fs zero js with
      | .ok xs => .ok (some x :: xs)
      | .err e => .err e
      | .panic => .panic
    | .err e => .err e
    | .panic => .panic

/-- How a pointer is written as an element of an array. -/
def encSlot {σ : Type} (fs : List (Field σ)) : Option σ → Json
  | none => .null
  | some x => encStruct fs x

/-- slice of struct pointers with omitempty -/
def fSlots {σ τ : Type} (name : GoString) (fs : List (Field τ)) (zero : τ) (get : σ → List (Option τ))
    (set : σ → List (Option τ) → σ) : Field σ where
  name := name
  enc x := if (get x).isEmpty then none else some (.arr ((get x).map (encSlot fs)))
  dec j s :=
    match j with
    | .null => .ok (set s [])
    | .arr js =>
      (match decSlots fs zero js with
       | .ok v => .ok (set s v)
       | .err e => .err e
       | .panic => .panic)
    | _ => typeErr

/-- user.go:45-68 with nil pointers: `rest` has the fields that are no lists. -/
structure NullUser where
  rest : User
  names : List (Option Name)
  organizations : List (Option Organization)
  streetAddress : List (Option Location)
  emailAddresses : List (Option EmailAddress)
  passwords : List (Option Password)
  publicKeys : List (Option PublicKey)
  apiKeys : List (Option APIKey)
  mfaTokens : List (Option MfaToken)
  roles : List (Option Role)

/-- user.go:45-68 -/
def nullUserFields : List (Field NullUser) :=
  [ fStr (gs! "id") (·.rest.id) (fun s v => { s with rest := { s.rest with id := v } }),
    fBool (gs! "enabled") (·.rest.enabled) (fun s v => { s with rest := { s.rest with enabled := v } }),
    fBool (gs! "human") (·.rest.human) (fun s v => { s with rest := { s.rest with human := v } }),
    fStr (gs! "username") (·.rest.username) (fun s v => { s with rest := { s.rest with username := v } }),
    fStr (gs! "title") (·.rest.title) (fun s v => { s with rest := { s.rest with title := v } }),
    fPtr (gs! "name") nameFields Name.zero (·.rest.name) (fun s v => { s with rest := { s.rest with name := v } }),
    fPtr (gs! "organization") organizationFields Organization.zero (·.rest.organization)
      (fun s v => { s with rest := { s.rest with organization := v } }),
    fSlots (gs! "names") nameFields Name.zero (·.names) (fun s v => { s with names := v }),
    fSlots (gs! "organizations") organizationFields Organization.zero (·.organizations)
      (fun s v => { s with organizations := v }),
    fSlots (gs! "street_address") locationFields Location.zero (·.streetAddress)
      (fun s v => { s with streetAddress := v }),
    fPtr (gs! "email_address") emailFields EmailAddress.zero (·.rest.emailAddress)
      (fun s v => { s with rest := { s.rest with emailAddress := v } }),
    fSlots (gs! "email_addresses") emailFields EmailAddress.zero (·.emailAddresses)
      (fun s v => { s with emailAddresses := v }),
    fSlots (gs! "passwords") passwordFields Password.zero (·.passwords) (fun s v => { s with passwords := v }),
    fSlots (gs! "public_keys") publicKeyFields PublicKey.zero (·.publicKeys) (fun s v => { s with publicKeys := v }),
    fSlots (gs! "api_keys") apiKeyFields APIKey.zero (·.apiKeys) (fun s v => { s with apiKeys := v }),
    fSlots (gs! "mfa_tokens") mfaTokenFields MfaToken.zero (·.mfaTokens) (fun s v => { s with mfaTokens := v }),
    fPtr (gs! "lockout") lockoutFields LockoutState.zero (·.rest.lockout)
      (fun s v => { s with rest := { s.rest with lockout := v } }),
    fPtr (gs! "avatar") imageFields Image.zero (·.rest.avatar) (fun s v => { s with rest := { s.rest with avatar := v } }),
    fTime (gs! "created") (·.rest.created) (fun s v => { s with rest := { s.rest with created := v } }),
    fTime (gs! "last_modified") (·.rest.lastModified) (fun s v => { s with rest := { s.rest with lastModified := v } }),
    fInt (gs! "revision") (·.rest.revision) (fun s v => { s with rest := { s.rest with revision := v } }),
    fSlots (gs! "roles") roleFields Role.zero (·.roles) (fun s v => { s with roles := v }) ]

def NullUser.zero : NullUser := ⟨User.zero, [], [], [], [], [], [], [], [], []⟩

/-- database.go:99-105 with nil pointers -/
structure NullData where
  version : GoString
  policy : Policy
  revision : Nat
  lastModified : GoTime
  users : List (Option NullUser)

/-- database.go:99-105 -/
def nullFields : List (Field NullData) :=
  [ fStr (gs! "version") (·.version) (fun s v => { s with version := v }),
    fStruct (gs! "policy") policyFields (·.policy) (fun s v => { s with policy := v }),
    fUint (2 ^ 64) (gs! "revision") (·.revision) (fun s v => { s with revision := v }),
    fTime (gs! "last_modified") (·.lastModified) (fun s v => { s with lastModified := v }),
    fSlots (gs! "users") nullUserFields NullUser.zero (·.users) (fun s v => { s with users := v }) ]

def NullData.zero : NullData := ⟨[], .zero, 0, .zero, []⟩

/-- `json.MarshalIndent(db, "", "  ")` (database.go:458). -/
def marshalNull (d : NullData) : GoString := render 0 (encStruct nullFields d)

/-- `json.Unmarshal(b, db)` (database.go:144). -/
def unmarshalNull (b : GoString) : Res NullData := unmarshal nullFields NullData.zero b

/-- The four maps of a database (database.go:101-104). -/
structure Refs where
  emails : GoString → Option Nat
  names : GoString → Option Nat
  ids : GoString → Option Nat
  keys : GoString → Option Nat

/-- database.go:171-177; `email.Address` of a nil pointer panics. -/
def nullEmails (i : Nat) : List (Option EmailAddress) → (GoString → Option Nat) → Res (GoString → Option Nat)
  | [], m => .ok m
  | none :: _, _ => .panic
  | some e :: es, m =>
    let a := toLower e.address
    match m a with
    | some _ => .err (.withV .newDatabaseDuplicateEmail [a, gs! "user"] [])
    | none => nullEmails i es (upd m a (some i))

/-- database.go:178-182; `p.Algorithm` of a nil pointer panics. -/
def nullPasswords : List (Option Password) → Res Unit
  | [] => .ok ()
  | none :: _ => .panic
  | some _ :: ps => nullPasswords ps

/-- database.go:183-188; `apiKey.Prefix` of a nil pointer panics. -/
def nullKeys (i : Nat) : List (Option APIKey) → (GoString → Option Nat) → Res (GoString → Option Nat)
  | [], m => .ok m
  | none :: _, _ => .panic
  | some k :: ks, m =>
    match m k.pfx with
    | some _ => .err (.withV .newDatabaseDuplicateAPIKey [k.pfx, gs! "user"] [])
    | none => nullKeys i ks (upd m k.pfx (some i))

/-- `Valid` (user.go:135-146); it looks at the number of the passwords only. -/
def NullUser.valid (u : NullUser) : Res Unit :=
  if u.rest.id.length ≠ 36 then .err (.withV .userIDInvalidLength [] [u.rest.id.length])
  else if u.rest.username = [] then .err (.std .usernameEmpty)
  else if u.passwords.length < 1 then .err (.std .userPasswordNotFound)
  else .ok ()

/-- The body of the user loop (database.go:158-189); `user.ID` of a nil pointer panics in `Valid`. -/
def nullLoadUser (i : Nat) (user : Option NullUser) (m : Refs) : Res Refs :=
  match user with
  | none => .panic
  | some u =>
    match u.valid with
    | .err e => .err (.withE .newDatabaseInvalidUser [gs! "user"] e)
    | .panic => .panic
    | .ok _ =>
      match m.names (toLower u.rest.username), m.ids u.rest.id with
      | some _, _ => .err (.withV .newDatabaseDuplicateUser [u.rest.username, gs! "user"] [])
      | none, some _ => .err (.withV .newDatabaseDuplicateUserID [u.rest.id, gs! "user"] [])
      | none, none =>
        match nullEmails i u.emailAddresses m.emails with
        | .err e => .err e
        | .panic => .panic
        | .ok emails =>
          match nullPasswords u.passwords with
          | .err e => .err e
          | .panic => .panic
          | .ok _ =>
            match nullKeys i u.apiKeys m.keys with
            | .err e => .err e
            | .panic => .panic
            | .ok keys => .ok ⟨emails, upd m.names (toLower u.rest.username) (some i), upd m.ids u.rest.id (some i), keys⟩

/-- The user loop (database.go:158-189). -/
def nullLoadUsers (i : Nat) : List (Option NullUser) → Refs → Res Refs
  | [], m => .ok m
  | u :: us, m =>
    match nullLoadUser i u m with
    | .err e => .err e
    | .panic => .panic
    | .ok m => nullLoadUsers (i + 1) us m

def Refs.empty : Refs := ⟨fun _ => none, fun _ => none, fun _ => none, fun _ => none⟩

/-- `commit` (database.go:455-466). -/
def nullCommit (nd : Nondet) (fp : GoString) (d : NullData) (fs : FS) : FS × Option GoErr :=
  match writeFile fs fp (marshalNull { d with revision := (d.revision + 1) % 2 ^ 64, lastModified := nd.commitTime }) nd.io with
  | (fs, none) => (fs, none)
  | (fs, some e) => (fs, some (.withE .databaseCommit [fp] e))

/-- `NewDatabase` on the document of a file (database.go:144-190): how it ends, and the files. -/
def nullOpenDoc (nd : Nondet) (fs : FS) (fp b : GoString) : Res Refs × FS :=
  match unmarshalNull b with
  | .err e => (.err (.withE .newDatabase [fp] e), fs)
  | .panic => (.panic, fs)
  | .ok d =>
    let (policy, changed) := enforceDefaultPolicy d.policy
    if changed then
      match nullCommit nd fp { d with policy := policy } fs with
      | (fs, some e) => (.err (.withE .newDatabase [fp] e), fs)
      | (fs, none) => (nullLoadUsers 0 d.users Refs.empty, fs)
    else (nullLoadUsers 0 d.users Refs.empty, fs)

end GoIdentity
