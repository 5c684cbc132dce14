import Verif.Conformance.Database
/-!
# The repository's own tests: keys, tokens, listing and policy in database_test.go

See Conformance/Small.lean and Conformance/Database.lean.
-/
namespace GoIdentity.Conformance
open Toy

def key1 : GoString :=
  gs! "ssh-rsa AAAAB3NzaC1yc2EAAAADAQABAAAAgQCy+/mhqvCf2yfHWXh9+fHFAa5RRt2XTZZyCPvmtBkDmxTrE02qeMEdDFUdQcC2" ++
  gs! "OJlxdrfJmA9gRR81W3kePRPH0WM90CPSucXETKISnDaibn6WrJdEQB7dcvRkYC/PKkILr4xcXOlznXI9u2wMATYvp6VS1ZNFyCX5" ++
  gs! "Cphsba2cHQ==\n"
def key2 : GoString :=
  gs! "ssh-rsa AAAAB3NzaC1yc2EAAAADAQABAAAAgQC14TuvkwoW6iCkbL9DMQNdmS7aC1GtzPn1YIsFTkbQ5eR3F3BSEl8PHBJoobvG" ++
  gs! "tMz5xby7gVROWQJPO7GucthNpKVKLymw1Ow9QRV1N30GdQlv8W6cgHiY1PYhiVBci71199SsWiKj22FUn+iNVtOcl0zQ7uoApLjo" ++
  gs! "jzJmA90dXw==\n"
def key3 : GoString :=
  gs! "ssh-rsa AAAAB3NzaC1yc2EAAAADAQABAAAAgQDzbrpuzQqvIhh0vTQALybMoLtt2fVpY8J0vvKtXk5ntAw0D+cioKMdD0h/EQJn" ++
  gs! "aO+dXUsCqy/pPFnmuWVZaRtksZIrOyRvKx9rOlJTVvy3yC6tuEq+1YpIEVsJtQEFKGMUDnlbXDbQMJjx5dKDoPHbMjbDneiKAOY4" ++
  gs! "YX0YdJn0nQ==\n"
def key4 : GoString :=
  gs! "ssh-rsa AAAAB3NzaC1yc2EAAAADAQABAAAAgQDoy+L1wArq/nz3MPWY8gYPt3iceRc0nFyhr6LCdyEvTWez7TeJUaG1NHa443hQ" ++
  gs! "efmOIU5Peem3XFiPTNQ1SbMwQX48lTldaYYm/QCSDhueNgezgFJmM//CqK2GI4AlzRRUhgFqfFrnyUe9m9haJT6DnidXCOfFWWWo" ++
  gs! "HCMphvOWBw==\n"
def key5 : GoString :=
  gs! "ssh-rsa AAAAB3NzaC1yc2EAAAADAQABAAAAgQCkw/3hCyJO9DPsmkY29BJbqwh93Mg6WC11BxKvNSnMjzLAGCz96uGKx8OwqPDH" ++
  gs! "RYsfW4NN0Z0cSXW5TXrzXOuc+XnVzWH6GGT5/hQ3ln3GqZwvq52cpomwFU1lFiqOBhUUvbLbXNc8Pvq8ocz/eW+XjkGyj1Z+KcEN" ++
  gs! "pBUSqsPOiw==\n"

/-! ## TestDatabaseUserPublicKey (database_test.go:573-837) -/

def reqKey (username email usage comment payload : GoString) : Request :=
  { user := { username := username, email := email }, key := { usage := usage, comment := comment, payload := payload } }

/-- The keys `GetPublicKeys` gives, with the counter of the bundle. -/
def sshKeys (w : World) : Option (List GoString × Nat) :=
  let r := call .getPublicKeys 0 w { user := { username := testUser1, email := testEmail1 }, key := { usage := gs! "ssh" } }
  match r.out, r.req.response.payload with
  | .done none, .publicKeys b => some (b.items.map (·.id), b.size)
  | _, _ => none

def addKey (i : UInt8) (w : World) (key : GoString) : Result :=
  call .addPublicKey i w (reqKey testUser1 testEmail1 (gs! "ssh") testEmail1 key)
def delKey (w : World) (id : GoString) : Result :=
  call .deletePublicKey 0 w
    { user := { username := testUser1, email := testEmail1 }, key := { usage := gs! "ssh", id := id } }

/-- Delete the keys with these IDs one after the other. -/
def delKeys (w : World) : List GoString → Option World
  | [] => some w
  | id :: ids => let r := delKey w id; if passed r then delKeys (worldOf r) ids else none

def keysA : Result := addKey 1 world2 key1
def keysB : Result := addKey 2 (worldOf keysA) key2
def keysC : Result := addKey 3 (worldOf keysB) key3
def keysD : World := (delKeys (worldOf keysC) (((sshKeys (worldOf keysC)).map (·.1)).getD [])).getD world0
def keysE : Result := addKey 4 keysD key4

example : passed keysA = true ∧ (sshKeys (worldOf keysA)).map (·.2) = some 1 := by decide +kernel
example : passed keysB = true ∧ (sshKeys (worldOf keysB)).map (·.2) = some 2 := by decide +kernel
example : passed keysC = true ∧ (sshKeys (worldOf keysC)).map (·.2) = some 3 := by decide +kernel
example : (delKeys (worldOf keysC) (((sshKeys (worldOf keysC)).map (·.1)).getD [])).isSome = true ∧
    (sshKeys keysD).map (·.2) = some 0 := by decide +kernel
example : passed keysE = true ∧ (sshKeys (worldOf keysE)).map (·.2) = some 1 := by decide +kernel
/-- One key, as after `keysE`; quicker to evaluate. -/
def keyOne : Result := addKey 4 world2 key4

example : outText (delKey (worldOf keyOne) (gs! "foobar")) =
    textOf (.withV .deletePublicKey [gs! "foobar", gs! "not found"] []) ∧
    textOf (.withV .deletePublicKey [gs! "foobar", gs! "not found"] []) ≠ none := by decide +kernel
example : outText (call .addPublicKey 5 (worldOf keyOne) (reqKey (gs! "foobar") (gs! "foobar@barfoo") (gs! "ssh") [] key5)) =
    textOf (.withE .addPublicKey [gs! "ssh"] (.std .databaseUserNotFound)) ∧
    textOf (.withE .addPublicKey [gs! "ssh"] (.std .databaseUserNotFound)) ≠ none := by decide +kernel
example : outText (call .addPublicKey 5 (worldOf keyOne) (reqKey testUser1 testEmail2 (gs! "ssh") [] key5)) =
    textOf (.withE .addPublicKey [gs! "ssh"] (.std .databaseInvalidUser)) ∧
    textOf (.withE .addPublicKey [gs! "ssh"] (.std .databaseInvalidUser)) ≠ none := by decide +kernel
example : outText (call .addPublicKey 5 (worldOf keyOne) (reqKey testUser1 (gs! "foobar@barfoo") (gs! "ssh") [] key5)) =
    textOf (.withE .addPublicKey [gs! "ssh"] (.std .databaseUserNotFound)) := by decide +kernel
example : outText (call .getPublicKeys 5 (worldOf keyOne) (reqKey testUser1 (gs! "foobar@barfoo") (gs! "ssh") [] [])) =
    textOf (.withE .getPublicKeys [gs! "ssh"] (.std .databaseUserNotFound)) ∧
    textOf (.withE .getPublicKeys [gs! "ssh"] (.std .databaseUserNotFound)) ≠ none := by decide +kernel
example : outText (call .deletePublicKey 5 (worldOf keyOne)
      { user := { username := testUser1, email := gs! "foobar@barfoo" }, key := { usage := gs! "ssh", id := gs! "barfoo" } }) =
    textOf (.withE .deletePublicKey [gs! "barfoo"] (.std .databaseUserNotFound)) ∧
    textOf (.withE .deletePublicKey [gs! "barfoo"] (.std .databaseUserNotFound)) ≠ none := by decide +kernel
example : outText (call .addPublicKey 5 (worldOf keyOne) (reqKey testUser1 testEmail1 (gs! "foobar") [] key5)) =
    textOf (.withE .addPublicKey [gs! "foobar"] (.withV .publicKeyInvalidUsage [gs! "foobar"] [])) ∧
    textOf (.withE .addPublicKey [gs! "foobar"] (.withV .publicKeyInvalidUsage [gs! "foobar"] [])) ≠ none := by decide +kernel

def keysF : Result := addKey 5 (badPath (worldOf keyOne)) key5

example : outText keysF = textOf (.withE .addPublicKey [gs! "ssh"] dirError) ∧
    textOf (.withE .addPublicKey [gs! "ssh"] dirError) ≠ none := by decide +kernel
/-- The first of the keys found; the error names the usage, not the ID. -/
example : outText (delKey (badPath (worldOf keysF)) (((sshKeys (goodPath (worldOf keysF))).bind (·.1.head?)).getD [])) =
    textOf (.withE .deletePublicKey [gs! "ssh"] dirError) ∧
    textOf (.withE .deletePublicKey [gs! "ssh"] dirError) ≠ none := by decide +kernel

/-! ## TestDatabaseUserMfaToken (database_test.go:839-1130) -/

def reqTotp (comment secret : GoString) (disabled : Bool) : ReqMfaToken :=
  { comment := comment, type := gs! "totp", secret := secret, algorithm := gs! "sha1", period := 30, digits := 6,
    disabled := disabled }

/-- Add a token, with the code of the previous step. -/
def addTotp (i : UInt8) (w : World) (m : ReqMfaToken) : Result :=
  call .addMfaToken i w
    { user := { username := testUser1, email := testEmail1 }, mfaToken := (generateTestPasscode m true).getD m }

def tokens (w : World) : Option (List GoString × Nat) :=
  let r := call .getMfaTokens 0 w { user := { username := testUser1, email := testEmail1 } }
  match r.out, r.req.response.payload with
  | .done none, .mfaTokens b => some (b.items.map (·.id), b.size)
  | _, _ => none

def delToken (w : World) (id : GoString) : Result :=
  call .deleteMfaToken 0 w { user := { username := testUser1, email := testEmail1 }, mfaToken := { id := id } }

def delTokens (w : World) : List GoString → Option World
  | [] => some w
  | id :: ids => let r := delToken w id; if passed r then delTokens (worldOf r) ids else none

def tokA : Result := addTotp 1 world2 (reqTotp (gs! "ms auth app 30") (gs! "c71ca4c68bc14ec5b4ab8d3c3be02ddd2c") true)
def tokB : Result := addTotp 2 (worldOf tokA) (reqTotp (gs! "ms auth app") (gs! "c71ca4c68bc14ec5b4ab8d3c3b63802c") false)
def tokC : World := (delTokens (worldOf tokB) (((tokens (worldOf tokB)).map (·.1)).getD [])).getD world0
def tokD : Result := addTotp 3 tokC (reqTotp (gs! "ms auth app") (gs! "c71ca4c68bc14ec5b4ab8d3c3b63802c") false)

example : passed tokA = true ∧ (tokens (worldOf tokA)).map (·.2) = some 0 := by decide +kernel
example : passed tokB = true ∧ (tokens (worldOf tokB)).map (·.2) = some 1 := by decide +kernel
example : (delTokens (worldOf tokB) (((tokens (worldOf tokB)).map (·.1)).getD [])).isSome = true ∧
    (tokens tokC).map (·.2) = some 0 := by decide +kernel
example : passed tokD = true ∧ (tokens (worldOf tokD)).map (·.2) = some 1 := by decide +kernel
/-- One token, as after `tokD`; quicker to evaluate. -/
def tokOne : Result :=
  addTotp 3 world2 (reqTotp (gs! "ms auth app") (gs! "c71ca4c68bc14ec5b4ab8d3c3b63802c") false)

example : outText (delToken (worldOf tokOne) (gs! "foobar")) =
    textOf (.withV .deleteMfaToken [gs! "foobar", gs! "not found"] []) ∧
    textOf (.withV .deleteMfaToken [gs! "foobar", gs! "not found"] []) ≠ none := by decide +kernel
example : outText (call .addMfaToken 4 (worldOf tokOne)
      { user := { username := gs! "foobar", email := gs! "foobar@barfoo" } }) =
    textOf (.withE .addMfaToken [] (.std .databaseUserNotFound)) ∧
    textOf (.withE .addMfaToken [] (.std .databaseUserNotFound)) ≠ none := by decide +kernel
example : outText (addTotp 4 (worldOf tokOne) (reqTotp (gs! "ms auth app") (gs! "c71ca4c68bc14ec5b4ab8d3c3b63802c") false)) =
    textOf (.withE .addMfaToken [] (.std .duplicateMfaTokenSecret)) ∧
    textOf (.withE .addMfaToken [] (.std .duplicateMfaTokenSecret)) ≠ none := by decide +kernel
example : outText (addTotp 4 (worldOf tokOne) (reqTotp (gs! "ms auth app") (gs! "d71ca4c68bc14ec5b4ab8d3c3b63802c1") false)) =
    textOf (.withE .addMfaToken [] (.std .duplicateMfaTokenComment)) ∧
    textOf (.withE .addMfaToken [] (.std .duplicateMfaTokenComment)) ≠ none := by decide +kernel
example : outText (call .getMfaTokens 4 (worldOf tokOne) { user := { username := testUser1, email := testEmail2 } }) =
    textOf (.withE .getMfaTokens [] (.std .databaseInvalidUser)) ∧
    textOf (.withE .getMfaTokens [] (.std .databaseInvalidUser)) ≠ none := by decide +kernel
example : outText (call .deleteMfaToken 4 (worldOf tokOne)
      { user := { username := testUser1, email := testEmail2 }, mfaToken := { id := gs! "foobar" } }) =
    textOf (.withE .deleteMfaToken [gs! "foobar"] (.std .databaseInvalidUser)) ∧
    textOf (.withE .deleteMfaToken [gs! "foobar"] (.std .databaseInvalidUser)) ≠ none := by decide +kernel

def tokE : Result :=
  addTotp 4 (badPath (worldOf tokOne)) (reqTotp (gs! "ms auth app 20") (gs! "dd71ca4c68bc14ec5b4ab8d3c3b63802c") false)

example : outText tokE = textOf (.withE .addMfaToken [] dirError) ∧ textOf (.withE .addMfaToken [] dirError) ≠ none := by
  decide +kernel

def longID : GoString := gs! "zzzzzzzzzzzzzzzzzzzzzzzzzz5h3s765Tpx5Laa"

/-- The first token gets another ID, as the test does through its pointer. -/
def renamed (w : World) : World :=
  match w.db.getUser testUser1 with
  | some (i, u) =>
    match u.mfaTokens with
    | t :: ts => { w with db := w.db.setUser i { u with mfaTokens := { t with id := longID } :: ts } }
    | [] => w
  | none => w

example : outText (delToken (renamed (badPath (worldOf tokE))) longID) = textOf (.withE .deleteMfaToken [longID] dirError) ∧
    textOf (.withE .deleteMfaToken [longID] dirError) ≠ none := by decide +kernel

/-! ## TestDatabaseGetUsers (database_test.go:1132-1204) -/

def users : Option (Nat × List (List GoString)) :=
  match (call .getUsers 0 world2 { user := { username := testUser1, email := testEmail1 } }).req.response.payload with
  | .metadata b => some (b.size, b.items.map fun m => [m.username, m.name, m.email, m.title, m.avatar])
  | _ => none

example : users = some (2, [[gs! "jsmith", gs! "Smith, John", gs! "jsmith@gmail.com", [], []],
    [gs! "bjones", [], gs! "bjones@gmail.com", [], []]]) := by decide +kernel

/-! ## TestDatabasePolicy (database_test.go:1206-1284) -/

example : world2.db.policy = ⟨⟨10, 8, 128, false, false, false, false, false, false⟩, ⟨3, 50, false, false⟩⟩ := by decide +kernel
example : usernamePolicySummary world2.db.policy =
    gs! "A username should be 3-50 character long string with lowercase, alpha-numeric characters" := by decide +kernel
example : usernamePolicyRegex world2.db.policy = gs! "^[a-z][a-z0-9]{2,49}$" := by decide +kernel
example : passwordPolicySummary world2.db.policy = gs! "A password should be 8-128 character long string" := by
  decide +kernel
example : passwordPolicyRegex world2.db.policy = gs! "^.{8,128}$" := by decide +kernel

end GoIdentity.Conformance
