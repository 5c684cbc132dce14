import Verif.Props.Opening
import Verif.Spec.Refusals
/-!
# The table of checks of NewDatabase

What `NewDatabase` looks at, in order, and how it ends if the check applies.
-/
namespace GoIdentity
variable [Ext]

/-- How an operation that returns a value or an error ends. -/
def Res.outcome {α : Type} : Res α → Outcome
  | .ok _ => .success
  | .err e => .fail e
  | .panic => .panic

/-- The first text of a list that was seen before, be it outside of the list or earlier in it. -/
def FirstRepeat (seen : GoString → Prop) (l : List GoString) (s : GoString) : Prop :=
  ∃ as bs, l = as ++ s :: bs ∧ (seen s ∨ s ∈ as) ∧ as.Nodup ∧ ∀ a ∈ as, ¬ seen a

/-- The path a database is read from: a leading tilde stands for the home directory. -/
def ReadFrom (fp p : GoString) : Prop :=
  (fp ≠ [] ∧ fp.head? ≠ some 126 ∧ p = fp) ∨ ∃ rest home, fp = 126 :: rest ∧ Ext.homeDir = some home ∧ p = joinPath home rest

/-- The file holds no document with a `null` where a record belongs (which this model does not follow further). -/
def NoNullRecords (fs : FS) (fp : GoString) : Prop := ∀ p b, ReadFrom fp p → fs p = some (.file b) → unmarshalDB b ≠ .panic

/-- The document a file holds. -/
def HoldsDoc (fs : FS) (fp : GoString) (d : DBData) : Prop :=
  ∃ p b, ReadFrom fp p ∧ fs p = some (.file b) ∧ unmarshalDB b = .ok d

namespace Checks

/-- Checks that are made in some cases only. -/
def only (c : Prop) (rs : List Row) : List Row := rs.map fun r o => c ∧ r o

/-- A user of the document, after the users before. -/
def loadUser (pre : List User) (u : User) : List Row :=
  let bad := GoErr.withE .newDatabaseInvalidUser [gs! "user"]
  [refuse (u.id.length ≠ 36) (bad (.withV .userIDInvalidLength [] [u.id.length])),
   refuse (u.username = []) (bad (.std .usernameEmpty)),
   refuse (u.passwords = []) (bad (.std .userPasswordNotFound)),
   refuse (∃ v ∈ pre, toLower v.username = toLower u.username)
     (.withV .newDatabaseDuplicateUser [u.username, gs! "user"] []),
   refuse (∃ v ∈ pre, v.id = u.id) (.withV .newDatabaseDuplicateUserID [u.id, gs! "user"] []),
   (fun o => ∃ a, FirstRepeat (fun s => ∃ v ∈ pre, ∃ e ∈ v.emailAddresses, toLower e.address = s)
       (u.emailAddresses.map fun e => toLower e.address) a ∧
     o = .fail (.withV .newDatabaseDuplicateEmail [a, gs! "user"] [])),
   (fun o => ∃ x, FirstRepeat (fun s => ∃ v ∈ pre, ∃ k ∈ v.apiKeys, k.pfx = s) (u.apiKeys.map (·.pfx)) x ∧
     o = .fail (.withV .newDatabaseDuplicateAPIKey [x, gs! "user"] []))]

/-- The users of the document, after the users before. -/
def loadUsers (pre : List User) : List User → List Row
  | [] => done
  | u :: us => loadUser pre u ++ loadUsers (pre ++ [u]) us

/-- `NewDatabase`. -/
def newDatabase (nd : Nondet) (fs : FS) (fp : GoString) : List Row :=
  let w := GoErr.withE .newDatabase [fp]
  [refuse (nd.statErr = true) (w (.ext (gs! "stat"))),
   -- a path with nothing there
   refuse (fs fp = none ∧ nd.mkdirErr = true) (w (.ext (gs! "mkdir")))] ++
  only (fs fp = none) (write nd fs fp w ++ done) ++
  [refuse (fs fp = some .dir) (.withV .newDatabase [fp, gs! "path points to a directory"] []),
   -- a file
   endsIf (fp = []) .panic,
   refuse (fp.head? = some 126 ∧ Ext.homeDir = none) (w (.ext (gs! "$HOME is not defined"))),
   refuse (nd.readErr = true) (w (.ext (gs! "read"))),
   (fun o => ∃ p, ReadFrom fp p ∧ fs p = none ∧ o = .fail (w (.ext (gs! "open " ++ p ++ gs! ": no such file or directory")))),
   (fun o => ∃ p, ReadFrom fp p ∧ fs p = some .dir ∧ o = .fail (w (.ext (gs! "read " ++ p ++ gs! ": is a directory")))),
   (fun o => ∃ p b e, ReadFrom fp p ∧ fs p = some (.file b) ∧ unmarshalDB b = .err e ∧ o = .fail (w e))] ++
  only (∃ d, HoldsDoc fs fp d ∧ d.policy.HasZero) (write nd fs fp w) ++
  [fun o => ∃ d, HoldsDoc fs fp d ∧ Decides (loadUsers [] d.users) o]

end Checks
end GoIdentity
