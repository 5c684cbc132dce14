import Verif.Spec.Sessions
import Verif.Lemmas.ApiKeys
/-!
# Calls and restarts
-/
namespace GoIdentity
variable [Ext]

/-- What happens to a program: a call, or its end and a new start that opens the file again. -/
inductive Event
  | op (o : Op)
  | restart (nd : Nondet)

/-- The event is a call. -/
def Event.isOp : Event → Bool
  | .op _ => true
  | .restart _ => false

/-- The database and the files at the end, and the answers and requests of the calls in order; `none` if the file could not be
opened again.  Nothing happens after a call that never returns. -/
def play (fp : GoString) (db : Database) (fs : FS) : List Event → Option ((Database × FS) × List (Outcome × Request))
  | [] => some ((db, fs), [])
  | .op o :: es =>
    let r := exec o.call o.nd db fs o.req
    if r.out = .hang then some ((r.db, r.fs), [(r.out, r.req)])
    else (play fp r.db r.fs es).map fun x => (x.1, (r.out, r.req) :: x.2)
  | .restart nd :: es =>
    match newDatabase nd fs fp with
    | (.ok db', fs') => play fp db' fs' es
    | _ => none

/-- The circumstances of a run of calls: clock, entropy and disk work, drawn user identifiers are not all taken, copies are
written to no other path, and no user gets two API keys of one identifier.  Where the program ends, the stored strings are
valid UTF-8 and the file can be read.  The databases meant are those of the run that goes on
without restarts. -/
def Smooth (fp : GoString) (db : Database) (fs : FS) : List Event → Prop
  | [] => True
  | .op o :: es =>
    let r := exec o.call o.nd db fs o.req
    (o.nd.Proper ∧ o.nd.io = .ok ∧ (o.call = .addUser → ∃ id ∈ o.nd.ids.take 10, ∀ u ∈ db.users, u.id ≠ id) ∧
      (∀ p, o.call = .copy p → p = fp) ∧ KeyIDsDistinct r.db) ∧ Smooth fp r.db r.fs es
  | .restart nd :: es =>
    (nd.statErr = false ∧ nd.readErr = false ∧ db.toDBData.Strings) ∧ Smooth fp db fs es

end GoIdentity
