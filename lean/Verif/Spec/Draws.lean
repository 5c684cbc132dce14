import Verif.Model.Uuid
import Verif.Model.Database
/-!
# The random bytes behind the identifiers
-/
namespace GoIdentity

/-- The 16 bytes that one `NewID` reads. -/
abbrev Bytes16 := Fin 16 → Fin 256

/-- They as a list. -/
def Bytes16.list (b : Bytes16) : List UInt8 := List.ofFn fun i => UInt8.ofNat (b i).val

/-- The identifier made of them. -/
def Bytes16.id (b : Bytes16) : GoString := newID b.list

/-- The draws of one `AddUser`: one by `NewUser` (user.go:67), up to ten by the loop (database.go:267-273). -/
abbrev Draws := Fin 11 → Bytes16

/-- A call with these draws. -/
def Nondet.withDraws (nd : Nondet) (d : Draws) : Nondet :=
  { nd with userID := (d 0).id, ids := List.ofFn fun i : Fin 10 => (d i.succ).id }

/-- A history in which the calls get these draws. -/
def withDraws : (ops : List Op) → (Fin ops.length → Draws) → List Op
  | [], _ => []
  | o :: os, d => { o with nd := o.nd.withDraws (d 0) } :: withDraws os fun i => d i.succ

end GoIdentity
