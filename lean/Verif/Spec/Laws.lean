import Verif.Lemmas.Bcrypt
import Verif.Spec.Toy
/-!
# Collisions of bcrypt

Nothing is assumed about the Blowfish computation.  Where a theorem says that a wrong password is rejected, it excludes that this
password happens to have the digest of the right one, under the salt in question.
-/
namespace GoIdentity

/-- bcrypt at cost 10 computes the same digest from both passwords. -/
def SameDigest [Ext] (salt p q : GoString) : Prop :=
  bcryptDigest 10 (buffer 16 salt) (bcryptKey p) = bcryptDigest 10 (buffer 16 salt) (bcryptKey q)

/-- If both passwords have the same digest, then because they have the same 72 bytes of key material. -/
def NoCollision [Ext] (salt p q : GoString) : Prop := SameDigest salt p q → bcryptKey p = bcryptKey q

theorem NoCollision.iff [Ext] {salt p q : GoString} (h : NoCollision salt p q) : SameDigest salt p q ↔ bcryptKey p = bcryptKey q :=
  ⟨h, fun e => by unfold SameDigest; rw [e]⟩

end GoIdentity
