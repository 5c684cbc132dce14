import Verif.Model.Registration
import Verif.Spec.Fill
/-!
# What a document says about a registration
-/
namespace GoIdentity

structure Registration.Ok (x : Registration) : Prop where
  user : ∀ u, x.user = some u → u.Ok
  created : x.created.Ok

structure OnlineHandle.Ok (x : OnlineHandle) : Prop where
  github : Utf8 x.github
  twitter : Utf8 x.twitter

def Registration.Says (m : Members) (s r : Registration) : Prop :=
  Into (gs! "user") (OptStep User.Says User.zero) m s.user r.user ∧
  Into (gs! "created") TimeStep m s.created r.created ∧
  Into (gs! "aprroved") BoolStep m s.aprroved r.aprroved

def OnlineHandle.Says (m : Members) (s r : OnlineHandle) : Prop :=
  Into (gs! "github") TextStep m s.github r.github ∧
  Into (gs! "twitter") TextStep m s.twitter r.twitter

end GoIdentity
