import Verif.Model.Structs
/-!
# Registrations and handles (registration.go, handle.go)

Nothing else in the package uses these records.  A program that keeps registrations writes them with `encoding/json`, which
is what the tags are for.
-/
namespace GoIdentity

/-- registration.go:25-29.  The field is spelled as in the code. -/
structure Registration where
  user : Option User
  created : GoTime
  aprroved : Bool
  deriving DecidableEq, Repr

/-- registration.go:32-38.  The first reading of the clock is in universal time. -/
def newRegistration (now : Clock) (user : Option User) : Registration :=
  { user := user, created := now 0, aprroved := false }

/-- registration.go:25-29 -/
def registrationFields : List (Field Registration) :=
  [ fPtr (gs! "user") userFields User.zero (·.user) (fun s v => { s with user := v }),
    fTime (gs! "created") (·.created) (fun s v => { s with created := v }),
    fBool (gs! "aprroved") (·.aprroved) (fun s v => { s with aprroved := v }) ]

def Registration.zero : Registration := ⟨none, .zero, false⟩

/-- handle.go:18-21 -/
structure OnlineHandle where
  github : GoString
  twitter : GoString
  deriving DecidableEq, Repr

/-- handle.go:24-26 -/
def newHandle : OnlineHandle := ⟨[], []⟩

/-- handle.go:18-21 -/
def handleFields : List (Field OnlineHandle) :=
  [ fStr (gs! "github") (·.github) (fun s v => { s with github := v }),
    fStr (gs! "twitter") (·.twitter) (fun s v => { s with twitter := v }) ]

/-- `json.MarshalIndent(r, "", "  ")` -/
def marshalRegistration (r : Registration) : GoString := render 0 (encStruct registrationFields r)

/-- `json.Unmarshal(b, &Registration{})` -/
def unmarshalRegistration (b : GoString) : Res Registration := unmarshal registrationFields Registration.zero b

/-- `json.MarshalIndent(h, "", "  ")` -/
def marshalHandle (h : OnlineHandle) : GoString := render 0 (encStruct handleFields h)

/-- `json.Unmarshal(b, NewHandle())` -/
def unmarshalHandle (b : GoString) : Res OnlineHandle := unmarshal handleFields newHandle b

end GoIdentity
