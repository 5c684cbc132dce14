import Verif.Model.Database
/-!
# The pointer that `GetUser` hands out

`r.Response.Payload = user` (database.go:325) gives the caller the `*User` of the database itself, which the caller can read and
write later without the lock.
-/
namespace GoIdentity

/-- What the pointer to the `i`-th user shows now.  Users are only appended (database.go:286) and never replaced, so pointers are
positions. -/
def Database.shown (db : Database) (i : Nat) : Option User := db.users[i]?

/-- The caller writes through the pointer, or through pointers reachable from it: nothing but the record changes. -/
def Database.poke (db : Database) (i : Nat) (f : User → User) : Database := { db with users := db.users.modify i f }

end GoIdentity
