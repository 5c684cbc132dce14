import Verif.Spec.Proper
import Verif.Spec.Strings
/-!
# Histories in which all text is valid UTF-8
-/
namespace GoIdentity

/-- The strings of a request that a call may store. -/
structure Request.Text (r : Request) : Prop where
  username : Utf8 r.user.username
  fullName : Utf8 r.user.fullName
  roles : ∀ s ∈ r.user.roles, Utf8 s
  keyComment : Utf8 r.key.comment
  keyPayload : Utf8 r.key.payload
  tokenComment : Utf8 r.mfaToken.comment
  tokenSecret : Utf8 r.mfaToken.secret
  challenge : Utf8 r.webAuthn.challenge

/-- UUIDs are text. -/
structure Nondet.Text (nd : Nondet) : Prop where
  userID : Utf8 nd.userID
  ids : ∀ id ∈ nd.ids, Utf8 id

/-- What the OpenPGP library reports about a key is text; for the identities this depends on who made the key. -/
structure PgpEntity.Text (e : PgpEntity) : Prop where
  keyIdHex : Utf8 e.keyIdHex
  fingerprintHex : Utf8 e.fingerprintHex
  created : Utf8 e.created
  identities : ∀ s ∈ e.identities, Utf8 s

/-- The libraries return text. -/
structure ExtText [Ext] : Prop where
  pgp : ∀ s es, Ext.pgpRead s = some es → ∀ e ∈ es, e.Text
  appVersion : Utf8 Ext.appVersion

/-- Histories on a well-behaved runtime (see `ReachProper`) whose requests carry text. -/
inductive ReachText [Ext] : Database → Prop
  | init {db : Database} (nd : Nondet) (fs : FS) (fp : GoString) (fs' : FS) (hnd : nd.Proper)
      (h : newDatabase nd fs fp = (.ok db, fs')) : ReachText db
  | step {db : Database} (h : ReachText db) (c : Call) (nd : Nondet) (fs : FS) (req : Request) (hnd : nd.Proper)
      (hfresh : c = .addUser → ∃ id ∈ nd.ids.take 10, ∀ u ∈ db.users, u.id ≠ id) (htn : nd.Text) (htr : req.Text) :
      ReachText (exec c nd db fs req).db

theorem ReachText.proper [Ext] {db : Database} (h : ReachText db) : ReachProper db := by
  induction h with
  | init nd fs fp fs' hnd h => exact .init nd fs fp fs' hnd h
  | step h c nd fs req hnd hfresh _ _ ih => exact .step ih c nd fs req hnd hfresh

end GoIdentity
