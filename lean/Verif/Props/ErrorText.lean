import Verif.Spec.Wording
import Verif.Lemmas.ErrorText
import Verif.Spec.Toy
/-!
# What errors say

`GoErr.text` is `Error()`: `none` stands for a text in which Go complains about a verb or an argument (`%!v(MISSING)`,
`%!(EXTRA …)`, `%!d(string=…)`).
-/
namespace GoIdentity
open Toy

/-- C75: every error of every call formats: each verb of its text, and of the texts of the errors it wraps, has exactly one
argument of a fitting kind. -/
theorem C75_call_errors_format [Ext] (quote : GoString → GoString) (c : Call) (nd : Nondet) (db : Database) (fs : FS)
    (req : Request) (e : GoErr) (h : (exec c nd db fs req).out = .fail e) : ∃ t, e.text quote = some t := by
  have hg := exec_good c nd db fs req
  rw [h] at hg
  exact GoErr.Good.text quote hg

/-- C75: so does every error of `NewDatabase`. -/
theorem C75_open_errors_format [Ext] (quote : GoString → GoString) (nd : Nondet) (fs : FS) (fp : GoString) (e : GoErr)
    (h : (newDatabase nd fs fp).1 = .err e) : ∃ t, e.text quote = some t :=
  GoErr.Good.text quote ((newDatabase_good nd fs fp).of_eq h)

/-- C75: a constant that is returned without arguments has no verb in its text, with one exception. -/
theorem C75_bare_constants_have_no_verbs [Ext] (c : Call) (nd : Nondet) (db : Database) (fs : FS) (req : Request)
    (e : GoErr) (h : (exec c nd db fs req).out = .fail e) :
    ∀ x ∈ e.bare, (37 : UInt8) ∉ x.text ∨ x = .webAuthnVerifyRequest := by
  have hg := exec_good c nd db fs req
  rw [h] at hg
  exact GoErr.Good.bare hg

/-- C75, the exception: a known user who sends a well-formed WebAuthn request that no token accepts gets an error whose text
ends in a literal `%v`. -/
theorem C75_failed_assertion_shows_verb [Ext] (quote : GoString → GoString) (nd : Nondet) (db : Database) (fs : FS)
    (req : Request) (i : Nat) (u : User) (r : AuthenticateRequest)
    (hu : db.getUser req.user.username = some (i, u)) (hp : req.user.password = []) (hw : req.webAuthn.request ≠ [])
    (hr : unpackWebAuthnRequest req.webAuthn.request = .ok r) (e : GoErr)
    (h : (exec .authenticateUser nd db fs req).out = .fail e) :
    e.text quote = some (gs! "user authentication failed: webauthn authentication request failed: %v") := by
  have hv : ∀ ts e', User.verifyTokens req.webAuthn r.id ts = .err e' → e' = .std .webAuthnVerifyRequest := by
    intro ts
    induction ts with
    | nil => intro e' h; injection h with h; exact h.symm
    | cons t ts ih =>
      intro e' h
      unfold User.verifyTokens at h
      repeat' split at h
      all_goals first
        | exact ih _ h
        | (injection h with h; exact h.symm)
        | cases h
  simp only [exec, Database.authenticateUser, hu, hp, ne_eq, not_true_eq_false, if_false, hw, not_false_eq_true,
    if_true, User.verifyWebAuthnRequest, hr] at h
  split at h
  · rename_i e' he
    rw [hv _ _ he] at h
    injection h with h
    injection h with h
    subst h
    rfl
  · cases h
  · cases h

example :
    ∃ e, (exec .authenticateUser nd db2 fs3
        { reqJoe with
          user := { reqJoe.user with password := [] }
          webAuthn := { reqJoe.webAuthn with request := b64Encode (gs! "{\"id\":\"x\"}") } }).out = .fail e ∧
      e.text id = some (gs! "user authentication failed: webauthn authentication request failed: %v") := by
  exact ⟨_, rfl, rfl⟩

/-- C76: what the error of a call quotes comes from the request (never a password, passcode or token secret, nor the secret
of an API key), is a fixed message, or is the path written to. -/
theorem C76_call_errors_quote_no_secrets [Ext] (c : Call) (nd : Nondet) (db : Database) (fs : FS) (req : Request)
    (e : GoErr) (h : (exec c nd db fs req).out = .fail e) : ∀ s ∈ e.quoted, Quotable c db req s := by
  have hg := exec_good c nd db fs req
  rw [h] at hg
  exact GoErr.Good.quoted hg

/-- C76: what an error of `NewDatabase` quotes is the path, a fixed message, or a username, identifier, email address or key
prefix in a file. -/
theorem C76_open_errors_quote_no_secrets [Ext] (nd : Nondet) (fs : FS) (fp : GoString) (e : GoErr)
    (h : (newDatabase nd fs fp).1 = .err e) : ∀ s ∈ e.quoted, OpenQuotable fs fp s :=
  GoErr.Good.quoted ((newDatabase_good nd fs fp).of_eq h)

example :
    ∃ e, (exec .addUser nd db1 fs2 reqJoe).out = .fail e ∧ e.quoted = [toLower reqJoe.user.username, gs! "username already in use"] :=
  ⟨_, rfl, rfl⟩

/-! ## The wordings -/

/-- C75: every constant has the wording written in pkg/errors, and each is written there once. -/
theorem C75_wordings (e : StdErr) : wordings.filter (fun w => w.1 == e) = [(e, e.text)] := by
  cases e <;> decide +kernel

/-- The constants that share their wording with another one. -/
def sharedWording : List (StdErr × StdErr) :=
  [(.apiKeyPayloadEmpty, .lookupAPIKeyPayloadEmpty), (.deletePublicKey, .deleteAPIKey), (.getPublicKeys, .getAPIKeys)]

/-- C75: two constants have the same wording exactly if they are equal or one of three pairs. -/
theorem C75_same_wording (e e' : StdErr) :
    e.text = e'.text ↔ e = e' ∨ (e, e') ∈ sharedWording ∨ (e', e) ∈ sharedWording := by
  have hmem : ∀ e : StdErr, (e, e.text) ∈ wordings := by
    intro e
    have := C75_wordings e
    have hm : (e, e.text) ∈ wordings.filter (fun w => w.1 == e) := by rw [this]; exact List.mem_singleton.2 rfl
    exact (List.mem_filter.1 hm).1
  have hall : ∀ x ∈ wordings, ∀ y ∈ wordings,
      (x.2 = y.2 ↔ x.1 = y.1 ∨ (x.1, y.1) ∈ sharedWording ∨ (y.1, x.1) ∈ sharedWording) := by decide +kernel
  exact hall _ (hmem e) _ (hmem e')

end GoIdentity
