import Verif.Lemmas.WaRefusal
import Verif.Props.WebAuthn
import Verif.Props.ErrorText
/-!
# Why an assertion is refused: C116
-/
namespace GoIdentity
open Toy

/-- C116: `WebAuthnRequest` refuses with the error `e` exactly if `e` belongs to the first check the assertion fails. -/
theorem C116_refused_iff [Ext] {t : MfaToken} {payload : GoString} {e : GoErr} :
    webAuthnRequest t payload = .err e ↔ Refused t payload e :=
  ⟨webAuthnRequest_refused, refused_webAuthnRequest⟩

/-- C116: and accepts exactly if every check passes; it returns the decoded request with the client data and the authenticator
data filled in. -/
theorem C116_returned_iff [Ext] {t : MfaToken} {payload : GoString} {resp : AuthenticateRequest} :
    webAuthnRequest t payload = .ok resp ↔ Returned t payload resp := webAuthnRequest_ok_iff

/-- C116: for every token and payload there is exactly one reason for refusal, or none and then exactly one result. -/
theorem C116_one_reason [Ext] (t : MfaToken) (payload : GoString) :
    (∃ e, Refused t payload e ∧ (∀ e', Refused t payload e' → e' = e) ∧ ∀ resp, ¬ Returned t payload resp) ∨
    (∃ resp, Returned t payload resp ∧ (∀ resp', Returned t payload resp' → resp' = resp) ∧ ∀ e, ¬ Refused t payload e) := by
  cases h : webAuthnRequest t payload with
  | panic => exact absurd h (webAuthnRequest_ne_panic t payload)
  | err e =>
    refine .inl ⟨e, C116_refused_iff.1 h, fun e' h' => ?_, fun resp h' => ?_⟩
    · rw [← C116_refused_iff, h] at h'
      injection h' with h'
      exact h'.symm
    · rw [← C116_returned_iff, h] at h'
      cases h'
  | ok resp =>
    refine .inr ⟨resp, C116_returned_iff.1 h, fun e' h' => ?_, fun e h' => ?_⟩
    · rw [← C116_returned_iff, h] at h'
      injection h' with h'
      exact h'.symm
    · rw [← C116_refused_iff, h] at h'
      cases h'

/-- C116: the last branch of the function is never taken: a key of another algorithm is refused before, when its coordinates
are read. -/
theorem C116_algorithm_branch_dead [Ext] (t : MfaToken) (payload : GoString) :
    ¬ Refused t payload (wa (gs! "failed signature verification due to unsupported algo")) := by
  generalize hm : wa (gs! "failed signature verification due to unsupported algo") = e
  intro h
  cases h with
  | noKey _ _ _ hk => cases hk <;> (revert hm; first | decide | (intro hm; cases hm))
  | _ => revert hm; first | decide | (intro hm; cases hm)

/-- C116: how the reason reads. -/
theorem C116_text (quote : GoString → GoString) (s : GoString) :
    (wa s).text quote = some (gs! "webauthn request failed: " ++ s) := by
  show some (gs! "webauthn request failed: " ++ (s ++ [])) = _
  rw [List.append_nil]

/-! ## Examples -/

/-- The token of the toy registration. -/
def toyU2F : MfaToken := ((dbU2F.users.flatMap (·.mfaTokens)).find? (fun t => t.type == gs! "u2f")).getD .zero

/-- Is this the error? -/
def refusedWith (r : Res AuthenticateRequest) (e : GoErr) : Bool :=
  match r with
  | .err e' => e' == e
  | _ => false

-- A right assertion is accepted; a wrong signature, a token of another type, a payload that is no base64, an assertion
-- without the user-present bit and one with another credential id are refused each for its own reason.
example : (webAuthnRequest toyU2F (b64Encode (assertDoc (gs! "abc") toySig))).isOk = true ∧
    refusedWith (webAuthnRequest toyU2F (b64Encode (assertDoc (gs! "abc") [0]))) (.withE .webAuthnRequest [] (.ext (gs! "signature"))) = true ∧
    refusedWith (webAuthnRequest MfaToken.zero (gs! "e30=")) (wa (gs! "unsupported token type")) = true ∧
    refusedWith (webAuthnRequest toyU2F (gs! "?")) (.withE .webAuthnParse [] (.ext (gs! "base64"))) = true ∧
    refusedWith (webAuthnRequest toyU2F (gs! "e30=")) (wa (gs! "key id mismatch")) = true ∧
    refusedWith (webAuthnRequest { toyU2F with parameters := toyU2F.parameters.filter (·.1 ≠ gs! "curve_ycoord") } (gs! "e30="))
      (wa (gs! "curve_ycoord not found")) = true ∧
    refusedWith (webAuthnRequest { toyU2F with parameters := toyU2F.parameters.filter (·.1 ≠ gs! "rp_id_hash") }
      (b64Encode (assertDoc (gs! "abc") toySig))) (wa (gs! "rpIdHash mismatch")) = true := by
  decide +kernel

end GoIdentity
