import Verif.Lemmas.Refusals6
import Verif.Props.Freeze
/-!
# C117: how every call ends, and with which error

`Verif/Spec/Refusals.lean` has a table of checks for each of the nineteen calls.
-/
namespace GoIdentity
open Toy

/-- C117: a call other than `AddAPIKey` and `AddMfaToken` ends in exactly the way of the first check of its table that
applies. -/
theorem C117_how_calls_end [Ext] {db : Database} (h : Reach Opened db) {c : Call} (hk : c ≠ .addAPIKey) (hm : c ≠ .addMfaToken)
    (nd : Nondet) (fs : FS) (req : Request) (s : GoString) (o : Outcome) :
    (exec c nd db fs req).out = o ↔ Decides (c.checks nd db fs req s) o := by
  have hd := exec_decides (reach_inv h) c nd fs req (s := s) (fun hc => absurd hc hk) (fun hc => absurd hc hm)
  exact ⟨fun he => he ▸ hd, fun ho => hd.unique (checks_functional (reach_inv h) c nd fs req s) ho⟩

/-- C117: so does `AddMfaToken`, at times the clock can show. -/
theorem C117_how_add_mfa_token_ends [Ext] {db : Database} (h : Reach Opened db) (nd : Nondet) (h0 : 600 ≤ nd.unix)
    (hmax : nd.unix < 2 ^ 63) (fs : FS) (req : Request) (s : GoString) (o : Outcome) :
    (exec .addMfaToken nd db fs req).out = o ↔ Decides (Checks.addMfaToken nd db fs req) o := by
  have hd := exec_decides (reach_inv h) .addMfaToken nd fs req (s := s) (fun hc => nomatch hc) (fun _ => ⟨h0, hmax⟩)
  exact ⟨fun he => he ▸ hd, fun ho => hd.unique (checks_functional (reach_inv h) .addMfaToken nd fs req s) ho⟩

/-- C117: so does `AddAPIKey`, if the identifiers of a user's keys are distinct and at least twelve rounds of its loop are
observed. -/
theorem C117_how_add_api_key_ends [Ext] {db : Database} (h : ReachKeys db) (nd : Nondet) (hf : 12 ≤ nd.fuel) (fs : FS)
    (req : Request) {s : GoString} (hs : getRandomStringFromRange nd.globalRand nd.seedRand 72 96 = .ok s) (o : Outcome) :
    (exec .addAPIKey nd db fs req).out = o ↔ Decides (Checks.addAPIKey nd db fs req s) o := by
  have hd := exec_decides (reach_inv h.reach) .addAPIKey nd fs req (s := s) (fun _ => ⟨h, hf, hs⟩) (fun hc => nomatch hc)
  exact ⟨fun he => he ▸ hd, fun ho => hd.unique (checks_functional (reach_inv h.reach) .addAPIKey nd fs req s) ho⟩

/-! The tables on a database with two users. -/
example : Reach Opened db2 ∧ ReachKeys db2 ∧ 12 ≤ nd.fuel := ⟨db2_reachO, db2_reachKeys, by decide +kernel⟩
/-- A password that is too short for the policy, an unknown user, and a wrong old password. -/
example :
    (exec .changeUserPassword nd db2 fs3 { reqJoe with user := { reqJoe.user with password := gs! "x" } }).out =
      .fail (.withE .changeUserPassword [] (.std .passwordPolicyCompliance)) ∧
    (exec .changeUserPassword nd db2 fs3 { reqJoe with user := { reqJoe.user with username := gs! "x" } }).out =
      .fail (.withE .changeUserPassword [] (.std .databaseUserNotFound)) ∧
    (exec .changeUserPassword nd db2 fs3 { reqJoe with user := { reqJoe.user with oldPassword := gs! "x" } }).out =
      .fail (.withE .changeUserPassword [] (.std .userPasswordInvalid)) := by decide +kernel
/-- The table says the same about the second. -/
example : Decides (Call.changeUserPassword.checks nd db2 fs3
      { reqJoe with user := { reqJoe.user with username := gs! "x" } } [])
    (.fail (.withE .changeUserPassword [] (.std .databaseUserNotFound))) := by
  refine .here ⟨?_, rfl⟩
  unfold NamesUser
  decide +kernel
example :
    (exec .addMfaToken nd db2 fs3 { reqJoe with mfaToken := { reqJoe.mfaToken with type := gs! "sms" } }).out =
      .fail (.withE .addMfaToken [] (.withV .mfaTokenInvalidType [gs! "sms"] [])) ∧
    (exec .addPublicKey nd db2 fs3 { reqJoe with key := { reqJoe.key with usage := gs! "ssh", payload := gs! "x" } }).out =
      .fail (.withE .addPublicKey [gs! "ssh"] (.withV .publicKeyUsageUnsupported [gs! "ssh"] [])) ∧
    (exec .addAPIKey nd db2 fs3 { reqJoe with key := { reqJoe.key with usage := gs! "x" } }).out =
      .fail (.withE .addAPIKey [gs! "x"] (.withV .apiKeyUsageUnsupported [gs! "x"] [])) ∧
    (exec .save { nd with io := .writeErr 5 } db2 fs3 reqJoe).out =
      .fail (.withE .databaseCommit [db2.path] (.ext (gs! "write"))) := by decide +kernel
/-- A username can be taken only once: the table has an outcome for the second attempt, and it is not success. -/
example : ∃ o, Decides (Call.addUser.checks nd db1 fs2 reqJoe []) o ∧ o ≠ .success :=
  ⟨_, (C117_how_calls_end db1_reachO (by decide) (by decide) nd fs2 reqJoe [] _).1 rfl, by decide +kernel⟩

end GoIdentity
