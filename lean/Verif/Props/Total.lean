import Verif.Lemmas.ApiKeys
import Verif.Props.PublicKeys
import Verif.Props.Totp
import Verif.Props.WebAuthn
/-!
# Which calls can panic or fail to return: C70
-/
namespace GoIdentity
open Toy

/-! ## C70 -/

/-- A member that is present and not a JSON number. -/
def NotNumber (o : Option Json) : Prop := ∃ v, o = some v ∧ ∀ l, v ≠ .num l

/-- A member that is present and not a JSON string. -/
def NotString (o : Option Json) : Prop := ∃ v, o = some v ∧ ∀ s, v ≠ .str s

/-- A member that is a JSON number equal to `n`. -/
def IsNumber [Ext] (o : Option Json) (n : Int) : Prop := ∃ l, o = some (.num l) ∧ floatIs l n = true

/-- The COSE keys that are fatal: reading the members in order, the first one that is not as expected has the wrong JSON
type. -/
def FatalKey [Ext] (pk : List (GoString × Json)) : Prop :=
  NotNumber (pk.lookup (gs! "key_type")) ∨
  IsNumber (pk.lookup (gs! "key_type")) 2 ∧
    (NotNumber (pk.lookup (gs! "algorithm")) ∨
     IsNumber (pk.lookup (gs! "algorithm")) (-7) ∧
      (NotNumber (pk.lookup (gs! "curve_type")) ∨
       (pk.lookup (gs! "curve_type") = none ∨ IsNumber (pk.lookup (gs! "curve_type")) 1) ∧
        (NotString (pk.lookup (gs! "curve_x")) ∨ NotString (pk.lookup (gs! "curve_y")))))

theorem numberIs_cases [Ext] (v : Json) (n : Int) :
    (numberIs v n = .panic ∧ NotNumber (some v) ∧ ¬ IsNumber (some v) n) ∨
    (numberIs v n = .ok true ∧ IsNumber (some v) n ∧ ¬ NotNumber (some v)) ∨
    (numberIs v n = .ok false ∧ ¬ IsNumber (some v) n ∧ ¬ NotNumber (some v)) := by
  cases v with
  | num l =>
    have hn : ¬ NotNumber (some (.num l)) := by rintro ⟨v, hv, h⟩; cases hv; exact h l rfl
    cases hf : floatIs l n with
    | true => exact .inr (.inl ⟨by simp [numberIs, hf], ⟨l, rfl, hf⟩, hn⟩)
    | false =>
      refine .inr (.inr ⟨by simp [numberIs, hf], ?_, hn⟩)
      rintro ⟨l', h1, h2⟩; cases h1; rw [hf] at h2; simp at h2
  | _ => exact .inl ⟨rfl, ⟨_, rfl, by simp⟩, by rintro ⟨l', h1, _⟩; cases h1⟩

theorem optString_cases (o : Option Json) :
    (optString o = .panic ∧ NotString o) ∨ (∃ s, optString o = .ok s) ∧ ¬ NotString o := by
  cases o with
  | none => exact .inr ⟨⟨[], rfl⟩, by rintro ⟨v, h, _⟩; cases h⟩
  | some v =>
    cases v with
    | str s => exact .inr ⟨⟨s, rfl⟩, by rintro ⟨v, h, h'⟩; cases h; exact h' s rfl⟩
    | _ => exact .inl ⟨rfl, _, rfl, by simp⟩

theorem checkCoseKey_panic_iff [Ext] (pk : List (GoString × Json)) : checkCoseKey pk = .panic ↔ FatalKey pk := by
  unfold checkCoseKey FatalKey
  simp only [mapGet_eq_lookup]
  have none_num : ∀ n, ¬ NotNumber none ∧ ¬ IsNumber none n := by
    intro n
    constructor
    · rintro ⟨v, h, _⟩; cases h
    · rintro ⟨l, h, _⟩; cases h
  cases hk : pk.lookup (gs! "key_type") with
  | none => simp [none_num 2]
  | some v =>
    rcases numberIs_cases v 2 with ⟨h1, h2, h3⟩ | ⟨h1, h2, h3⟩ | ⟨h1, h2, h3⟩
    · simp [h1, h2]
    · simp only [h1, h2, h3, false_or, true_and]
      cases ha : pk.lookup (gs! "algorithm") with
      | none => simp [none_num (-7)]
      | some a =>
        rcases numberIs_cases a (-7) with ⟨g1, g2, g3⟩ | ⟨g1, g2, g3⟩ | ⟨g1, g2, g3⟩
        · simp [g1, g2]
        · simp only [g1, g2, g3, false_or, true_and]
          have rest : ∀ c : GoString, (match optString (pk.lookup (gs! "curve_x")) with
              | .panic => (.panic : Res (GoString × GoString × GoString))
              | .err e => .err e
              | .ok x =>
                match optString (pk.lookup (gs! "curve_y")) with
                | .panic => .panic
                | .err e => .err e
                | .ok y => .ok (c, x, y)) = .panic ↔
              NotString (pk.lookup (gs! "curve_x")) ∨ NotString (pk.lookup (gs! "curve_y")) := by
            intro c
            rcases optString_cases (pk.lookup (gs! "curve_x")) with ⟨e1, e2⟩ | ⟨⟨x, e1⟩, e2⟩
            · simp [e1, e2]
            · rcases optString_cases (pk.lookup (gs! "curve_y")) with ⟨f1, f2⟩ | ⟨⟨y, f1⟩, f2⟩
              · simp [e1, f1, f2]
              · simp [e1, f1, e2, f2]
          cases hc : pk.lookup (gs! "curve_type") with
          | none =>
            simp only [true_or, true_and, (none_num 1).1, false_or]
            exact rest []
          | some v =>
            rcases numberIs_cases v 1 with ⟨i1, i2, i3⟩ | ⟨i1, i2, i3⟩ | ⟨i1, i2, i3⟩
            · simp [i1, i2]
            · simp only [i1, i2, i3, false_or, or_true, true_and]
              exact rest _
            · simp [i1, i2, i3]
        · simp [g1, g2, g3]
    · simp [h1, h2, h3]

theorem decStrs_ne_panic (js : List Json) : decStrs js ≠ .panic := by
  induction js with
  | nil => simp [decStrs]
  | cons j js ih =>
    cases j <;> simp only [decStrs, typeErr, ne_eq, reduceCtorEq, not_false_eq_true]
    all_goals
      cases h : decStrs js with
      | panic => exact absurd h ih
      | _ => simp

theorem fStrs_noPanic {σ : Type} (n : GoString) (g : σ → List GoString) (t : σ → List GoString → σ) (j : Json) (s : σ) :
    (fStrs n g t).dec j s ≠ .panic := by
  simp only [fStrs]
  split
  · simp
  · split
    · simp
    · simp
    · rename_i hp; exact absurd hp (decStrs_ne_panic _)
  · simp [typeErr]

theorem registerRequest_noPanic : NoPanic registerRequestFields := by
  have hs : NoPanic attestationStatementFields := by
    intro f hf j s
    simp only [attestationStatementFields, List.mem_cons, List.not_mem_nil, or_false] at hf
    rcases hf with rfl | rfl | rfl
    · simp only [fInt, decInt]
      repeat' split
      all_goals simp [typeErr]
    · apply fStr_noPanic
    · apply fStrs_noPanic
  have ha : NoPanic attestationObjectFields := by
    intro f hf j s
    simp only [attestationObjectFields, List.mem_cons, List.not_mem_nil, or_false] at hf
    rcases hf with rfl | rfl | rfl
    · apply fPtr_noPanic _ hs
    · apply fPtr_noPanic _ authData_noPanic
    · apply fStr_noPanic
  have hd : NoPanic deviceFields := by
    intro f hf j s
    simp only [deviceFields, List.mem_cons, List.not_mem_nil, or_false] at hf
    rcases hf with rfl | rfl <;> apply fStr_noPanic
  intro f hf j s
  simp only [registerRequestFields, List.mem_cons, List.not_mem_nil, or_false] at hf
  rcases hf with rfl | rfl | rfl | rfl | rfl | rfl | rfl
  · apply fStr_noPanic
  · apply fStr_noPanic
  · apply fStrs_noPanic
  · apply fBool_noPanic
  · apply fPtr_noPanic _ ha
  · apply fPtr_noPanic _ clientData_noPanic
  · apply fPtr_noPanic _ hd

theorem u2fFromRegister_panic [Ext] {p : MfaToken} {r : RegisterRequest} (h : u2fFromRegister p r = .panic) :
    ∃ ad flags pk, GoodRegistration r ad flags pk := by
  unfold u2fFromRegister at h
  by_cases h1 : r.id = []
  · rw [if_pos h1] at h; simp at h
  rw [if_neg h1] at h
  by_cases h2 : r.type = []
  · rw [if_pos h2] at h; simp at h
  rw [if_neg h2] at h
  by_cases h3 : r.type ≠ gs! "public-key"
  · rw [if_pos h3] at h; simp at h
  rw [if_neg h3] at h
  cases h4 : checkTransports r.transports with
  | err e => rw [h4] at h; simp at h
  | panic => exact absurd h4 (checkTransports_ne_panic _)
  | ok u =>
  rw [h4] at h; dsimp only at h
  cases h5 : r.attestationObject with
  | none => rw [h5] at h; simp at h
  | some ao =>
  rw [h5] at h; dsimp only at h
  cases h6 : ao.authData with
  | none => rw [h6] at h; simp at h
  | some ad =>
  rw [h6] at h; dsimp only at h
  by_cases h7 : ad.relyingPartyID = []
  · rw [if_pos h7] at h; simp at h
  rw [if_neg h7] at h
  cases h8 : ad.flags with
  | none => rw [h8] at h; simp at h
  | some flags =>
  rw [h8] at h; dsimp only at h
  cases h9 : ad.credentialData with
  | none => rw [h9] at h; simp at h
  | some cd =>
  rw [h9] at h; dsimp only at h
  cases h10 : cd.publicKey with
  | none => rw [h10] at h; simp at h
  | some pk =>
  exact ⟨ad, flags, pk, h1, Decidable.not_not.1 h3, checkTransports_ok.1 h4, ao, cd, h5, h6, h7, h8, h9, h10⟩

/-- C70: making a U2F token panics exactly if the registration decodes, is complete, and has a fatal COSE key. -/
theorem C70_registration_panics_iff [Ext] (nd : Nondet) (req : Request) (ht : req.mfaToken.type = gs! "u2f") :
    (newMfaToken nd req).1 = .panic ↔
      req.webAuthn.register ≠ [] ∧ req.webAuthn.challenge ≠ [] ∧
        ∃ r ad flags pk, IsRegistration req.webAuthn.register r ∧ GoodRegistration r ad flags pk ∧ FatalKey pk := by
  obtain ⟨p, hp, _⟩ := newMfaToken_u2f nd ht
  rw [hp]
  unfold newU2F
  constructor
  · intro h
    by_cases h1 : req.webAuthn.register = []
    · simp [h1] at h
    by_cases h2 : req.webAuthn.challenge = []
    · simp [h1, h2] at h
    simp only [if_neg h1, if_neg h2] at h
    cases h3 : b64Decode req.webAuthn.register with
    | none => rw [h3] at h; simp at h
    | some doc =>
    rw [h3] at h; dsimp only at h
    cases h4 : unmarshal registerRequestFields RegisterRequest.zero doc with
    | err e => rw [h4] at h; simp at h
    | panic => exact absurd h4 (unmarshal_noPanic registerRequest_noPanic _ _)
    | ok r =>
    rw [h4] at h; dsimp only at h
    obtain ⟨ad, flags, pk, hg⟩ := u2fFromRegister_panic h
    rw [u2fFromRegister_good hg] at h
    refine ⟨h1, h2, r, ad, flags, pk, ⟨doc, h3, h4⟩, hg, (checkCoseKey_panic_iff pk).1 ?_⟩
    cases h5 : checkCoseKey pk with
    | err e => rw [h5] at h; simp at h
    | panic => rfl
    | ok cxy => rw [h5] at h; simp at h
  · rintro ⟨h1, h2, r, ad, flags, pk, ⟨doc, h3, h4⟩, hg, hk⟩
    simp only [if_neg h1, if_neg h2, h3, h4]
    rw [u2fFromRegister_good hg, (checkCoseKey_panic_iff pk).2 hk]

/-- C70: making a TOTP token, or one of an unknown type, never panics. -/
theorem C70_totp_no_panic [Ext] (nd : Nondet) (req : Request) (ht : req.mfaToken.type ≠ gs! "u2f") :
    (newMfaToken nd req).1 ≠ .panic := by
  unfold newMfaToken
  dsimp only
  by_cases h1 : req.mfaToken.type = gs! "totp"
  · rw [if_pos h1]
    unfold newTotp
    dsimp only
    generalize ha : (if toLower req.mfaToken.algorithm = gs! "sha1" ∨ toLower req.mfaToken.algorithm = gs! "sha256" ∨
      toLower req.mfaToken.algorithm = gs! "sha512" then some (toLower req.mfaToken.algorithm)
      else if toLower req.mfaToken.algorithm = [] then some (gs! "sha1") else none) = alg
    cases alg with
    | none => simp
    | some alg =>
      dsimp only
      have hn : ∃ h, AlgNamed alg h := by
        by_cases h3 : toLower req.mfaToken.algorithm = gs! "sha1" ∨ toLower req.mfaToken.algorithm = gs! "sha256" ∨
            toLower req.mfaToken.algorithm = gs! "sha512"
        · rw [if_pos h3, Option.some.injEq] at ha
          rw [← ha]
          rcases h3 with h | h | h
          · exact ⟨.sha1, .inl ⟨h, rfl⟩⟩
          · exact ⟨.sha256, .inr (.inl ⟨h, rfl⟩)⟩
          · exact ⟨.sha512, .inr (.inr ⟨h, rfl⟩)⟩
        · rw [if_neg h3] at ha
          split at ha
          · rw [Option.some.injEq] at ha
            exact ⟨.sha1, .inl ⟨ha.symm, rfl⟩⟩
          · simp at ha
      obtain ⟨h, hn⟩ := hn
      generalize (if req.mfaToken.digits = 0 then 6 else req.mfaToken.digits) = digits
      by_cases h2 : req.mfaToken.period < 30 ∨ 300 < req.mfaToken.period
      · rw [if_pos h2]; simp
      rw [if_neg h2]
      by_cases h4 : digits < 4 ∨ 8 < digits
      · rw [if_pos h4]; simp
      rw [if_neg h4]
      split
      · simp
      · simp
      · rename_i hp
        exact absurd hp (C30_no_panic (by exact hn) _ _)
  · rw [if_neg h1, if_neg ht]
    split <;> simp

theorem finish_out [Ext] (nd : Nondet) (db : Database) (fs : FS) (req : Request) (w : GoErr → GoErr) :
    (db.finish nd fs req w).out ≠ .panic ∧ (db.finish nd fs req w).out ≠ .hang := by
  unfold Database.finish
  split <;> simp

theorem userAddPublicKey_ne_panic [Ext] (nd : Nondet) (k : ReqKey) (u : User) : u.addPublicKey nd k ≠ .panic := by
  unfold User.addPublicKey
  split
  · simp
  · rename_i hp; exact absurd hp (C69_no_panic _ _ _)
  · split <;> simp

theorem userDeletePublicKey_ne_panic [Ext] (now : Clock) (k : ReqKey) (u : User) : u.deletePublicKey now k ≠ .panic := by
  unfold User.deletePublicKey
  split <;> simp

theorem userAddAPIKey_ne_panic [Ext] (now : Clock) (id : GoString) (k : ReqKey) (u : User) :
    u.addAPIKey now id k ≠ .panic := by
  have : newAPIKey now id k ≠ .panic := by
    unfold newAPIKey
    repeat' split
    all_goals simp
  unfold User.addAPIKey
  split
  · simp
  · rename_i hp; exact absurd hp this
  · simp

theorem userDeleteAPIKey_ne_panic [Ext] (now : Clock) (k : ReqKey) (u : User) : u.deleteAPIKey now k ≠ .panic := by
  unfold User.deleteAPIKey
  split <;> simp

theorem userDeleteMfaToken_ne_panic [Ext] (now : Clock) (id : GoString) (u : User) : u.deleteMfaToken now id ≠ .panic := by
  unfold User.deleteMfaToken
  split <;> simp

theorem userChangePassword_ne_panic [Ext] (nd : Nondet) (o p : GoString) (k : Int) (u : User) :
    u.changePassword nd o p k ≠ .panic := by
  unfold User.changePassword
  split
  · simp
  · split
    · simp
    · rename_i hp; exact absurd hp (by apply User.addPassword_ne_panic)
    · simp

/-- C70: the only call that can panic is `AddMFAToken`, for a user that exists and a U2F token, whatever the database, the
files and the request; and it panics if making the token does. -/
theorem C70_panics_iff [Ext] {c : Call} {nd : Nondet} {db : Database} {fs : FS} {req : Request} :
    (exec c nd db fs req).out = .panic ↔
      c = .addMfaToken ∧ (∃ x, db.validateUserIdentity req.user.username req.user.email = .ok x) ∧
        req.mfaToken.type = gs! "u2f" ∧ (newMfaToken nd req).1 = .panic := by
  constructor
  · intro h
    cases c with
    | addMfaToken =>
      refine ⟨rfl, ?_⟩
      simp only [exec, Database.addMfaToken, User.addMfaToken] at h
      cases hv : db.validateUserIdentity req.user.username req.user.email with
      | error e => rw [hv] at h; simp [Database.failWith] at h
      | ok x =>
        obtain ⟨i, u⟩ := x
        rw [hv] at h
        dsimp only at h
        have hp : (newMfaToken nd req).1 = .panic := by
          rcases hm : newMfaToken nd req with ⟨r, req'⟩
          rw [hm] at h
          cases r with
          | panic => rfl
          | err e => simp [Database.failWith] at h
          | ok t =>
            dsimp only at h
            cases hd : User.checkMfaDup t u.mfaTokens with
            | some e => rw [hd] at h; simp [Database.failWith] at h
            | none => rw [hd] at h; exact absurd h (finish_out _ _ _ _ _).1
        exact ⟨⟨_, rfl⟩, Decidable.byContradiction fun ht => C70_totp_no_panic nd req ht hp, hp⟩
    | _ =>
      exfalso
      simp only [exec, Database.addUser, Database.getUsers, Database.getUserCall, Database.deleteUser,
        Database.authenticateUser, Database.save, Database.copy, Database.addPublicKey, Database.getPublicKeys,
        Database.deletePublicKey, Database.addAPIKey, Database.deleteAPIKey, Database.getAPIKeys,
        Database.changeUserPassword, Database.identifyUser, Database.lookupAPIKey, Database.getMfaTokens,
        Database.deleteMfaToken, Database.failWith] at h
      revert h
      repeat' split
      all_goals first
        | (intro h; simp at h; done)
        | exact fun h => (finish_out _ _ _ _ _).1 h
        | (rename_i hp; exact absurd hp (by apply User.newWithRoles_ne_panic))
        | (rename_i hp; exact absurd hp (by apply verifyWebAuthnRequest_ne_panic))
        | (rename_i hp; exact absurd hp (by apply userAddPublicKey_ne_panic))
        | (rename_i hp; exact absurd hp (by apply userDeletePublicKey_ne_panic))
        | (rename_i hp; exact absurd hp (by apply userAddAPIKey_ne_panic))
        | (rename_i hp; exact absurd hp (by apply userDeleteAPIKey_ne_panic))
        | (rename_i hp; exact absurd hp (by apply userChangePassword_ne_panic))
        | (rename_i hp; exact absurd hp (by apply userDeleteMfaToken_ne_panic))
        | (rename_i hp; obtain ⟨s, hs⟩ := secret_exists nd.globalRand nd.seedRand; rw [hs] at hp; cases hp)
  · rintro ⟨rfl, ⟨⟨i, u⟩, hv⟩, _, hp⟩
    simp only [exec, Database.addMfaToken, User.addMfaToken, hv]
    rcases hm : newMfaToken nd req with ⟨r, req'⟩
    rw [hm] at hp
    dsimp only at hp
    subst hp
    rfl

/-- C70: the only call that can fail to return is `AddAPIKey`. -/
theorem C70_only_add_api_key_hangs [Ext] {c : Call} {nd : Nondet} {db : Database} {fs : FS} {req : Request}
    (h : (exec c nd db fs req).out = .hang) : c = .addAPIKey := by
  cases c with
  | addAPIKey => rfl
  | _ =>
    exfalso
    simp only [exec, Database.addUser, Database.getUsers, Database.getUserCall, Database.deleteUser,
      Database.authenticateUser, Database.save, Database.copy, Database.addPublicKey, Database.getPublicKeys,
      Database.deletePublicKey, Database.addMfaToken, Database.deleteAPIKey, Database.getAPIKeys,
      Database.changeUserPassword, Database.identifyUser, Database.lookupAPIKey, Database.getMfaTokens,
      Database.deleteMfaToken, Database.failWith] at h
    revert h
    repeat' split
    all_goals first
      | (intro h; simp at h; done)
      | exact fun h => (finish_out _ _ _ _ _).2 h

-- A key type, an algorithm or a coordinate of the wrong JSON type is fatal; an unexpected key type stops the reading before.
example : FatalKey [(gs! "key_type", .str (gs! "2"))] := .inl ⟨_, rfl, by simp⟩
example : FatalKey [(gs! "key_type", .num (gs! "2")), (gs! "algorithm", .num (gs! "-7")), (gs! "curve_x", .null)] :=
  .inr ⟨⟨_, rfl, by decide⟩, .inr ⟨⟨_, rfl, by decide⟩, .inr ⟨.inl rfl, .inl ⟨_, rfl, by simp⟩⟩⟩⟩
example : ¬ FatalKey [(gs! "key_type", .num (gs! "3")), (gs! "algorithm", .null)] := by
  rw [← checkCoseKey_panic_iff]
  have h : checkCoseKey [(gs! "key_type", .num (gs! "3")), (gs! "algorithm", .null)] =
    .err (.withV .webAuthnRegisterPublicKeyUnsupported [gs! "number"] []) := rfl
  rw [h]; simp
example : (exec .addMfaToken nd db2 fs3 (reqU2F (gs! "[]"))).out = .panic := by decide +kernel

/-! ## Opening -/

/-- Somewhere in the document an array has a `null` element. -/
inductive NullElement : Json → Prop
  | here {js : List Json} : .null ∈ js → NullElement (.arr js)
  | inArr {js : List Json} {j : Json} : j ∈ js → NullElement j → NullElement (.arr js)
  | inObj {m : List (GoString × Json)} {k : GoString} {j : Json} : (k, j) ∈ m → NullElement j → NullElement (.obj m)

/-- A field decoder that panics only because of a null array element. -/
def Quiet {σ : Type} (f : Field σ) : Prop := ∀ j s, f.dec j s = .panic → NullElement j

theorem decMembers_quiet {σ : Type} {fs : List (Field σ)} (h : ∀ f ∈ fs, Quiet f) (m : List (GoString × Json)) (s : σ)
    (hp : decMembers fs m s = .panic) : ∃ k j, (k, j) ∈ m ∧ NullElement j := by
  induction m generalizing s with
  | nil => simp [decMembers] at hp
  | cons kv m ih =>
    obtain ⟨k, v⟩ := kv
    simp only [decMembers] at hp
    split at hp
    · obtain ⟨k', j, h1, h2⟩ := ih _ hp
      exact ⟨k', j, List.mem_cons_of_mem _ h1, h2⟩
    · rename_i f hf
      have hmem : f ∈ fs := by
        unfold findField at hf
        split at hf
        · rename_i g hg
          rw [Option.some.injEq] at hf
          rw [← hf]; exact List.mem_of_find?_eq_some hg
        · exact List.mem_of_find?_eq_some hf
      split at hp
      · obtain ⟨k', j, h1, h2⟩ := ih _ hp
        exact ⟨k', j, List.mem_cons_of_mem _ h1, h2⟩
      · simp at hp
      · rename_i hd
        exact ⟨k, v, List.mem_cons_self, h f hmem _ _ hd⟩

theorem decStruct_quiet {σ : Type} {fs : List (Field σ)} (h : ∀ f ∈ fs, Quiet f) (j : Json) (s : σ)
    (hp : decStruct fs j s = .panic) : NullElement j := by
  unfold decStruct at hp
  split at hp
  · simp at hp
  · obtain ⟨k, j, h1, h2⟩ := decMembers_quiet h _ _ hp
    exact .inObj h1 h2
  · simp [typeErr] at hp

theorem decElems_quiet {σ : Type} {fs : List (Field σ)} (h : ∀ f ∈ fs, Quiet f) (z : σ) (js : List Json)
    (hp : decElems fs z js = .panic) : NullElement (.arr js) := by
  induction js with
  | nil => simp [decElems] at hp
  | cons j js ih =>
    by_cases hj : j = .null
    · exact .here (by simp [hj])
    have hstep : ∀ r, NullElement (.arr js) → r = j → NullElement (.arr (r :: js)) := by
      intro r hr _
      cases hr with
      | here h1 => exact .here (List.mem_cons_of_mem _ h1)
      | inArr h1 h2 => exact .inArr (List.mem_cons_of_mem _ h1) h2
    have hd : decElems fs z (j :: js) = match decStruct fs j z with
        | .ok x =>
          (match decElems fs z js with
           | .ok xs => .ok (x :: xs)
           | .err e => .err e
           | .panic => .panic)
        | .err e => .err e
        | .panic => .panic := by
      cases j <;> first | (exact absurd rfl hj) | rfl
    rw [hd] at hp
    split at hp
    · split at hp
      · simp at hp
      · simp at hp
      · rename_i h1
        exact hstep j (ih h1) rfl
    · simp at hp
    · rename_i h1
      exact .inArr List.mem_cons_self (decStruct_quiet h _ _ h1)

theorem quiet_of_noPanic {σ : Type} {f : Field σ} (h : ∀ j s, f.dec j s ≠ .panic) : Quiet f :=
  fun j s hp => absurd hp (h j s)

theorem quiet_fStruct {σ τ : Type} {n : GoString} {fs : List (Field τ)} {g : σ → τ} {t : σ → τ → σ}
    (h : ∀ f ∈ fs, Quiet f) : Quiet (fStruct n fs g t) := by
  intro j s hp
  simp only [fStruct] at hp
  split at hp
  · simp at hp
  · simp at hp
  · rename_i h1; exact decStruct_quiet h _ _ h1

theorem quiet_fPtr {σ τ : Type} {n : GoString} {fs : List (Field τ)} {z : τ} {g : σ → Option τ} {t : σ → Option τ → σ}
    (h : ∀ f ∈ fs, Quiet f) : Quiet (fPtr n fs z g t) := by
  intro j s hp
  simp only [fPtr] at hp
  split at hp
  · simp at hp
  · split at hp
    · simp at hp
    · simp at hp
    · rename_i h1; exact decStruct_quiet h _ _ h1

theorem quiet_fList {σ τ : Type} {n : GoString} {fs : List (Field τ)} {z : τ} {g : σ → List τ} {t : σ → List τ → σ}
    (h : ∀ f ∈ fs, Quiet f) : Quiet (fList n fs z g t) := by
  intro j s hp
  simp only [fList] at hp
  split at hp
  · simp at hp
  · split at hp
    · simp at hp
    · simp at hp
    · rename_i h1; exact decElems_quiet h _ _ h1
  · simp [typeErr] at hp

/-- The fields without struct arrays. -/
macro "quiet_plain" : tactic => `(tactic| (
  apply quiet_of_noPanic
  intro j s
  simp only [fStr, fBool, fBoolAlways, fInt, fIntAlways, fUint, fTime, decInt, decUint]
  repeat' split
  all_goals simp [typeErr]))

theorem quiet_fStr {σ : Type} {n : GoString} {g : σ → GoString} {t : σ → GoString → σ} : Quiet (fStr n g t) := by quiet_plain
theorem quiet_fBool {σ : Type} {n : GoString} {g : σ → Bool} {t : σ → Bool → σ} : Quiet (fBool n g t) := by quiet_plain
theorem quiet_fBoolAlways {σ : Type} {n : GoString} {g : σ → Bool} {t : σ → Bool → σ} : Quiet (fBoolAlways n g t) := by
  quiet_plain
theorem quiet_fInt {σ : Type} {n : GoString} {g : σ → Int} {t : σ → Int → σ} : Quiet (fInt n g t) := by quiet_plain
theorem quiet_fIntAlways {σ : Type} {n : GoString} {g : σ → Int} {t : σ → Int → σ} : Quiet (fIntAlways n g t) := by
  quiet_plain
theorem quiet_fUint {σ : Type} {b : Nat} {n : GoString} {g : σ → Nat} {t : σ → Nat → σ} : Quiet (fUint b n g t) := by
  quiet_plain
theorem quiet_fTime {σ : Type} {n : GoString} {g : σ → GoTime} {t : σ → GoTime → σ} : Quiet (fTime n g t) := by quiet_plain
theorem quiet_fStrs {σ : Type} {n : GoString} {g : σ → List GoString} {t : σ → List GoString → σ} : Quiet (fStrs n g t) :=
  quiet_of_noPanic fun j s => fStrs_noPanic n g t j s
theorem quiet_fMap {σ α : Type} {n : GoString} {e : α → Json} {elem : Json → Res α} (h : ∀ j, elem j ≠ .panic)
    {g : σ → List (GoString × α)} {t : σ → List (GoString × α) → σ} : Quiet (fMap n e elem g t) := by
  apply quiet_of_noPanic
  intro j s
  simp only [fMap]
  split
  · simp
  · split
    · simp
    · simp
    · rename_i h1; exact absurd h1 (decMap_noPanic h _ _)
  · simp [typeErr]

/-- All fields of a list are quiet. -/
macro "quiet_fields" : tactic => `(tactic| (
  repeat' (first
    | exact fun _ h => absurd h List.not_mem_nil
    | refine List.forall_mem_cons.2 ⟨?_, ?_⟩
    | exact quiet_fStr | exact quiet_fBool | exact quiet_fBoolAlways | exact quiet_fInt | exact quiet_fIntAlways
    | exact quiet_fUint | exact quiet_fTime | exact quiet_fStrs
    | refine quiet_fStruct ?_ | refine quiet_fPtr ?_ | refine quiet_fList ?_)))

theorem dbFields_quiet : ∀ f ∈ dbFields, Quiet f := by
  have hs : ∀ j, elemStr j ≠ .panic := by
    intro j; unfold elemStr; split <;> simp [typeErr]
  have hb : ∀ j, elemBool j ≠ .panic := by
    intro j; unfold elemBool; split <;> simp [typeErr]
  unfold dbFields policyFields passwordPolicyFields userPolicyFields userFields mfaTokenFields mfaDeviceFields
    publicKeyFields apiKeyFields passwordFields emailFields locationFields organizationFields nameFields roleFields
    lockoutFields imageFields
  quiet_fields
  · exact quiet_fMap hs
  · exact quiet_fMap hb
  · apply quiet_of_noPanic
    intro j s
    dsimp only
    split <;> simp [typeErr]

/-- C70: `NewDatabase` panics only if a file has the empty name (which no file system has) or if an array in the file has a
`null` element. -/
theorem C70_opening_panics [Ext] {nd : Nondet} {fs : FS} {fp : GoString} (h : (newDatabase nd fs fp).1 = .panic) :
    fp = [] ∨ ∃ p b j, (fp.head? ≠ some 126 → p = fp) ∧ fs p = some (.file b) ∧ parseDoc b = some j ∧ NullElement j := by
  have hload : ∀ us i (db : Database), Database.loadUsers i us db ≠ .panic := by
    intro us
    induction us with
    | nil => intro i db; simp [Database.loadUsers]
    | cons u us ih =>
      intro i db
      have he : ∀ es m, Database.loadEmails i es m ≠ .panic := by
        intro es
        induction es with
        | nil => intro m; simp [Database.loadEmails]
        | cons e es ih =>
          intro m
          simp only [Database.loadEmails]
          split
          · simp
          · exact ih _
      have hk : ∀ ks m, Database.loadAPIKeys i ks m ≠ .panic := by
        intro ks
        induction ks with
        | nil => intro m; simp [Database.loadAPIKeys]
        | cons e es ih =>
          intro m
          simp only [Database.loadAPIKeys]
          split
          · simp
          · exact ih _
      have : Database.loadUser i u db ≠ .panic := by
        unfold Database.loadUser
        split
        · simp
        · rename_i hp; exact absurd hp (by apply User.valid_ne_panic)
        · dsimp only
          split
          · simp
          · simp
          · split
            · simp
            · rename_i hp; exact absurd hp (he _ _)
            · split
              · simp
              · rename_i hp; exact absurd hp (hk _ _)
              · simp
      simp only [Database.loadUsers]
      split
      · simp
      · rename_i hp; exact absurd hp this
      · exact ih _ _
  have hopen : (Database.openFile nd fs fp).1 = .panic := by
    unfold newDatabase at h
    split at h
    · simp at h
    · rename_i ho; rw [ho]
    · exact absurd h (hload _ _ _)
  clear h
  unfold Database.openFile at hopen
  split at hopen
  · simp at hopen
  split at hopen
  · split at hopen
    · simp at hopen
    · dsimp only at hopen
      split at hopen <;> simp at hopen
  · simp at hopen
  · split at hopen
    · simp at hopen
    · rename_i hr
      left
      unfold readFileBytes at hr
      split at hr
      · simp at hr
      · rename_i he
        unfold expandHomePath at he
        split at he
        · rfl
        · split at he
          · simp at he
          · split at he <;> simp at he
      · split at hr
        · simp at hr
        · split at hr <;> simp at hr
    · rename_i b hr
      split at hopen
      · simp at hopen
      · rename_i hu
        right
        unfold unmarshalDB at hu
        split at hu
        · simp at hu
        rename_i j hj
        unfold readFileBytes at hr
        split at hr
        · simp at hr
        · simp at hr
        · rename_i p he
          split at hr
          · simp at hr
          split at hr
          · rename_i b' hb
            rw [Res.ok.injEq] at hr
            subst hr
            refine ⟨p, _, j, ?_, hb, hj, decStruct_quiet dbFields_quiet _ _ hu⟩
            intro hne
            unfold expandHomePath at he
            split at he
            · simp at he
            · rename_i c rest
              rw [if_pos (by simpa using hne)] at he
              rw [Res.ok.injEq] at he
              exact he.symm
          · simp at hr
      · dsimp only at hopen
        split at hopen
        · split at hopen <;> simp at hopen
        · simp at hopen

example : (match (newDatabase nd (fun _ => some (.file (gs! "{\"users\":[null]}"))) path).1 with
    | .panic => true | _ => false) = true := by decide +kernel
example : NullElement (.obj [(gs! "users", .arr [.null])]) := .inObj (List.mem_singleton.2 rfl) (.here (by simp))

end GoIdentity
