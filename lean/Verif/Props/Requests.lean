import Verif.Props.Identity
import Verif.Props.Claims
import Verif.Lemmas.ApiKeys
import Verif.Spec.Toy
/-!
# What calls do to the request they are given: C79

The request is both input and output.  These theorems say exactly which of its fields a call may write.
-/
namespace GoIdentity
open Toy

/-- C79: these calls never write to the request, however they end. -/
theorem C79_unchanged [Ext] {c : Call}
    (hc : c ∈ [.addUser, .deleteUser, .save, .addPublicKey, .deletePublicKey, .changeUserPassword, .deleteMfaToken] ∨
      ∃ p, c = .copy p) (nd : Nondet) (db : Database) (fs : FS) (req : Request) : (exec c nd db fs req).req = req := by
  rcases hc with hc | ⟨p, rfl⟩
  · simp only [List.mem_cons, List.not_mem_nil, or_false] at hc
    rcases hc with rfl | rfl | rfl | rfl | rfl | rfl | rfl
    · simp only [exec, Database.addUser]
      repeat' split
      all_goals first | rfl | exact (finish_req ..).1
    · simp only [exec, Database.deleteUser]
      repeat' split
      all_goals rfl
    · exact (finish_req ..).1
    · simp only [exec, Database.addPublicKey]
      repeat' split
      all_goals first | rfl | exact (finish_req ..).1
    · simp only [exec, Database.deletePublicKey]
      repeat' split
      all_goals first | rfl | exact (finish_req ..).1
    · simp only [exec, Database.changeUserPassword]
      repeat' split
      all_goals first | rfl | exact (finish_req ..).1
    · simp only [exec, Database.deleteMfaToken]
      repeat' split
      all_goals first | rfl | exact (finish_req ..).1
  · simp only [exec, Database.copy]
    repeat' split
    all_goals rfl

/-- C79: the listing calls write the response payload, and only if they succeed. -/
theorem C79_listings [Ext] {c : Call} (hc : c ∈ [.getUsers, .getUser, .getPublicKeys, .getAPIKeys, .getMfaTokens]) (nd : Nondet)
    (db : Database) (fs : FS) (req : Request) :
    ((exec c nd db fs req).Succeeded ∧
      ∃ p, p ≠ .none ∧ (exec c nd db fs req).req = { req with response := { req.response with payload := p } }) ∨
    ((exec c nd db fs req).Failed ∧ (exec c nd db fs req).req = req) := by
  simp only [List.mem_cons, List.not_mem_nil, or_false] at hc
  rcases hc with rfl | rfl | rfl | rfl | rfl
  · simp only [exec, Database.getUsers]
    split
    · exact .inr ⟨⟨_, rfl⟩, rfl⟩
    · exact .inl ⟨rfl, _, by simp, rfl⟩
  · simp only [exec, Database.getUserCall]
    split
    · exact .inr ⟨⟨_, rfl⟩, rfl⟩
    · exact .inl ⟨rfl, _, by simp, rfl⟩
  · simp only [exec, Database.getPublicKeys]
    split
    · exact .inr ⟨⟨_, rfl⟩, rfl⟩
    · exact .inl ⟨rfl, _, by simp, rfl⟩
  · simp only [exec, Database.getAPIKeys]
    split
    · exact .inr ⟨⟨_, rfl⟩, rfl⟩
    · exact .inl ⟨rfl, _, by simp, rfl⟩
  · simp only [exec, Database.getMfaTokens]
    split
    · exact .inr ⟨⟨_, rfl⟩, rfl⟩
    · exact .inl ⟨rfl, _, by simp, rfl⟩

/-- C79: `AuthenticateUser` writes the response code and nothing else: 200 if it succeeds, 400 if it fails; if it panics, not
even that. -/
theorem C79_authenticate [Ext] (nd : Nondet) (db : Database) (fs : FS) (req : Request) :
    ((exec .authenticateUser nd db fs req).Succeeded ∧
      (exec .authenticateUser nd db fs req).req = { req with response := { req.response with code := 200 } }) ∨
    ((exec .authenticateUser nd db fs req).Failed ∧
      (exec .authenticateUser nd db fs req).req = { req with response := { req.response with code := 400 } }) ∨
    ((exec .authenticateUser nd db fs req).out = .panic ∧ (exec .authenticateUser nd db fs req).req = req) := by
  simp only [exec, Database.authenticateUser]
  split
  · exact .inr (.inl ⟨⟨_, rfl⟩, rfl⟩)
  · split
    · split
      · exact .inr (.inl ⟨⟨_, rfl⟩, rfl⟩)
      · exact .inl ⟨rfl, rfl⟩
    · split
      · split
        · exact .inr (.inl ⟨⟨_, rfl⟩, rfl⟩)
        · exact .inr (.inr ⟨rfl, rfl⟩)
        · exact .inl ⟨rfl, rfl⟩
      · exact .inr (.inl ⟨⟨_, rfl⟩, rfl⟩)

/-- C79: `AddAPIKey` writes nothing, or else the response payload (the secret, 72 to 96 bytes) and the key's payload (its hash)
and prefix (the first 24 bytes of the secret).  It has written them whenever it succeeds, and also if it fails after drawing the
secret: for want of a comment, or because the file could not be written (the memory then accepts the secret). -/
theorem C79_add_api_key [Ext] (nd : Nondet) (db : Database) (fs : FS) (req : Request) :
    ((exec .addAPIKey nd db fs req).req = req ∧ ¬ (exec .addAPIKey nd db fs req).Succeeded ∧
      (exec .addAPIKey nd db fs req).db = db) ∨
    ∃ s hash, 72 ≤ s.length ∧ s.length ≤ 96 ∧
      (exec .addAPIKey nd db fs req).req = { req with
        response := { req.response with payload := .secret s }
        key := { req.key with payload := hash, pfx := s.take 24 } } := by
  simp only [exec, Database.addAPIKey]
  split
  · exact .inl ⟨rfl, by simp [Result.Succeeded, Database.failWith], rfl⟩
  · split
    · exact .inl ⟨rfl, by simp [Result.Succeeded, Database.failWith], rfl⟩
    · exact .inl ⟨rfl, by simp [Result.Succeeded], rfl⟩
    · rename_i s hs
      split
      · exact .inl ⟨rfl, by simp [Result.Succeeded], rfl⟩
      · exact .inl ⟨rfl, by simp [Result.Succeeded, Database.failWith], rfl⟩
      · rename_i hash _
        obtain ⟨h1, h2, _⟩ := secret_shape hs
        have hlen : 72 ≤ s.length ∧ s.length ≤ 96 := ⟨h1, by omega⟩
        right
        split
        · exact ⟨s, hash, hlen.1, hlen.2, rfl⟩
        · exact ⟨s, hash, hlen.1, hlen.2, rfl⟩
        · exact ⟨s, hash, hlen.1, hlen.2, (finish_req ..).1⟩

/-- C79: `DeleteAPIKey` writes the key's prefix (that of the key it deletes), and only if it finds the key. -/
theorem C79_delete_api_key [Ext] (nd : Nondet) (db : Database) (fs : FS) (req : Request) :
    (exec .deleteAPIKey nd db fs req).req = req ∨
    ∃ u ∈ db.users, ∃ k ∈ u.apiKeys, k.id = req.key.id ∧
      (exec .deleteAPIKey nd db fs req).req = { req with key := { req.key with pfx := k.pfx } } := by
  simp only [exec, Database.deleteAPIKey]
  split
  · exact .inl rfl
  · rename_i i u hv
    split
    · exact .inl rfl
    · exact .inl rfl
    · rename_i u' k' hk
      obtain ⟨⟨x, hx, rfl⟩, _⟩ := User.deleteAPIKey_ok hk
      have hmem := List.mem_filter.1 (List.mem_of_getLast? hx)
      refine .inr ⟨u, ?_, x, hmem.1, by simpa using hmem.2, (finish_req ..).1⟩
      have h1 := (validate_ok hv).1
      unfold Database.getUserByUsername at h1
      split at h1
      · simp at h1
      · exact List.mem_of_getElem? (deref_some h1).2

/-- C79: `LookupAPIKey` writes the key's prefix once the payload is long enough, and the owner's name, mail address and the
code 200 only if it succeeds. -/
theorem C79_lookup [Ext] (nd : Nondet) (db : Database) (fs : FS) (req : Request) :
    ((exec .lookupAPIKey nd db fs req).Failed ∧ (exec .lookupAPIKey nd db fs req).req =
      if req.key.payload.length < 72 then req else { req with key := { req.key with pfx := req.key.payload.take 24 } }) ∨
    ((exec .lookupAPIKey nd db fs req).Succeeded ∧ ∃ u ∈ db.users, (exec .lookupAPIKey nd db fs req).req =
      { req with
        key := { req.key with pfx := req.key.payload.take 24 }
        user := { req.user with username := u.username, email := u.mailClaim }
        response := { req.response with code := 200 } }) := by
  by_cases hl : req.key.payload.length < 72
  · rw [if_pos hl]
    simp only [exec, Database.lookupAPIKey]
    split
    · exact .inl ⟨⟨_, rfl⟩, rfl⟩
    · exact .inl ⟨⟨_, rfl⟩, rfl⟩
  · rw [if_neg hl]
    have hne : req.key.payload ≠ [] := fun h => hl (by rw [h]; decide)
    simp only [exec, Database.lookupAPIKey]
    rw [if_neg hne, if_neg hl]
    split
    · exact .inl ⟨⟨_, rfl⟩, rfl⟩
    · rename_i i u hd
      split
      · exact .inl ⟨⟨_, rfl⟩, rfl⟩
      · exact .inr ⟨rfl, u, List.mem_of_getElem? (deref_some hd).2, rfl⟩

/-- C79: `AddMfaToken` writes the token's algorithm (lower case, or `sha1` for none), and only for a TOTP token. -/
theorem C79_add_mfa_token [Ext] (nd : Nondet) (db : Database) (fs : FS) (req : Request) :
    (exec .addMfaToken nd db fs req).req = req ∨
    (req.mfaToken.type = gs! "totp" ∧ ∃ a, a ∈ [gs! "sha1", gs! "sha256", gs! "sha512"] ∧
      (exec .addMfaToken nd db fs req).req = { req with mfaToken := { req.mfaToken with algorithm := a } }) := by
  have key : (newMfaToken nd req).2 = req ∨
      (req.mfaToken.type = gs! "totp" ∧ ∃ a, a ∈ [gs! "sha1", gs! "sha256", gs! "sha512"] ∧
        (newMfaToken nd req).2 = { req with mfaToken := { req.mfaToken with algorithm := a } }) := by
    unfold newMfaToken
    dsimp only
    split
    · rename_i ht
      unfold newTotp
      dsimp only
      split
      · exact .inl rfl
      · rename_i a ha
        have hmem : a ∈ [gs! "sha1", gs! "sha256", gs! "sha512"] := by
          split at ha
          · rename_i h
            simp only [Option.some.injEq] at ha
            subst ha
            simpa using h
          · split at ha
            · simp only [Option.some.injEq] at ha
              subst ha
              simp
            · simp at ha
        refine .inr ⟨ht, a, hmem, ?_⟩
        have e : ∀ x : Res MfaToken × GoString, x.2 = a →
            ({ req with mfaToken := { req.mfaToken with algorithm := x.2 } } : Request) =
              { req with mfaToken := { req.mfaToken with algorithm := a } } := by
          intro x hx
          rw [hx]
        apply e
        split
        · rfl
        · generalize (if req.mfaToken.digits = 0 then (6 : Int) else req.mfaToken.digits) = d
          split
          · rfl
          · split <;> rfl
    · split
      · exact .inl rfl
      · split <;> exact .inl rfl
  have hreq : (exec .addMfaToken nd db fs req).req = req ∨ (exec .addMfaToken nd db fs req).req = (newMfaToken nd req).2 := by
    simp only [exec, Database.addMfaToken]
    split
    · exact .inl rfl
    · right
      unfold User.addMfaToken
      rcases newMfaToken nd req with ⟨t | e | _, r⟩
      · dsimp only
        split
        · split at *
          all_goals simp_all [Database.failWith]
        · split at *
          all_goals simp_all
        · split at *
          all_goals simp_all [(finish_req ..).1]
      · rfl
      · rfl
  rcases hreq with h | h
  · exact .inl h
  · rw [h]; exact key

/-- C79: so no call ever writes to the credentials, the query, the key's other fields or the WebAuthn documents of a request. -/
theorem C79_never_written [Ext] (c : Call) (nd : Nondet) (db : Database) (fs : FS) (req : Request) :
    let r := (exec c nd db fs req).req
    r.user.password = req.user.password ∧ r.user.oldPassword = req.user.oldPassword ∧ r.query = req.query ∧
      r.webAuthn = req.webAuthn ∧ r.key.id = req.key.id ∧ r.key.usage = req.key.usage ∧ r.key.comment = req.key.comment ∧
      r.key.disabled = req.key.disabled ∧ r.mfaToken.secret = req.mfaToken.secret ∧ r.mfaToken.passcode = req.mfaToken.passcode ∧
      r.mfaToken.id = req.mfaToken.id ∧ r.mfaToken.comment = req.mfaToken.comment ∧ r.flags.enabled = req.flags.enabled := by
  intro r
  by_cases hr : r = req
  · rw [hr]
    exact ⟨rfl, rfl, rfl, rfl, rfl, rfl, rfl, rfl, rfl, rfl, rfl, rfl, rfl⟩
  cases c
  case addAPIKey =>
    rcases C79_add_api_key nd db fs req with h | ⟨s, hash, _, _, h⟩
    · exact absurd h.1 hr
    · have h : r = _ := h
      rw [h]
      exact ⟨rfl, rfl, rfl, rfl, rfl, rfl, rfl, rfl, rfl, rfl, rfl, rfl, rfl⟩
  case deleteAPIKey =>
    rcases C79_delete_api_key nd db fs req with h | ⟨_, _, k, _, _, h⟩
    · exact absurd h hr
    · have h : r = _ := h
      rw [h]
      exact ⟨rfl, rfl, rfl, rfl, rfl, rfl, rfl, rfl, rfl, rfl, rfl, rfl, rfl⟩
  case lookupAPIKey =>
    rcases C79_lookup nd db fs req with ⟨_, h⟩ | ⟨_, _, _, h⟩
    · have h : r = _ := h
      rw [h]
      split <;> exact ⟨rfl, rfl, rfl, rfl, rfl, rfl, rfl, rfl, rfl, rfl, rfl, rfl, rfl⟩
    · have h : r = _ := h
      rw [h]
      exact ⟨rfl, rfl, rfl, rfl, rfl, rfl, rfl, rfl, rfl, rfl, rfl, rfl, rfl⟩
  case addMfaToken =>
    rcases C79_add_mfa_token nd db fs req with h | ⟨_, a, _, h⟩
    · exact absurd h hr
    · have h : r = _ := h
      rw [h]
      exact ⟨rfl, rfl, rfl, rfl, rfl, rfl, rfl, rfl, rfl, rfl, rfl, rfl, rfl⟩
  case authenticateUser =>
    rcases C79_authenticate nd db fs req with ⟨_, h⟩ | ⟨_, h⟩ | ⟨_, h⟩
    · have h : r = _ := h
      rw [h]
      exact ⟨rfl, rfl, rfl, rfl, rfl, rfl, rfl, rfl, rfl, rfl, rfl, rfl, rfl⟩
    · have h : r = _ := h
      rw [h]
      exact ⟨rfl, rfl, rfl, rfl, rfl, rfl, rfl, rfl, rfl, rfl, rfl, rfl, rfl⟩
    · exact absurd h hr
  case identifyUser =>
    have h : r = (db.identifyUser fs req).req := rfl
    rw [h]
    unfold Database.identifyUser
    split
    · exact ⟨rfl, rfl, rfl, rfl, rfl, rfl, rfl, rfl, rfl, rfl, rfl, rfl, rfl⟩
    · split
      · exact ⟨rfl, rfl, rfl, rfl, rfl, rfl, rfl, rfl, rfl, rfl, rfl, rfl, by
          show (User.flagsLoop _ _).enabled = _
          rw [flagsLoop_spec]⟩
      · exact ⟨rfl, rfl, rfl, rfl, rfl, rfl, rfl, rfl, rfl, rfl, rfl, rfl, rfl⟩
  case getUsers =>
    rcases C79_listings (c := .getUsers) (by simp) nd db fs req with ⟨_, p, _, h⟩ | ⟨_, h⟩
    · have h : r = _ := h
      rw [h]
      exact ⟨rfl, rfl, rfl, rfl, rfl, rfl, rfl, rfl, rfl, rfl, rfl, rfl, rfl⟩
    · exact absurd h hr
  case getUser =>
    rcases C79_listings (c := .getUser) (by simp) nd db fs req with ⟨_, p, _, h⟩ | ⟨_, h⟩
    · have h : r = _ := h
      rw [h]
      exact ⟨rfl, rfl, rfl, rfl, rfl, rfl, rfl, rfl, rfl, rfl, rfl, rfl, rfl⟩
    · exact absurd h hr
  case getPublicKeys =>
    rcases C79_listings (c := .getPublicKeys) (by simp) nd db fs req with ⟨_, p, _, h⟩ | ⟨_, h⟩
    · have h : r = _ := h
      rw [h]
      exact ⟨rfl, rfl, rfl, rfl, rfl, rfl, rfl, rfl, rfl, rfl, rfl, rfl, rfl⟩
    · exact absurd h hr
  case getAPIKeys =>
    rcases C79_listings (c := .getAPIKeys) (by simp) nd db fs req with ⟨_, p, _, h⟩ | ⟨_, h⟩
    · have h : r = _ := h
      rw [h]
      exact ⟨rfl, rfl, rfl, rfl, rfl, rfl, rfl, rfl, rfl, rfl, rfl, rfl, rfl⟩
    · exact absurd h hr
  case getMfaTokens =>
    rcases C79_listings (c := .getMfaTokens) (by simp) nd db fs req with ⟨_, p, _, h⟩ | ⟨_, h⟩
    · have h : r = _ := h
      rw [h]
      exact ⟨rfl, rfl, rfl, rfl, rfl, rfl, rfl, rfl, rfl, rfl, rfl, rfl, rfl⟩
    · exact absurd h hr
  case copy p => exact absurd (C79_unchanged (.inr ⟨p, rfl⟩) nd db fs req) hr
  all_goals exact absurd (C79_unchanged (.inl (by simp)) nd db fs req) hr

/-- C79 fails for the response code: a failed `LookupAPIKey`, and `IdentifyUser` for an unknown user, leave the code of the
request as it was, so a request that is used a second time still says 200. -/
theorem C79_stale_code [Ext] {db : Database} (h : Reach Opened db) (nd : Nondet) (fs : FS) (req : Request) :
    ((exec .lookupAPIKey nd db fs req).Failed → (exec .lookupAPIKey nd db fs req).req.response.code = req.response.code) ∧
    ((∀ u ∈ db.users, ¬ Denotes req.user.username u) →
      (exec .identifyUser nd db fs req).req.response.code = req.response.code) := by
  constructor
  · intro hf
    rcases C79_lookup nd db fs req with ⟨_, h1⟩ | ⟨h1, _⟩
    · rw [h1]; split <;> rfl
    · obtain ⟨e, he⟩ := hf
      rw [Result.Succeeded, he] at h1
      cases h1
  · exact fun hn => ((C04_identify h nd fs req).2 hn).1

/-- C79: identifying and then authenticating with the same request is the same as authenticating, for a user whose username can
be looked up. -/
theorem C79_identify_then_authenticate [Ext] {db : Database} (h : Reach Opened db) (nd : Nondet) (fs : FS) (req : Request)
    {u : User} (hu : u ∈ db.users) (hd : Denotes req.user.username u) (hn : Denotes u.username u) :
    (exec .authenticateUser nd db fs (exec .identifyUser nd db fs req).req).out = (exec .authenticateUser nd db fs req).out := by
  obtain ⟨_, _, h3, _, _, _, _, _⟩ := C53_known_user h nd fs req hu hd
  obtain ⟨hpw, _, _, hwa, _⟩ := C79_never_written .identifyUser nd db fs req
  obtain ⟨i, hi⟩ := List.getElem?_of_mem hu
  have g1 := (getUser_iff (reach_inv h)).2 ⟨hi, hd⟩
  have g2 := (getUser_iff (reach_inv h)).2 ⟨hi, hn⟩
  generalize (exec .identifyUser nd db fs req).req = req' at h3 hpw hwa
  simp only [exec, Database.authenticateUser]
  rw [h3, g2, g1, hpw, hwa]
  dsimp only
  repeat' split
  all_goals rfl

/-- C79: for an unknown user the two steps authenticate as the user called `nobody`, if there is one. -/
theorem C79_unknown_becomes_nobody [Ext] {db : Database} (h : Reach Opened db) (nd : Nondet) (fs : FS) (req : Request)
    (hn : ∀ u ∈ db.users, ¬ Denotes req.user.username u) :
    (exec .authenticateUser nd db fs (exec .identifyUser nd db fs req).req).out =
      (exec .authenticateUser nd db fs { req with user := { req.user with username := gs! "nobody" } }).out := by
  rw [(C53_unknown_user h nd fs req hn).2]
  simp only [exec, Database.authenticateUser]
  repeat' split
  all_goals rfl

/-- A key is created, and a request holding its secret (the toy hash of a text is the text itself) looks its owner up; the same
request with a wrong secret, used again, fails and still says 200. -/
example :
    let r := exec .addAPIKey nd db1 fs2 { reqJoe with key := { usage := gs! "api", comment := gs! "ci" } }
    r.out = .success ∧
    (match r.req.response.payload with
    | .secret s =>
      let l := exec .lookupAPIKey nd r.db r.fs { reqJoe with key := { reqJoe.key with payload := s } }
      let l2 := exec .lookupAPIKey nd r.db r.fs { l.req with key := { l.req.key with payload := gs! "short" } }
      decide (r.req.key.pfx = s.take 24 ∧ l.out = .success ∧ l.req.response.code = 200 ∧ l2.out ≠ .success ∧
        l2.req.response.code = 200)
    | _ => false) = true := by
  decide +kernel

/-- The list of users is written to the payload; nothing is written for a wrong user. -/
example :
    (exec .getUsers nd db2 fs3 reqJoe).req.response.payload ≠ .none ∧
    (exec .getMfaTokens nd db2 fs3 { reqJoe with user := { reqJoe.user with username := gs! "zzz" } }).req.response.payload =
      .none := by
  decide +kernel

/-- A right password leaves 200, a wrong one 400. -/
example :
    (exec .authenticateUser nd db1 fs2 reqJoe).req.response.code = 200 ∧
    (exec .authenticateUser nd db1 fs2 { reqJoe with user := { reqJoe.user with password := gs! "wrong password" } }).req.response.code
      = 400 := by
  decide +kernel

/-- Somebody unknown who gives the password of the user called `nobody` is refused by `AuthenticateUser`, and accepted after
`IdentifyUser`. -/
example :
    let rn : Request := { reqAnn with user := { reqAnn.user with username := gs! "nobody", email := gs! "nobody@host.com" } }
    let a := exec .addUser nd2 db1 fs2 rn
    let q : Request := { rn with user := { rn.user with username := gs! "stranger" } }
    a.out = .success ∧
    (exec .authenticateUser nd a.db a.fs q).out ≠ .success ∧
    (exec .authenticateUser nd a.db a.fs (exec .identifyUser nd a.db a.fs q).req).out = .success := by
  decide +kernel

end GoIdentity
