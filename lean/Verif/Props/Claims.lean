import Verif.Props.Identity
import Verif.Spec.Toy
/-!
# What the library tells about users: C53, C54, C60
-/
namespace GoIdentity
open Toy

/-! ## C53 -/

/-- C53: for a known user, `IdentifyUser` returns nil, code 200 and the stored identity; the rest of the request but the flags
is untouched. -/
theorem C53_known_user [Ext] {db : Database} (h : Reach Opened db) (nd : Nondet) (fs : FS) (req : Request) {u : User}
    (hu : u ∈ db.users) (hd : Denotes req.user.username u) :
    let r := exec .identifyUser nd db fs req
    r.Succeeded ∧ r.req.response.code = 200 ∧ r.req.user.username = u.username ∧ r.req.user.email = u.mailClaim ∧
      r.req.user.fullName = u.fullName ∧ r.req.user.roles = u.roles.map Role.toStr ∧
      r.req.user.challenges = (if u.mfaTokens = [] then [gs! "password"] else [gs! "password", gs! "mfa"]) ∧
      r.req = { req with
        user := { req.user with
          username := r.req.user.username, email := r.req.user.email, fullName := r.req.user.fullName,
          roles := r.req.user.roles, challenges := r.req.user.challenges },
        flags := r.req.flags, response := { req.response with code := 200 } } := by
  intro r
  obtain ⟨i, hi⟩ := List.getElem?_of_mem hu
  have hg := (getUser_iff (reach_inv h)).2 ⟨hi, hd⟩
  have hr : r = db.identifyUser fs req := rfl
  have hroles : u.rolesClaim = u.roles.map Role.toStr := by
    unfold User.rolesClaim; cases u.roles <;> simp
  have hname : u.nameClaim = u.fullName := by
    unfold User.nameClaim User.fullName
    cases u.name with
    | none => rfl
    | some n => dsimp only; split <;> simp_all
  have hch : u.challenges = (if u.mfaTokens = [] then [gs! "password"] else [gs! "password", gs! "mfa"]) := by
    unfold User.challenges
    cases u.mfaTokens <;> simp
  rw [hr]
  unfold Database.identifyUser
  rw [hg, ← hroles, ← hname, ← hch]
  by_cases hf : req.flags.enabled = true
  · simp [hf, Database.setCode, Result.Succeeded]
  · simp [hf, Database.setCode, Result.Succeeded]

/-- C53: for a string that denotes nobody, `IdentifyUser` returns nil with the identity `nobody` and the password challenge;
nothing else in the request changes, and nothing in it depends on the database. -/
theorem C53_unknown_user [Ext] {db : Database} (h : Reach Opened db) (nd : Nondet) (fs : FS) (req : Request)
    (hn : ∀ u ∈ db.users, ¬ Denotes req.user.username u) :
    let r := exec .identifyUser nd db fs req
    r.Succeeded ∧ r.req = { req with user := { req.user with
      username := gs! "nobody", email := gs! "nobody@localhost", challenges := [gs! "password"] } } := by
  intro r
  have hg := (getUser_none_iff (reach_inv h)).2 hn
  have hr : r = db.identifyUser fs req := rfl
  rw [hr]
  unfold Database.identifyUser
  rw [hg]
  exact ⟨rfl, rfl⟩

/-- C53: so the two cases can be told apart by the response code, unless the caller had set it to 200 before. -/
theorem C53_code_distinguishes [Ext] {db : Database} (h : Reach Opened db) (nd : Nondet) (fs : FS) (req : Request)
    (hc : req.response.code ≠ 200) :
    (exec .identifyUser nd db fs req).req.response.code = 200 ↔ ∃ u ∈ db.users, Denotes req.user.username u := by
  constructor
  · intro h1
    by_cases hn : ∃ u ∈ db.users, Denotes req.user.username u
    · exact hn
    · exfalso
      have := (C53_unknown_user h nd fs req (fun u hu hd => hn ⟨u, hu, hd⟩)).2
      rw [this] at h1
      exact hc h1
  · rintro ⟨u, hu, hd⟩
    exact (C53_known_user h nd fs req hu hd).2.1

example : (exec .identifyUser nd db2 fs3 { user := { username := gs! "ann@example.com" } }).req.user.username = gs! "ann" ∧
    (exec .identifyUser nd db2 fs3 { user := { username := gs! "zoe" } }).req.user.email = gs! "nobody@localhost" := by
  decide +kernel

/-! ## C54 -/

theorem flagsLoop_spec (ts : List MfaToken) (f : ReqFlags) :
    User.flagsLoop ts f = { f with
      mfaConfigured := f.mfaConfigured || ts.any (fun t => !t.disabled)
      mfaApp := f.mfaApp || ts.any (fun t => !t.disabled && t.type == gs! "totp")
      mfaUniversal := f.mfaUniversal || ts.any (fun t => !t.disabled && t.type == gs! "u2f") } := by
  induction ts generalizing f with
  | nil => simp [User.flagsLoop]
  | cons t ts ih =>
    unfold User.flagsLoop
    by_cases hd : t.disabled = true
    · simp [hd, ih]
    · have hd : t.disabled = false := by simpa using hd
      by_cases h1 : t.type = gs! "totp"
      · simp [hd, h1, ih]
      · by_cases h2 : t.type = gs! "u2f"
        · have : ¬ (gs! "u2f" : GoString) = gs! "totp" := by decide
          simp [hd, h2, ih, this]
        · have e1 : (t.type == gs! "totp") = false := by simpa using h1
          have e2 : (t.type == gs! "u2f") = false := by simpa using h2
          simp only [List.any_cons, hd, e1, e2, ih, if_neg h1, if_neg h2]
          simp

/-- C54: with `Flags.Enabled`, `IdentifyUser` sets MfaConfigured iff some token is not disabled, MfaApp iff one of these is a
totp token, MfaUniversal iff one of these is a u2f token; a flag already set stays set, and without `Flags.Enabled` no flag
changes. -/
theorem C54_flags [Ext] {db : Database} (h : Reach Opened db) (nd : Nondet) (fs : FS) (req : Request) {u : User}
    (hu : u ∈ db.users) (hd : Denotes req.user.username u) :
    let f := (exec .identifyUser nd db fs req).req.flags
    (req.flags.enabled = true →
      (f.mfaConfigured = true ↔ req.flags.mfaConfigured = true ∨ ∃ t ∈ u.mfaTokens, t.disabled = false) ∧
      (f.mfaApp = true ↔ req.flags.mfaApp = true ∨ ∃ t ∈ u.mfaTokens, t.disabled = false ∧ t.type = gs! "totp") ∧
      (f.mfaUniversal = true ↔
        req.flags.mfaUniversal = true ∨ ∃ t ∈ u.mfaTokens, t.disabled = false ∧ t.type = gs! "u2f") ∧
      f.mfaRequired = req.flags.mfaRequired ∧ f.enabled = true) ∧
    (req.flags.enabled = false → f = req.flags) := by
  intro f
  obtain ⟨i, hi⟩ := List.getElem?_of_mem hu
  have hg := (getUser_iff (reach_inv h)).2 ⟨hi, hd⟩
  have hf : f = (db.identifyUser fs req).req.flags := rfl
  unfold Database.identifyUser at hf
  rw [hg] at hf
  constructor
  · intro he
    simp only [he, if_true, Database.setCode, flagsLoop_spec] at hf
    rw [hf]
    simp [List.any_eq_true]
  · intro he
    simpa [he, Database.setCode] using hf

/-- C54: the challenges include `mfa` iff the user has any token at all. -/
theorem C54_challenges [Ext] {db : Database} (h : Reach Opened db) (nd : Nondet) (fs : FS) (req : Request) {u : User}
    (hu : u ∈ db.users) (hd : Denotes req.user.username u) :
    gs! "mfa" ∈ (exec .identifyUser nd db fs req).req.user.challenges ↔ ∃ t, t ∈ u.mfaTokens := by
  rw [(C53_known_user h nd fs req hu hd).2.2.2.2.2.2.1]
  cases u.mfaTokens with
  | nil => simp
  | cons t ts =>
    constructor
    · intro _; exact ⟨t, by simp⟩
    · intro _; simp

/-- C54: so for a user whose tokens are all disabled, `mfa` is demanded but not reported as configured. -/
theorem C54_disagreement [Ext] {db : Database} (h : Reach Opened db) (nd : Nondet) (fs : FS) (req : Request) {u : User}
    (hu : u ∈ db.users) (hd : Denotes req.user.username u) (hne : u.mfaTokens ≠ [])
    (hall : ∀ t ∈ u.mfaTokens, t.disabled = true) (hcl : req.flags.mfaConfigured = false) :
    let r := exec .identifyUser nd db fs req
    gs! "mfa" ∈ r.req.user.challenges ∧ r.req.flags.mfaConfigured = false := by
  intro r
  refine ⟨(C54_challenges h nd fs req hu hd).2 (List.exists_mem_of_ne_nil _ hne), ?_⟩
  obtain ⟨h1, h2⟩ := C54_flags h nd fs req hu hd
  by_cases he : req.flags.enabled = true
  · rw [← Bool.not_eq_true, (h1 he).1]
    rintro (hc | ⟨t, ht, htd⟩)
    · rw [hcl] at hc; simp at hc
    · rw [hall t ht] at htd; simp at htd
  · exact (congrArg ReqFlags.mfaConfigured (h2 (by simpa using he))).trans hcl

/-! ## C60 -/

/-- C60: the address reported for a user is the first primary one if there is one, otherwise the first one, otherwise
empty. -/
theorem C60_mail_claim (u : User) :
    (u.emailAddresses = [] → u.mailClaim = []) ∧
    (∀ a e b, u.emailAddresses = a ++ e :: b → (∀ x ∈ a, x.primary = false) → e.primary = true → u.mailClaim = e.address) ∧
    (∀ e b, u.emailAddresses = e :: b → (∀ x ∈ e :: b, x.primary = false) → u.mailClaim = e.address) := by
  refine ⟨?_, ?_, ?_⟩
  · intro h; simp [User.mailClaim, h]
  · intro a e b h ha he
    have hf : u.emailAddresses.find? (·.primary) = some e := by
      rw [h, List.find?_append, List.find?_eq_none.2 (by simpa using ha)]
      simp [he]
    unfold User.mailClaim
    split
    · rename_i h0; rw [h0] at h; simp at h
    · rename_i x xs h0; rw [← h0, hf]
  · intro e b h hall
    unfold User.mailClaim
    rw [h]
    dsimp only
    rw [List.find?_eq_none.2 (by simpa using hall)]

/-- C60: hence it is one of the user's addresses whenever there is one. -/
theorem C60_claim_is_an_address (u : User) (h : u.emailAddresses ≠ []) : ∃ e ∈ u.emailAddresses, u.mailClaim = e.address := by
  unfold User.mailClaim
  split
  · rename_i h0; exact absurd h0 h
  · rename_i x xs h0
    split
    · rename_i m hm; rw [h0]; exact ⟨m, List.mem_of_find?_eq_some hm, rfl⟩
    · rw [h0]; exact ⟨x, by simp, rfl⟩

/-- C60: `IdentifyUser` reports this address for a known user. -/
theorem C60_identify_reports [Ext] {db : Database} (h : Reach Opened db) (nd : Nondet) (fs : FS) (req : Request) {u : User}
    (hu : u ∈ db.users) (hd : Denotes req.user.username u) : (exec .identifyUser nd db fs req).req.user.email = u.mailClaim :=
  (C53_known_user h nd fs req hu hd).2.2.2.1

/-- C60: and so does a successful `LookupAPIKey` for the key's owner. -/
theorem C60_lookup_reports [Ext] {nd : Nondet} {db : Database} {fs : FS} {req : Request}
    (hs : (exec .lookupAPIKey nd db fs req).Succeeded) :
    ∃ u ∈ db.users, (exec .lookupAPIKey nd db fs req).req.user.username = u.username ∧
      (exec .lookupAPIKey nd db fs req).req.user.email = u.mailClaim := by
  have hr : exec .lookupAPIKey nd db fs req = db.lookupAPIKey fs req := rfl
  rw [hr] at hs ⊢
  unfold Database.lookupAPIKey at hs ⊢
  by_cases h1 : req.key.payload = []
  · rw [if_pos h1] at hs; simp [Database.failWith, Result.Succeeded] at hs
  · rw [if_neg h1] at hs ⊢
    by_cases h2 : req.key.payload.length < 72
    · rw [if_pos h2] at hs; simp [Database.failWith, Result.Succeeded] at hs
    · rw [if_neg h2] at hs ⊢
      dsimp only at hs ⊢
      cases hd : db.deref (db.refAPIKey (req.key.payload.take 24)) with
      | none => rw [hd] at hs; simp [Database.failWith, Result.Succeeded] at hs
      | some x =>
        obtain ⟨i, u⟩ := x
        rw [hd] at hs
        dsimp only at hs ⊢
        cases hl : User.lookupAPIKey (req.key.payload.take 24) req.key.payload u.apiKeys with
        | some e => rw [hl] at hs; simp [Database.failWith, Result.Succeeded] at hs
        | none =>
          refine ⟨u, ?_, rfl, rfl⟩
          exact List.mem_of_getElem? (deref_eq_some.1 hd).2

/-- C60: for users created through the package it is the address given at registration: no call changes the addresses. -/
theorem C60_registered_address [Ext] {db : Database} {nd : Nondet} {fs : FS} {req : Request}
    (hs : (exec .addUser nd db fs req).Succeeded) (ops : List Op) :
    let later := (run (exec .addUser nd db fs req).db (exec .addUser nd db fs req).fs ops).1
    ∃ u, later.users[db.users.length]? = some u ∧ u.username = req.user.username ∧ u.mailClaim = req.user.email := by
  intro later
  obtain ⟨u, hu, _, hname, ⟨e, hems, _, haddr⟩, _⟩ := C06_add_user_appends_one hs
  have hget : (exec .addUser nd db fs req).db.users[db.users.length]? = some u := by rw [hu]; simp
  obtain ⟨u', hu', hsame⟩ := run_same (fs := (exec .addUser nd db fs req).fs) (ops := ops) hget
  refine ⟨u', hu', by rw [hsame.username, hname], ?_⟩
  have hm : u'.emailAddresses = [e] := by rw [hsame.emailAddresses, hems]
  obtain ⟨x, hx, hxe⟩ := C60_claim_is_an_address u' (by rw [hm]; simp)
  rw [hm, List.mem_singleton] at hx
  rw [hxe, hx, haddr]

example : (db2.users.map User.mailClaim) = [gs! "Joe@example.com", gs! "ann@example.com"] := by decide +kernel

/-- A user whose only token is disabled: `mfa` is demanded, but the flags say that nothing is configured. -/
example : let u : User := { User.zero with mfaTokens := [{ MfaToken.zero with type := gs! "totp", disabled := true }] }
    u.challenges = [gs! "password", gs! "mfa"] ∧ (User.flagsLoop u.mfaTokens { enabled := true }).mfaConfigured = false := by
  decide +kernel

end GoIdentity
