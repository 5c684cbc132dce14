import Verif.Props.ApiKeys
import Verif.Props.WebAuthn
/-!
# Which stored fields decide access: C63
-/
namespace GoIdentity
open Toy

/-! ## C63 -/

/-- All that `AuthenticateUser` may look at in a stored user: whether there is a password at all, the hashes of the passwords
that are neither disabled nor expired, and type and parameters of the tokens that are not disabled. -/
def authView (u : User) : Bool × List GoString × List (GoString × List (GoString × GoString)) :=
  (u.passwords.isEmpty, (u.passwords.filter fun p => !p.disabled && !p.expired).map (·.hash),
    (u.mfaTokens.filter fun t => !t.disabled).map fun t => (t.type, t.parameters))

/-- All that `LookupAPIKey` may look at in a stored user. -/
def lookupView (u : User) : GoString × List EmailAddress × List (GoString × GoString) :=
  (u.username, u.emailAddresses, u.apiKeys.map fun k => (k.pfx, k.payload))

/-- All that `IdentifyUser` may look at in a stored user. -/
def identifyView (u : User) : GoString × List EmailAddress × Option Name × List Role × List (GoString × Bool) :=
  (u.username, u.emailAddresses, u.name, u.roles, u.mfaTokens.map fun t => (t.type, t.disabled))

private theorem map_eq_get {α β : Type} {f : α → β} {l l' : List α} (h : l'.map f = l.map f) (i : Nat) :
    (l[i]? = none ∧ l'[i]? = none) ∨ ∃ a a', l[i]? = some a ∧ l'[i]? = some a' ∧ f a' = f a := by
  have := congrArg (·[i]?) h
  simp only [List.getElem?_map] at this
  cases ha : l[i]? <;> cases ha' : l'[i]? <;> rw [ha, ha'] at this <;> simp_all

private theorem deref_view {β : Type} {f : User → β} {db : Database} {us : List User} (h : us.map f = db.users.map f)
    (r : Option Nat) :
    (db.deref r = none ∧ ({ db with users := us } : Database).deref r = none) ∨
      ∃ i u u', db.deref r = some (i, u) ∧ ({ db with users := us } : Database).deref r = some (i, u') ∧ f u' = f u := by
  cases r with
  | none => exact .inl ⟨rfl, rfl⟩
  | some i =>
    simp only [Database.deref]
    rcases map_eq_get h i with ⟨h1, h2⟩ | ⟨u, u', h1, h2, h3⟩
    · exact .inl ⟨by rw [h1]; rfl, by rw [h2]; rfl⟩
    · exact .inr ⟨i, u, u', by rw [h1]; rfl, by rw [h2]; rfl, h3⟩

private theorem getUser_view [Ext] {β : Type} {f : User → β} {db : Database} {us : List User}
    (h : us.map f = db.users.map f) (s : GoString) :
    (db.getUser s = none ∧ ({ db with users := us } : Database).getUser s = none) ∨
      ∃ i u u', db.getUser s = some (i, u) ∧ ({ db with users := us } : Database).getUser s = some (i, u') ∧ f u' = f u := by
  simp only [Database.getUser, Database.getUserByEmailAddress, Database.getUserByUsername]
  split <;> split <;> first | exact .inl ⟨rfl, rfl⟩ | exact deref_view h _

private theorem matchAny_view [Ext] (s : GoString) (l : List Password) :
    User.matchAny s l = ((l.filter fun p => !p.disabled && !p.expired).map (·.hash)).any fun h => bcryptMatch h s := by
  induction l with
  | nil => rfl
  | cons p ps ih =>
    unfold User.matchAny
    cases hd : p.disabled <;> cases he : p.expired <;> simp [hd, he, ih, Password.accepts]

private theorem webAuthnRequest_view [Ext] {t t' : MfaToken} (h1 : t.type = t'.type) (h2 : t.parameters = t'.parameters)
    (s : GoString) : webAuthnRequest t s = webAuthnRequest t' s := by
  unfold webAuthnRequest; rw [h1, h2]

/-- A token with nothing but a type and parameters. -/
private def bareToken (ty : GoString) (ps : List (GoString × GoString)) : MfaToken :=
  { id := [], type := ty, algorithm := [], comment := [], secret := [], period := 0, digits := 0, expired := false,
    expiredAt := .zero, createdAt := .zero, disabled := false, disabledAt := .zero, device := none,
    parameters := ps, flags := [], signatureCounter := 0 }

private theorem verifyTokens_view [Ext] (w : ReqWebAuthn) (id : GoString) (l : List MfaToken) :
    User.verifyTokens w id l = User.verifyTokens w id
      (((l.filter fun t => !t.disabled).map fun t => (t.type, t.parameters)).map fun x =>
        bareToken x.1 x.2) := by
  induction l with
  | nil => rfl
  | cons t ts ih =>
    cases hd : t.disabled with
    | true => rw [User.verifyTokens]; simp only [hd, if_true]; rw [ih]; simp [hd]
    | false =>
      simp only [hd, List.filter_cons, Bool.not_false, if_true, List.map_cons]
      rw [User.verifyTokens, User.verifyTokens]
      have hb : (bareToken t.type t.parameters).disabled = false := rfl
      have hb1 : (bareToken t.type t.parameters).type = t.type := rfl
      have hb2 : (bareToken t.type t.parameters).parameters = t.parameters := rfl
      simp only [hd, hb, hb1, hb2, Bool.false_eq_true, if_false]
      rw [← ih]
      split
      · rfl
      · split
        · rfl
        · split
          · rfl
          · rw [webAuthnRequest_view (t := t) (t' := bareToken t.type t.parameters) rfl rfl]

/-- C63: the outcome of `AuthenticateUser` (result, response and files) depends on a stored user only through the live password
hashes and the enabled tokens' types and parameters; in particular not on whether the account is enabled or locked out, nor on
whether a token has expired. -/
theorem C63_authentication_reads [Ext] (nd : Nondet) (db : Database) (us : List User)
    (hv : us.map authView = db.users.map authView) (fs : FS) (req : Request) :
    let r := exec .authenticateUser nd db fs req
    let r' := exec .authenticateUser nd { db with users := us } fs req
    r'.out = r.out ∧ r'.req = r.req ∧ r'.fs = r.fs := by
  simp only [exec, Database.authenticateUser]
  rcases getUser_view hv req.user.username with ⟨h1, h2⟩ | ⟨i, u, u', h1, h2, h3⟩
  · rw [h1, h2]; exact ⟨rfl, rfl, rfl⟩
  · rw [h1, h2]
    simp only [authView, Prod.mk.injEq] at h3
    obtain ⟨e1, e2, e3⟩ := h3
    have hp : ∀ s, u'.verifyPassword s = u.verifyPassword s := by
      intro s
      have hl : (u'.passwords.length = 0) = (u.passwords.length = 0) := by
        cases h : u.passwords <;> cases h' : u'.passwords <;> simp_all
      unfold User.verifyPassword
      rw [matchAny_view, matchAny_view, e2]
      simp only [hl]
    have hw : ∀ w, u'.verifyWebAuthnRequest w = u.verifyWebAuthnRequest w := by
      intro w
      unfold User.verifyWebAuthnRequest
      cases unpackWebAuthnRequest w.request with
      | ok r => dsimp only; rw [verifyTokens_view, e3, ← verifyTokens_view]
      | err e => rfl
      | panic => rfl
    simp only [hp, hw]
    split
    · split <;> exact ⟨rfl, rfl, rfl⟩
    · split
      · split <;> exact ⟨rfl, rfl, rfl⟩
      · exact ⟨rfl, rfl, rfl⟩

private theorem lookup_view [Ext] (pfx payload : GoString) {l l' : List APIKey}
    (h : l'.map (fun k => (k.pfx, k.payload)) = l.map fun k => (k.pfx, k.payload)) :
    User.lookupAPIKey pfx payload l' = User.lookupAPIKey pfx payload l := by
  induction l generalizing l' with
  | nil => cases l' with
    | nil => rfl
    | cons => simp at h
  | cons k ks ih => cases l' with
    | nil => simp at h
    | cons k' ks' =>
      simp only [List.map_cons, List.cons.injEq, Prod.mk.injEq] at h
      unfold User.lookupAPIKey
      rw [ih h.2, h.1.1]
      unfold APIKey.accepts
      rw [h.1.2]

/-- C63: the outcome of `LookupAPIKey` depends on a stored user only through the name, the addresses and the keys' prefixes and
hashes; in particular not on whether a key is disabled or expired, nor on whether the account is enabled or locked out. -/
theorem C63_lookup_reads [Ext] (nd : Nondet) (db : Database) (us : List User)
    (hv : us.map lookupView = db.users.map lookupView) (fs : FS) (req : Request) :
    let r := exec .lookupAPIKey nd db fs req
    let r' := exec .lookupAPIKey nd { db with users := us } fs req
    r'.out = r.out ∧ r'.req = r.req ∧ r'.fs = r.fs := by
  simp only [exec, Database.lookupAPIKey]
  split
  · exact ⟨rfl, rfl, rfl⟩
  · split
    · exact ⟨rfl, rfl, rfl⟩
    · rcases deref_view hv (db.refAPIKey (req.key.payload.take 24)) with ⟨h1, h2⟩ | ⟨i, u, u', h1, h2, h3⟩
      · rw [h1, h2]; exact ⟨rfl, rfl, rfl⟩
      · rw [h1, h2]
        simp only [lookupView, Prod.mk.injEq] at h3
        obtain ⟨e1, e2, e3⟩ := h3
        simp only [lookup_view _ _ e3, e1]
        have : u'.mailClaim = u.mailClaim := by unfold User.mailClaim; rw [e2]
        rw [this]
        split <;> exact ⟨rfl, rfl, rfl⟩

private theorem flags_view {l l' : List MfaToken} (f : ReqFlags)
    (h : l'.map (fun t => (t.type, t.disabled)) = l.map fun t => (t.type, t.disabled)) :
    User.flagsLoop l' f = User.flagsLoop l f := by
  induction l generalizing l' f with
  | nil => cases l' with
    | nil => rfl
    | cons => simp at h
  | cons k ks ih => cases l' with
    | nil => simp at h
    | cons k' ks' =>
      simp only [List.map_cons, List.cons.injEq, Prod.mk.injEq] at h
      obtain ⟨⟨h1, h2⟩, h3⟩ := h
      simp only [User.flagsLoop, h1, h2, ih _ h3]

/-- C63: the outcome of `IdentifyUser` depends on a stored user only through the name, addresses, full name, roles and the tokens'
types and disabled flags; in particular not on whether the account is enabled or locked out. -/
theorem C63_identification_reads [Ext] (nd : Nondet) (db : Database) (us : List User)
    (hv : us.map identifyView = db.users.map identifyView) (fs : FS) (req : Request) :
    let r := exec .identifyUser nd db fs req
    let r' := exec .identifyUser nd { db with users := us } fs req
    r'.out = r.out ∧ r'.req = r.req ∧ r'.fs = r.fs := by
  simp only [exec, Database.identifyUser]
  rcases getUser_view hv req.user.username with ⟨h1, h2⟩ | ⟨i, u, u', h1, h2, h3⟩
  · rw [h1, h2]; exact ⟨rfl, rfl, rfl⟩
  · rw [h1, h2]
    simp only [identifyView, Prod.mk.injEq] at h3
    obtain ⟨e1, e2, e3, e4, e5⟩ := h3
    have a1 : u'.mailClaim = u.mailClaim := by unfold User.mailClaim; rw [e2]
    have a2 : u'.nameClaim = u.nameClaim := by unfold User.nameClaim; rw [e3]
    have a3 : u'.rolesClaim = u.rolesClaim := by unfold User.rolesClaim; rw [e4]
    have a4 : u'.challenges = u.challenges := by
      have := congrArg List.length e5
      simp only [List.length_map] at this
      unfold User.challenges; rw [this]
    have a5 : ∀ f, User.flagsLoop u'.mfaTokens f = User.flagsLoop u.mfaTokens f := fun f => flags_view f e5
    simp [e1, a1, a2, a3, a4, a5]

/-- C63: setting the account flags of every user to anything whatever changes none of the three. -/
theorem C63_account_status_ignored [Ext] (nd : Nondet) (db : Database) (e : User → Bool) (l : User → Option LockoutState)
    (fs : FS) (req : Request) (c : Call) (hc : c ∈ [Call.authenticateUser, .lookupAPIKey, .identifyUser]) :
    let r := exec c nd db fs req
    let r' := exec c nd { db with users := db.users.map fun u => { u with enabled := e u, lockout := l u } } fs req
    r'.out = r.out ∧ r'.req = r.req ∧ r'.fs = r.fs := by
  simp only [List.mem_cons, List.not_mem_nil, or_false] at hc
  rcases hc with rfl | rfl | rfl
  · exact C63_authentication_reads nd db _ (by rw [List.map_map]; rfl) fs req
  · exact C63_lookup_reads nd db _ (by rw [List.map_map]; rfl) fs req
  · exact C63_identification_reads nd db _ (by rw [List.map_map]; rfl) fs req

/-- C63: disabling API keys, by whatever rule, changes no lookup. -/
theorem C63_disabled_api_keys_work [Ext] (nd : Nondet) (db : Database) (now : Clock) (off : APIKey → Bool) (fs : FS)
    (req : Request) :
    let r := exec .lookupAPIKey nd db fs req
    let r' := exec .lookupAPIKey nd { db with users := db.users.map fun u =>
      { u with apiKeys := u.apiKeys.map fun k => if off k then k.disable now else k } } fs req
    r'.out = r.out ∧ r'.req = r.req ∧ r'.fs = r.fs := by
  refine C63_lookup_reads nd db _ ?_ fs req
  rw [List.map_map]
  refine List.map_congr_left fun u _ => ?_
  simp only [lookupView, Function.comp, List.map_map, Prod.mk.injEq, true_and]
  refine List.map_congr_left fun k _ => ?_
  simp only [Function.comp]
  split <;> rfl

/-- C63: a user all of whose passwords are disabled or expired is not let in by any password. -/
theorem C63_dead_passwords_refused [Ext] {db : Database} (h : Reach Opened db) (nd : Nondet) (fs : FS) (req : Request)
    {u : User} (hu : u ∈ db.users) (hd : Denotes req.user.username u) (hp : req.user.password ≠ [])
    (hdead : ∀ p ∈ u.passwords, p.disabled = true ∨ p.expired = true) :
    (exec .authenticateUser nd db fs req).Failed := by
  obtain ⟨i, hi⟩ := List.getElem?_of_mem hu
  have hg := (getUser_iff (reach_inv h)).2 ⟨hi, hd⟩
  have hm : User.matchAny req.user.password u.passwords = false := by
    rw [matchAny_view]
    have : (u.passwords.filter fun p => !p.disabled && !p.expired) = [] := by
      rw [List.filter_eq_nil_iff]
      intro p hp'
      rcases hdead p hp' with h | h <;> simp [h]
    rw [this]; rfl
  simp only [exec, Database.authenticateUser, hg, if_pos hp]
  unfold User.verifyPassword
  rw [hm]
  split
  · rename_i h; split at h <;> exact ⟨_, rfl⟩
  · rename_i h; split at h <;> simp at h

/-- C63: with every security key disabled (by `Disable` or otherwise) no assertion is accepted. -/
theorem C63_disabled_tokens_refused [Ext] {db : Database} (h : Reach Opened db) (nd : Nondet) (fs : FS) (req : Request)
    {u : User} (hu : u ∈ db.users) (hd : Denotes req.user.username u) (hp : req.user.password = [])
    (hdead : ∀ t ∈ u.mfaTokens, t.type = gs! "u2f" → t.disabled = true) :
    ¬ (exec .authenticateUser nd db fs req).Succeeded := by
  intro hs
  obtain ⟨v, hv, hdv, t, ht, hn, hty, _⟩ := C33_needs_signature h nd fs req hp hs
  obtain ⟨i, hi⟩ := List.getElem?_of_mem hu
  obtain ⟨j, hj⟩ := List.getElem?_of_mem hv
  have h1 := (getUser_iff (reach_inv h)).2 ⟨hi, hd⟩
  have h2 := (getUser_iff (reach_inv h)).2 ⟨hj, hdv⟩
  rw [h1] at h2
  cases h2
  rw [hdead t ht hty] at hn
  cases hn

/-- C63: checking a one-time code never looks at the token's status. -/
theorem C63_code_check_ignores_status [Ext] (t : MfaToken) (d e : Bool) (dAt eAt : GoTime) (code : GoString) (unix : Int) :
    validateCode { t with disabled := d, disabledAt := dAt, expired := e, expiredAt := eAt } code unix =
      validateCode t code unix := rfl

/-- C63: `Disable` marks a credential expired and disabled at the times read from the clock and changes nothing else. -/
theorem C63_disable_exact (now : Clock) (p : Password) (k : APIKey) (g : PublicKey) (t : MfaToken) :
    p.disable now = { p with disabled := true, disabledAt := now 1, expired := true, expiredAt := now 0 } ∧
    k.disable now = { k with disabled := true, disabledAt := now 1, expired := true, expiredAt := now 0 } ∧
    g.disable now = { g with disabled := true, disabledAt := now 1, expired := true, expiredAt := now 0 } ∧
    t.disable now = { t with disabled := true, disabledAt := now 1, expired := true, expiredAt := now 0 } := ⟨rfl, rfl, rfl, rfl⟩

-- Accounts come into being not enabled, and authenticate all the same; so does a locked one.
example : (∀ u ∈ db2.users, u.enabled = false) ∧
    (exec .authenticateUser nd db2 fs3 { user := { username := gs! "ann", password := gs! "password2" } }).Succeeded := by
  unfold Result.Succeeded; decide +kernel
example :
    let locked := { db2 with users := db2.users.map fun u =>
      { u with lockout := some ⟨true, ⟨2020, 1, 1, 0, 0, 0, 0, 0⟩, ⟨2030, 1, 1, 0, 0, 0, 0, 0⟩⟩ } }
    (exec .authenticateUser nd locked fs3 { user := { username := gs! "ann", password := gs! "password2" } }).Succeeded := by
  unfold Result.Succeeded; decide +kernel
-- A key created as disabled works; a security key disabled or expired behaves as stated.
example : (∀ u ∈ dbKeyOff.users, ∀ k ∈ u.apiKeys, k.disabled = true) ∧
    (exec .lookupAPIKey nd dbKeyOff fs3 (reqLookup joeSecret)).Succeeded := by
  unfold Result.Succeeded; decide +kernel
example :
    let req := reqAssert (gs! "abc") toySig (gs! "abc")
    let old := { dbU2F with users := dbU2F.users.map fun u =>
      { u with mfaTokens := u.mfaTokens.map fun t => { t with expired := true } } }
    let off := { dbU2F with users := dbU2F.users.map fun u =>
      { u with mfaTokens := u.mfaTokens.map fun t => t.disable nd.now } }
    (exec .authenticateUser nd old fs3 req).Succeeded ∧ ¬ (exec .authenticateUser nd off fs3 req).Succeeded := by
  unfold Result.Succeeded; decide +kernel
-- The views are not constant: each of the two users shows one hash.
example : (db2.users.map fun u => (authView u).2.1.length) = [1, 1] := by decide +kernel

end GoIdentity
