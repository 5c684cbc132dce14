import Verif.Lemmas.NullCalls
import Verif.Props.Nulls
/-!
# Nulls that opening overlooks: C123
-/
namespace GoIdentity
open Toy

/-! ## C123 -/

/-- C123: on a user without nulls, `IdentifyUser` is that of the rest of this development. -/
theorem C123_identify_without_nulls [Ext] {db : Database} {fs : FS} {req : Request} {i : Nat} {p : User}
    (hg : db.getUser req.user.username = some (i, p)) :
    ∃ r, (NullUser.of p).identify req = .ok r ∧ db.identifyUser fs req = ⟨db, fs, r, .success⟩ := by
  have hf : (NullUser.of p).flags req.flags = .ok (User.flagsLoop p.mfaTokens req.flags) := by
    rw [flagsLoop_eq]; exact eachPtr_some _ _ _
  have hr : (NullUser.of p).rolesClaim = .ok p.rolesClaim := by
    refine (eachPtr_some _ _ _).trans ?_
    rw [roles_fold]
    unfold User.rolesClaim
    split
    · next h => rw [List.length_eq_zero_iff.1 h]; rfl
    · rfl
  have hm : (NullUser.of p).mailClaim = p.mailClaim := by
    unfold NullUser.mailClaim User.mailClaim NullUser.of
    simp [List.filterMap_map]
  have hc : (NullUser.of p).challenges = p.challenges := by
    unfold NullUser.challenges User.challenges NullUser.of
    simp
  refine ⟨(db.identifyUser fs req).req, ?_, ?_⟩
  · unfold NullUser.identify Database.identifyUser
    rw [hf, hr, hm, hc, hg]
    cases req.flags.enabled <;> rfl
  · unfold Database.identifyUser
    rw [hg]

/-- C123: identifying a user panics exactly if a role is null, or flags are asked for and a token is null; it never fails otherwise. -/
theorem C123_identify_panics_iff [Ext] (u : NullUser) (req : Request) :
    (u.identify req = .panic ↔ req.flags.enabled = true ∧ none ∈ u.mfaTokens ∨ none ∈ u.roles) ∧ ∀ e, u.identify req ≠ .err e := by
  have hf := eachPtr_panic NullUser.flagsStep u.mfaTokens req.flags
  have hfe := eachPtr_no_err NullUser.flagsStep u.mfaTokens req.flags
  have hr := eachPtr_panic (fun l r => l ++ [Role.toStr r]) u.roles []
  have hre := eachPtr_no_err (fun l r => l ++ [Role.toStr r]) u.roles []
  unfold NullUser.identify NullUser.flags NullUser.rolesClaim
  cases he : req.flags.enabled <;> cases hx : eachPtr NullUser.flagsStep u.mfaTokens req.flags <;>
    cases hy : eachPtr (fun l r => l ++ [Role.toStr r]) u.roles [] <;> simp_all

/-- C123: what an identified user with nulls is told: a null token asks for a second factor like any other. -/
theorem C123_identified [Ext] {u : NullUser} {req r : Request} (h : u.identify req = .ok r) :
    r.user.username = u.rest.username ∧ (∃ rs : List Role, u.roles = rs.map some ∧ r.user.roles = rs.map Role.toStr) ∧
    r.user.challenges = (if u.mfaTokens = [] then [gs! "password"] else [gs! "password", gs! "mfa"]) ∧ r.response.code = 200 ∧
    (req.flags.enabled = false → r.flags = req.flags) ∧
    (req.flags.enabled = true → ∃ ts : List MfaToken, u.mfaTokens = ts.map some ∧ r.flags = User.flagsLoop ts req.flags) := by
  have hp := C123_identify_panics_iff u req
  rw [h] at hp
  have hn : ¬ (req.flags.enabled = true ∧ none ∈ u.mfaTokens ∨ none ∈ u.roles) := fun x => nomatch hp.1.2 x
  have all : ∀ {α : Type} (l : List (Option α)), none ∉ l → ∃ xs : List α, l = xs.map some := by
    intro α l hl
    induction l with
    | nil => exact ⟨[], rfl⟩
    | cons a l ih =>
      obtain ⟨xs, hxs⟩ := ih fun x => hl (by simp [x])
      cases a with
      | none => simp at hl
      | some a => exact ⟨a :: xs, by rw [hxs]; rfl⟩
  obtain ⟨rs, hrs⟩ := all u.roles fun x => hn (.inr x)
  have hr : u.rolesClaim = .ok (rs.map Role.toStr) := by
    unfold NullUser.rolesClaim
    rw [hrs, eachPtr_some, roles_fold]; rfl
  have hc : u.challenges = if u.mfaTokens = [] then [gs! "password"] else [gs! "password", gs! "mfa"] := by
    unfold NullUser.challenges
    cases u.mfaTokens <;> rfl
  unfold NullUser.identify at h
  rw [hr, hc] at h
  cases he : req.flags.enabled with
  | false =>
    rw [he] at h
    cases h
    exact ⟨rfl, ⟨rs, hrs, rfl⟩, rfl, rfl, fun _ => rfl, fun x => nomatch x⟩
  | true =>
    obtain ⟨ts, hts⟩ := all u.mfaTokens fun x => hn (.inl ⟨he, x⟩)
    have hf : u.flags req.flags = .ok (User.flagsLoop ts req.flags) := by
      unfold NullUser.flags
      rw [hts, eachPtr_some, flagsLoop_eq]
    rw [he, if_pos rfl, hf] at h
    cases h
    exact ⟨rfl, ⟨rs, hrs, rfl⟩, rfl, rfl, fun x => (nomatch x), fun _ => ⟨ts, hts, rfl⟩⟩

/-- C123: a null among the tokens makes listing and deleting tokens panic, whatever else is asked for, so that no call removes it; without
one they go as elsewhere. -/
theorem C123_tokens [Ext] (u : NullUser) (id : GoString) :
    (u.tokenBundle = .panic ↔ none ∈ u.mfaTokens) ∧ (u.withoutToken id = .panic ↔ none ∈ u.mfaTokens) ∧
    ∀ ts : List MfaToken, u.mfaTokens = ts.map some →
      u.tokenBundle = .ok (ts.foldl (fun b k => if k.disabled then b else b.add k) Bundle.new) ∧
      u.withoutToken id = .ok (ts.any (fun x => x.id == id), ts.filter fun x => !(x.id == id)) := by
  refine ⟨eachPtr_panic _ _ _, eachPtr_panic _ _ _, fun ts h => ⟨?_, ?_⟩⟩
  · unfold NullUser.tokenBundle; rw [h]; exact eachPtr_some _ _ _
  · unfold NullUser.withoutToken
    rw [h, eachPtr_some]
    have := without_eq (fun x : MfaToken => x.id == id) ts false []
    simpa using this

/-- C123: the same for public keys. -/
theorem C123_keys [Ext] (u : NullUser) (usage id : GoString) :
    (u.keyBundle usage = .panic ↔ none ∈ u.publicKeys) ∧ (u.withoutKey id = .panic ↔ none ∈ u.publicKeys) ∧
    ∀ ks : List PublicKey, u.publicKeys = ks.map some →
      u.keyBundle usage = .ok (ks.foldl (fun b k => if k.usage ≠ usage then b else if k.disabled then b else b.add k) Bundle.new) ∧
      u.withoutKey id = .ok (ks.any (fun x => x.id == id), ks.filter fun x => !(x.id == id)) := by
  refine ⟨eachPtr_panic _ _ _, eachPtr_panic _ _ _, fun ts h => ⟨?_, ?_⟩⟩
  · unfold NullUser.keyBundle; rw [h]; exact eachPtr_some _ _ _
  · unfold NullUser.withoutKey
    rw [h, eachPtr_some]
    have := without_eq (fun x : PublicKey => x.id == id) ts false []
    simpa using this

/-- C123: adding a token panics in its check for duplicates exactly if a null comes before every duplicate. -/
theorem C123_token_check [Ext] (u : NullUser) (t : MfaToken) :
    (u.tokenDup t = .panic ↔ ∃ (pre : List MfaToken) (post : List (Option MfaToken)), u.mfaTokens = pre.map some ++ none :: post ∧
      ∀ k ∈ pre, k.secret ≠ t.secret ∧ k.comment ≠ t.comment) ∧
    ∀ ts : List MfaToken, u.mfaTokens = ts.map some → u.tokenDup t = .ok (User.checkMfaDup t ts) := by
  refine ⟨(seekPtr_panic _ _).trans ?_, fun ts h => ?_⟩
  · refine exists_congr fun pre => exists_congr fun post => and_congr_right fun _ => forall_congr' fun k => imp_congr_right fun _ => ?_
    by_cases h1 : k.secret = t.secret <;> by_cases h2 : k.comment = t.comment <;> simp [h1, h2]
  · unfold NullUser.tokenDup
    rw [h, seekPtr_some]
    congr 1
    clear h
    induction ts with
    | nil => rfl
    | cons k ts ih =>
      rw [List.findSome?_cons]
      unfold User.checkMfaDup
      by_cases h1 : k.secret = t.secret
      · simp [h1]
      · by_cases h2 : k.comment = t.comment
        · simp [h1, h2]
        · simpa [h1, h2] using ih

/-- C123: the same for adding a public key. -/
theorem C123_key_check [Ext] (u : NullUser) (key : PublicKey) (usage : GoString) :
    (u.keyDup key usage = .panic ↔ ∃ (pre : List PublicKey) (post : List (Option PublicKey)), u.publicKeys = pre.map some ++ none :: post ∧
      ∀ k ∈ pre, ¬ (k.type = key.type ∧ k.fingerprint = key.fingerprint)) ∧
    ∀ ks : List PublicKey, u.publicKeys = ks.map some →
      u.keyDup key usage = .ok (if ks.any (fun x => x.type == key.type && x.fingerprint == key.fingerprint) then
        some (.withV .addPublicKey [usage, gs! "already exists"] []) else none) := by
  refine ⟨(seekPtr_panic _ _).trans ?_, fun ts h => ?_⟩
  · refine exists_congr fun pre => exists_congr fun post => and_congr_right fun _ => forall_congr' fun k => imp_congr_right fun _ => ?_
    by_cases h1 : k.type = key.type <;> by_cases h2 : k.fingerprint = key.fingerprint <;> simp [h1, h2]
  · unfold NullUser.keyDup
    rw [h, seekPtr_some]
    congr 1
    clear h
    induction ts with
    | nil => rfl
    | cons k ts ih =>
      rw [List.findSome?_cons]
      by_cases h1 : k.type = key.type <;> by_cases h2 : k.fingerprint = key.fingerprint <;> simp [h1, h2] at ih ⊢ <;> exact ih

/-- C123: asking for a role panics exactly if the role can be read and a null comes before it. -/
theorem C123_has_role [Ext] (u : NullUser) (s : GoString) :
    (u.hasRole s = .panic ↔ ∃ (role : Role) (pre : List Role) (post : List (Option Role)), newRole s = .ok role ∧ u.roles = pre.map some ++ none :: post ∧
      ∀ r ∈ pre, ¬ (r.name = role.name ∧ r.organization = role.organization)) ∧
    ∀ p : User, u.roles = p.roles.map some → u.hasRole s = .ok (p.hasRole s) := by
  constructor
  · unfold NullUser.hasRole
    split
    · next h =>
      rw [List.length_eq_zero_iff.1 h]
      refine ⟨fun h => (nomatch h), ?_⟩
      rintro ⟨role, pre, post, -, h, -⟩
      cases pre <;> cases h
    · cases hn : newRole s with
      | err e => simp
      | panic => simp
      | ok role =>
        dsimp only
        have h := seekPtr_panic (fun r : Role => if r.name = role.name ∧ r.organization = role.organization then some () else none) u.roles
        cases hs : seekPtr (fun r : Role => if r.name = role.name ∧ r.organization = role.organization then some () else none) u.roles with
        | err e => rw [hs] at h; simp_all
        | ok x => rw [hs] at h; simp_all
        | panic => rw [hs] at h; simp_all
  · intro p h
    unfold NullUser.hasRole User.hasRole
    rw [h, List.length_map]
    split
    · rfl
    · cases hn : newRole s with
      | err e => rfl
      | panic => rfl
      | ok role =>
        dsimp only
        rw [seekPtr_some]
        dsimp only
        congr 1
        generalize p.roles = l
        induction l with
        | nil => rfl
        | cons r l ih =>
          rw [List.findSome?_cons, List.any_cons]
          by_cases h1 : r.name = role.name <;> by_cases h2 : r.organization = role.organization <;>
            simp only [h1, h2, and_self, and_false, false_and, if_true, if_false, beq_self_eq_true, Bool.and_self, Bool.true_or, Option.isSome_some,
              beq_eq_false_iff_ne.2, ne_eq, not_false_eq_true, Bool.and_false, Bool.false_and, Bool.false_or, ih]

/-- C123: adding a role is refused only if it cannot be read. Otherwise it panics if a null comes before every equal role, changes nothing
if an equal role comes before every null, and appends the role if there is neither. -/
theorem C123_add_role [Ext] (u : NullUser) (now : Clock) (s : GoString) :
    (∀ e, newRole s = .err e → u.addRole now s = .err e) ∧
    ∀ role, newRole s = .ok role → ∀ pre : List Role,
      (u.roles = pre.map some → u.addRole now s = .ok (if pre.any (fun r => r.name == role.name && r.organization == role.organization) then u
        else { u with roles := (pre ++ [role]).map some, rest := User.revise now u.rest })) ∧
      ∀ post : List (Option Role), u.roles = pre.map some ++ none :: post →
        u.addRole now s = if pre.any (fun r => r.name == role.name && r.organization == role.organization) then .ok u else .panic := by
  refine ⟨fun e h => by unfold NullUser.addRole; rw [h], fun role h pre => ⟨fun hu => ?_, fun post hu => ?_⟩⟩
  · have hs : seekPtr (fun r : Role => if r.name = role.name ∧ r.organization = role.organization then some () else none) (pre.map some) =
        .ok (if pre.any (fun r => r.name == role.name && r.organization == role.organization) then some () else none) := by
      induction pre generalizing u with
      | nil => rfl
      | cons r l ih =>
        rw [List.map_cons, List.any_cons]
        unfold seekPtr
        by_cases h1 : r.name = role.name ∧ r.organization = role.organization
        · simp [h1]
        · have h2 : (r.name == role.name && r.organization == role.organization) = false := by
            rw [Bool.eq_false_iff]; simpa using h1
          rw [if_neg h1, h2, Bool.false_or]
          exact ih { u with roles := l.map some } rfl
    unfold NullUser.addRole
    rw [h, hu]
    dsimp only
    cases pre with
    | nil => rfl
    | cons r l =>
      rw [if_neg (by simp), hs]
      cases (r :: l).any (fun r => r.name == role.name && r.organization == role.organization) with
      | true => rfl
      | false => simp
  · have hs : seekPtr (fun r : Role => if r.name = role.name ∧ r.organization = role.organization then some () else none)
        (pre.map some ++ none :: post) =
        if pre.any (fun r => r.name == role.name && r.organization == role.organization) then .ok (some ()) else .panic := by
      induction pre generalizing u with
      | nil => rfl
      | cons r l ih =>
        rw [List.map_cons, List.any_cons, List.cons_append]
        unfold seekPtr
        by_cases h1 : r.name = role.name ∧ r.organization = role.organization
        · simp [h1]
        · have h2 : (r.name == role.name && r.organization == role.organization) = false := by
            rw [Bool.eq_false_iff]; simpa using h1
          rw [if_neg h1, h2, Bool.false_or]
          exact ih { u with roles := l.map some ++ none :: post } rfl
    unfold NullUser.addRole
    rw [h, hu]
    dsimp only
    rw [if_neg (by simp), hs]
    cases pre.any (fun r => r.name == role.name && r.organization == role.organization) <;> rfl

/-- The token a login names. -/
def TokenNamed (id : GoString) (t : MfaToken) : Prop :=
  t.disabled = false ∧ t.type = gs! "u2f" ∧ mapGet (gs! "u2f_id") t.parameters = some id

/-- C123: a login with a key ends at the first token it names, whatever comes after it; if a null comes before every such token, it
panics. Without nulls it is what it is elsewhere. -/
theorem C123_webauthn [Ext] {u : NullUser} {w : ReqWebAuthn} {req : AuthenticateRequest} (hr : unpackWebAuthnRequest w.request = .ok req)
    {pre : List MfaToken} {post : List (Option MfaToken)} :
    (u.mfaTokens = pre.map some → ∀ p : User, p.mfaTokens = pre → u.verifyWebAuthnRequest w = p.verifyWebAuthnRequest w) ∧
    (u.mfaTokens = pre.map some ++ none :: post →
      ((∀ t ∈ pre, ¬ TokenNamed req.id t) → u.verifyWebAuthnRequest w = .panic) ∧
      ((∃ t ∈ pre, TokenNamed req.id t) → ∀ p : User, p.mfaTokens = pre → u.verifyWebAuthnRequest w = p.verifyWebAuthnRequest w)) := by
  have h0 : ∀ ts : List (Option MfaToken), u.mfaTokens = ts → u.verifyWebAuthnRequest w = NullUser.verifyTokens w req.id ts := by
    rintro _ rfl
    unfold NullUser.verifyWebAuthnRequest
    rw [hr]
  have h1 : ∀ p : User, p.mfaTokens = pre → p.verifyWebAuthnRequest w = User.verifyTokens w req.id pre := by
    rintro p rfl
    unfold User.verifyWebAuthnRequest
    rw [hr]
  refine ⟨fun h p hp => ?_, fun h => ⟨fun hn => ?_, fun he p hp => ?_⟩⟩
  · rw [h0 _ h, h1 p hp]
    clear h hp h1
    induction pre with
    | nil => rfl
    | cons t ts ih =>
      rw [List.map_cons]
      unfold NullUser.verifyTokens User.verifyTokens
      rw [ih]
      rfl
  · rw [h0 _ h]
    clear h h1
    induction pre with
    | nil => rfl
    | cons t ts ih =>
      have ih := ih fun x hx => hn x (List.mem_cons_of_mem _ hx)
      have ht := hn t List.mem_cons_self
      rw [List.map_cons, List.cons_append]
      unfold NullUser.verifyTokens
      rw [ih]
      cases hd : t.disabled with
      | true => rfl
      | false =>
        by_cases hty : t.type = gs! "u2f"
        · cases hm : mapGet (gs! "u2f_id") t.parameters with
          | none => simp
          | some id =>
            have hne : req.id ≠ id := fun h => ht ⟨hd, hty, by rw [hm, h]⟩
            simp [hne]
        · simp [hty]
  · rw [h0 _ h, h1 p hp]
    clear h hp h1
    induction pre with
    | nil => obtain ⟨t, ht, -⟩ := he; cases ht
    | cons t ts ih =>
      rw [List.map_cons, List.cons_append]
      unfold NullUser.verifyTokens User.verifyTokens
      by_cases ha : TokenNamed req.id t
      · obtain ⟨hd, hty, hm⟩ := ha
        simp only [hd, hty, hm, Bool.false_eq_true, if_false, ne_eq, not_true_eq_false]
        rfl
      · have ih := ih (by
          obtain ⟨x, hx, hxa⟩ := he
          rcases List.mem_cons.1 hx with rfl | hx
          · exact absurd hxa ha
          · exact ⟨x, hx, hxa⟩)
        rw [ih]
        rfl

/-! ## Concrete cases -/

/-- The first user of a document. -/
def firstUser [Ext] (b : GoString) : Option NullUser :=
  match unmarshalNull b with
  | .ok d => d.users.head?.join
  | _ => none

/-- A document that opens, with a null token and a null role after a good one. -/
def docToken : GoString := docOf (docUser idA (gs! "\"passwords\":[{}],\"mfa_tokens\":[{\"id\":\"t\",\"secret\":\"s\",\"comment\":\"c\"},null]"))
def docRole : GoString := docOf (docUser idA (gs! "\"passwords\":[{}],\"roles\":[{\"name\":\"admin\"},null]"))

/-- Both open. The user with the null token can be identified without flags, and is then asked for a second factor; with flags the call
panics, as do listing and deleting the good token. Adding a token with its comment is refused, adding another one panics. -/
example : ((nullOpenDoc nd fs1 path docToken).1.outcome = .success) ∧ (nullOpenDoc nd fs1 path docRole).1.outcome = .success ∧
    (match firstUser docToken with
      | some u =>
        (match u.identify { flags := { enabled := false } } with
          | .ok r => r.user.challenges == [gs! "password", gs! "mfa"]
          | _ => false) &&
        (u.identify { flags := { enabled := true } } matches .panic) &&
        (u.tokenBundle matches .panic) && (u.withoutToken (gs! "t") matches .panic) &&
        (u.tokenDup { MfaToken.zero with comment := gs! "c" } matches .ok (some _)) && (u.tokenDup { MfaToken.zero with comment := gs! "d" } matches .panic)
      | none => false) = true := by
  decide +kernel

/-- The user with the null role cannot be identified; a role before the null is found, any other is not asked for in vain but panics. -/
example : (match firstUser docRole with
      | some u => (u.identify { flags := { enabled := false } } matches .panic) &&
        (u.hasRole (gs! "admin") matches .ok true) && (u.hasRole (gs! "user") matches .panic) &&
        (u.addRole nd.now (gs! "admin") matches .ok _) && (u.addRole nd.now (gs! "user") matches .panic)
      | none => false) = true := by
  decide +kernel

/-- A login that names the key `k`: refused if that key comes before the null, a panic if the key is unknown or comes after it. -/
def docWa (toks : GoString) : GoString := docOf (docUser idA (gs! "\"passwords\":[{}],\"mfa_tokens\":[" ++ toks ++ gs! "]"))
def tokK : GoString := gs! "{\"type\":\"u2f\",\"parameters\":{\"u2f_id\":\"k\"}}"

example : (match unpackWebAuthnRequest (gs! "eyJpZCI6ImsifQ==") with | .ok r => r.id == gs! "k" | _ => false) = true ∧
    (match firstUser (docWa (tokK ++ gs! ",null")), firstUser (docWa (gs! "null," ++ tokK)), firstUser (docWa (gs! "{},null")) with
      | some u, some v, some w => let q : ReqWebAuthn := { request := gs! "eyJpZCI6ImsifQ==" }
        (u.verifyWebAuthnRequest q matches .err (.std .webAuthnVerifyRequest)) && (v.verifyWebAuthnRequest q matches .panic) &&
        (w.verifyWebAuthnRequest q matches .panic)
      | _, _, _ => false) = true := by
  decide +kernel

end GoIdentity
