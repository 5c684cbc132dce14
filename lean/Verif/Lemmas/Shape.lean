import Verif.Lemmas.DecodeOk
import Verif.Lemmas.Reopen
import Verif.Spec.Strings
/-!
# What stored values have apart from valid strings

Integers in range, dates, maps in order: kept by every call on a well-behaved runtime.
-/
set_option linter.unusedSectionVars false
namespace GoIdentity

structure Password.Shape (x : Password) : Prop where
  cost : Int64 x.cost
  expiredAt : x.expiredAt.Ok
  createdAt : x.createdAt.Ok
  disabledAt : x.disabledAt.Ok

structure APIKey.Shape (x : APIKey) : Prop where
  expiredAt : x.expiredAt.Ok
  createdAt : x.createdAt.Ok
  disabledAt : x.disabledAt.Ok

structure PublicKey.Shape (x : PublicKey) : Prop where
  expiredAt : x.expiredAt.Ok
  createdAt : x.createdAt.Ok
  disabledAt : x.disabledAt.Ok

structure MfaToken.Shape (x : MfaToken) : Prop where
  period : Int64 x.period
  digits : Int64 x.digits
  expiredAt : x.expiredAt.Ok
  createdAt : x.createdAt.Ok
  disabledAt : x.disabledAt.Ok
  parametersOrder : x.parameters.Pairwise fun a b => bytesLt a.1 b.1 = true
  flagsOrder : x.flags.Pairwise fun a b => bytesLt a.1 b.1 = true
  signatureCounter : x.signatureCounter < 2 ^ 32

structure User.Shape (x : User) : Prop where
  organization : ∀ a, x.organization = some a → a.id < 2 ^ 64
  organizations : ∀ a ∈ x.organizations, a.id < 2 ^ 64
  emailAddress : ∀ a, x.emailAddress = some a → a.isPrimary = false
  emailAddresses : ∀ a ∈ x.emailAddresses, a.isPrimary = false
  passwords : ∀ a ∈ x.passwords, a.Shape
  publicKeys : ∀ a ∈ x.publicKeys, a.Shape
  apiKeys : ∀ a ∈ x.apiKeys, a.Shape
  mfaTokens : ∀ a ∈ x.mfaTokens, a.Shape
  lockout : ∀ a, x.lockout = some a → a.Ok
  avatar : ∀ a, x.avatar = some a → Int64 a.width ∧ Int64 a.height
  created : x.created.Ok
  lastModified : x.lastModified.Ok
  revision : Int64 x.revision

structure DBData.Shape (x : DBData) : Prop where
  policy : x.policy.Ok
  revision : x.revision < 2 ^ 64
  lastModified : x.lastModified.Ok
  users : ∀ u ∈ x.users, u.Shape

theorem Password.Shape.ok_of {x : Password} (h : x.Shape) (s : x.Strings) : x.Ok :=
  ⟨s.purpose, s.algorithm, s.hash, h.cost, h.expiredAt, h.createdAt, h.disabledAt⟩

theorem APIKey.Shape.ok_of {x : APIKey} (h : x.Shape) (s : x.Strings) : x.Ok :=
  ⟨s.id, s.pfx, s.usage, s.comment, s.payload, h.expiredAt, h.createdAt, h.disabledAt⟩

theorem PublicKey.Shape.ok_of {x : PublicKey} (h : x.Shape) (s : x.Strings) : x.Ok :=
  ⟨s.id, s.usage, s.type, s.fingerprint, s.fingerprintMD5, s.comment, s.payload, s.openSSH, h.expiredAt, h.createdAt,
    h.disabledAt⟩

theorem MfaToken.Shape.ok_of {x : MfaToken} (h : x.Shape) (s : x.Strings) : x.Ok :=
  ⟨s.id, s.type, s.algorithm, s.comment, s.secret, h.period, h.digits, h.expiredAt, h.createdAt, h.disabledAt,
    fun d hd => ⟨(s.device d hd).1, (s.device d hd).2.1, (s.device d hd).2.2⟩, s.parameters, h.parametersOrder, s.flags,
    h.flagsOrder, h.signatureCounter⟩

theorem User.Shape.ok_of {x : User} (h : x.Shape) (s : x.Strings) : x.Ok where
  id := s.id
  username := s.username
  title := s.title
  name := s.name
  organization a ha := ⟨h.organization a ha, (s.organization a ha).name, (s.organization a ha).aliases⟩
  names := s.names
  organizations a ha := ⟨h.organizations a ha, (s.organizations a ha).name, (s.organizations a ha).aliases⟩
  streetAddress := s.streetAddress
  emailAddress a ha := ⟨(s.emailAddress a ha).address, (s.emailAddress a ha).domain, h.emailAddress a ha⟩
  emailAddresses a ha := ⟨(s.emailAddresses a ha).address, (s.emailAddresses a ha).domain, h.emailAddresses a ha⟩
  passwords a ha := (h.passwords a ha).ok_of (s.passwords a ha)
  publicKeys a ha := (h.publicKeys a ha).ok_of (s.publicKeys a ha)
  apiKeys a ha := (h.apiKeys a ha).ok_of (s.apiKeys a ha)
  mfaTokens a ha := (h.mfaTokens a ha).ok_of (s.mfaTokens a ha)
  lockout := h.lockout
  avatar a ha := ⟨(s.avatar a ha).title, (s.avatar a ha).body, (h.avatar a ha).1, (h.avatar a ha).2, (s.avatar a ha).path⟩
  created := h.created
  lastModified := h.lastModified
  revision := h.revision
  roles := s.roles

theorem DBData.Shape.ok_of {x : DBData} (h : x.Shape) (s : x.Strings) : x.Ok :=
  ⟨s.version, h.policy, h.revision, h.lastModified, fun u hu => (h.users u hu).ok_of (s.users u hu)⟩

theorem Password.Ok.shape {x : Password} (h : x.Ok) : x.Shape := ⟨h.cost, h.expiredAt, h.createdAt, h.disabledAt⟩
theorem APIKey.Ok.shape {x : APIKey} (h : x.Ok) : x.Shape := ⟨h.expiredAt, h.createdAt, h.disabledAt⟩
theorem PublicKey.Ok.shape {x : PublicKey} (h : x.Ok) : x.Shape := ⟨h.expiredAt, h.createdAt, h.disabledAt⟩
theorem MfaToken.Ok.shape {x : MfaToken} (h : x.Ok) : x.Shape :=
  ⟨h.period, h.digits, h.expiredAt, h.createdAt, h.disabledAt, h.parametersOrder, h.flagsOrder, h.signatureCounter⟩
theorem User.Ok.shape {x : User} (h : x.Ok) : x.Shape where
  organization a ha := (h.organization a ha).id
  organizations a ha := (h.organizations a ha).id
  emailAddress a ha := (h.emailAddress a ha).isPrimary
  emailAddresses a ha := (h.emailAddresses a ha).isPrimary
  passwords a ha := (h.passwords a ha).shape
  publicKeys a ha := (h.publicKeys a ha).shape
  apiKeys a ha := (h.apiKeys a ha).shape
  mfaTokens a ha := (h.mfaTokens a ha).shape
  lockout := h.lockout
  avatar a ha := ⟨(h.avatar a ha).width, (h.avatar a ha).height⟩
  created := h.created
  lastModified := h.lastModified
  revision := h.revision
theorem DBData.Ok.shape {x : DBData} (h : x.Ok) : x.Shape :=
  ⟨h.policy, h.revision, h.lastModified, fun u hu => (h.users u hu).shape⟩

theorem User.Ok.strings {x : User} (h : x.Ok) : x.Strings where
  id := h.id
  username := h.username
  title := h.title
  name := h.name
  organization a ha := ⟨(h.organization a ha).name, (h.organization a ha).aliases⟩
  names := h.names
  organizations a ha := ⟨(h.organizations a ha).name, (h.organizations a ha).aliases⟩
  streetAddress := h.streetAddress
  emailAddress a ha := ⟨(h.emailAddress a ha).address, (h.emailAddress a ha).domain⟩
  emailAddresses a ha := ⟨(h.emailAddresses a ha).address, (h.emailAddresses a ha).domain⟩
  passwords a ha := have k := h.passwords a ha; ⟨k.purpose, k.algorithm, k.hash⟩
  publicKeys a ha :=
    have k := h.publicKeys a ha
    ⟨k.id, k.usage, k.type, k.fingerprint, k.fingerprintMD5, k.comment, k.payload, k.openSSH⟩
  apiKeys a ha := have k := h.apiKeys a ha; ⟨k.id, k.pfx, k.usage, k.comment, k.payload⟩
  mfaTokens a ha :=
    have k := h.mfaTokens a ha
    ⟨k.id, k.type, k.algorithm, k.comment, k.secret,
      fun d hd => ⟨(k.device d hd).name, (k.device d hd).vendor, (k.device d hd).type⟩, k.parameters, k.flags⟩
  avatar a ha := have k := h.avatar a ha; ⟨k.title, k.body, k.path⟩
  roles := h.roles

theorem DBData.Ok.strings {x : DBData} (h : x.Ok) : x.Strings := ⟨h.version, fun u hu => (h.users u hu).strings⟩

section
variable [Ext]

/-! ## New parts -/

omit [Ext] in
theorem Clock.Ok.skip {c : Clock} (h : c.Ok) (n : Nat) : (c.skip n).Ok := fun i => h (n + i)

theorem newPassword_shape {now : Clock} (hn : now.Ok) {salt s} {p : Password} (h : newPassword now salt s = .ok p) : p.Shape := by
  obtain ⟨_, _, _, rfl⟩ := newPassword_ok h
  exact ⟨⟨by simp, by simp⟩, timeZero_ok, hn _, timeZero_ok⟩

omit [Ext] in
theorem disable_shape {now : Clock} (hn : now.Ok) {p : Password} (h : p.Shape) : (p.disable now).Shape :=
  ⟨h.cost, hn _, h.createdAt, hn _⟩

omit [Ext] in
theorem newAPIKey_shape {now : Clock} (hn : now.Ok) {id : GoString} {k : ReqKey} {key : APIKey}
    (h : newAPIKey now id k = .ok key) : key.Shape := by
  unfold newAPIKey at h
  split at h
  · simp at h
  split at h
  · simp at h
  split at h
  · simp at h
  split at h
  · simp at h
  simp only [Res.ok.injEq] at h
  subst h
  refine ⟨timeZero_ok, hn _, ?_⟩
  dsimp only
  split
  · exact hn _
  · exact timeZero_ok

/-- Parsing a key leaves its times alone. -/
theorem parsePublicKey_times {p q : PublicKey} (h : parsePublicKey p = .ok q) :
    q.expiredAt = p.expiredAt ∧ q.createdAt = p.createdAt ∧ q.disabledAt = p.disabledAt := by
  unfold parsePublicKey at h
  split at h
  · simp at h
  · split at h
    · simp at h
    · split at h
      · unfold parsePublicKeyRSA at h
        repeat' (first | split at h)
        all_goals first
          | (simp only [Res.ok.injEq] at h; subst h; exact ⟨rfl, rfl, rfl⟩)
          | simp at h
      · split at h
        · unfold parsePublicKeyOpenSSH at h
          dsimp only at h
          repeat' (first | split at h)
          all_goals first
            | (simp only [Res.ok.injEq] at h; subst h; exact ⟨rfl, rfl, rfl⟩)
            | simp at h
        · split at h
          · unfold parsePublicKeyPGP at h
            dsimp only at h
            repeat' (first | split at h)
            all_goals first
              | (simp only [Res.ok.injEq] at h; subst h; exact ⟨rfl, rfl, rfl⟩)
              | simp at h
          · simp at h

theorem newPublicKey_shape {now : Clock} (hn : now.Ok) {id : GoString} {k : ReqKey} {key : PublicKey}
    (h : newPublicKey now id k = .ok key) : key.Shape := by
  unfold newPublicKey at h
  split at h
  · rename_i p hp
    obtain ⟨h1, h2, h3⟩ := parsePublicKey_times hp
    dsimp only at h1 h2 h3
    simp only [Res.ok.injEq] at h
    subst h
    split
    · exact ⟨h1 ▸ timeZero_ok, h2 ▸ hn _, hn _⟩
    · exact ⟨h1 ▸ timeZero_ok, h2 ▸ hn _, h3 ▸ timeZero_ok⟩
  · simp at h
  · simp at h

/-! ## Registrations -/

/-- What a decoded registration has. -/
structure AuthData.Decoded (x : AuthData) : Prop where
  signatureCounter : x.signatureCounter < 2 ^ 32
  flagsOrder : ∀ m, x.flags = some m → (∀ p ∈ m, Utf8 p.1) ∧ m.Pairwise fun a b => bytesLt a.1 b.1 = true
  relyingPartyID : Utf8 x.relyingPartyID
  credentialData : ∀ c, x.credentialData = some c → ∀ m, c.publicKey = some m →
    (∀ p ∈ m, p.2.Valid) ∧ m.Pairwise fun a b => bytesLt a.1 b.1 = true

structure RegisterRequest.Decoded (x : RegisterRequest) : Prop where
  id : Utf8 x.id
  type : Utf8 x.type
  transports : ∀ s ∈ x.transports, Utf8 s
  attestationObject : ∀ a, x.attestationObject = some a → ∀ d, a.authData = some d → d.Decoded

omit [Ext] in
theorem credentialData_keeps : ∀ f ∈ credentialDataFields, f.Keeps
    fun c => ∀ m, c.publicKey = some m → (∀ p ∈ m, p.2.Valid) ∧ m.Pairwise fun a b => bytesLt a.1 b.1 = true :=
  keeps_cons (keeps_fStr (fun _ _ h _ => h)) <|
  keeps_cons (keeps_fStr (fun _ _ h _ => h)) <|
  keeps_cons (keeps_fOptMap (Q := fun p => p.2.Valid)
    (fun _ _ _ _ hj he => by
      unfold elemAny at he
      split at he
      · simp only [Res.ok.injEq] at he; subst he; exact hj
      · simp [typeErr] at he) (fun _ h => h) (fun _ _ _ hv => hv)) <|
  keeps_nil

omit [Ext] in
theorem authData_keeps : ∀ f ∈ authDataFields, f.Keeps AuthData.Decoded :=
  keeps_cons (keeps_fStr (fun _ _ h hv => { h with relyingPartyID := hv })) <|
  keeps_cons (keeps_fOptMap (Q := fun p => Utf8 p.1) (fun _ _ _ hk _ _ => hk) (fun _ h => h.flagsOrder)
    (fun _ _ h hv => { h with flagsOrder := hv })) <|
  keeps_cons (keeps_fUint (fun _ _ h hv => { h with signatureCounter := hv })) <|
  keeps_cons (keeps_fAny (fun _ _ h _ => { h with })) <|
  keeps_cons (keeps_fPtr credentialData_keeps (by simp [CredentialData.zero]) (fun _ h => h.credentialData)
    (fun _ _ h hv => { h with credentialData := hv })) <|
  keeps_nil

omit [Ext] in
theorem authData_zero : AuthData.zero.Decoded :=
  ⟨by decide, by simp [AuthData.zero], rfl, by simp [AuthData.zero]⟩

omit [Ext] in
theorem keeps_true {σ : Type} {f : Field σ} : f.Keeps fun _ => True := fun _ _ _ _ _ _ => trivial

omit [Ext] in
theorem attestationObject_keeps : ∀ f ∈ attestationObjectFields, f.Keeps
    fun a => ∀ d, a.authData = some d → d.Decoded :=
  keeps_cons (keeps_fPtr (Q := fun _ => True) (fun _ _ => keeps_true) trivial (fun _ _ _ _ => trivial) (fun _ _ h _ => h)) <|
  keeps_cons (keeps_fPtr authData_keeps authData_zero (fun _ h => h) (fun _ _ _ hv => hv)) <|
  keeps_cons (keeps_fStr (fun _ _ h _ => h)) <|
  keeps_nil

omit [Ext] in
theorem registerRequest_keeps : ∀ f ∈ registerRequestFields, f.Keeps RegisterRequest.Decoded :=
  keeps_cons (keeps_fStr (fun _ _ h hv => { h with id := hv })) <|
  keeps_cons (keeps_fStr (fun _ _ h hv => { h with type := hv })) <|
  keeps_cons (keeps_fStrs (fun _ _ h hv => { h with transports := hv })) <|
  keeps_cons (keeps_fBool (fun _ _ h => { h with })) <|
  keeps_cons (keeps_fPtr attestationObject_keeps (by simp [AttestationObject.zero]) (fun _ h => h.attestationObject)
    (fun _ _ h hv => { h with attestationObject := hv })) <|
  keeps_cons (keeps_fPtr (Q := fun _ => True) (fun _ _ => keeps_true) trivial (fun _ _ _ _ => trivial)
    (fun _ _ h _ => { h with })) <|
  keeps_cons (keeps_fPtr (Q := fun _ => True) (fun _ _ => keeps_true) trivial (fun _ _ _ _ => trivial)
    (fun _ _ h _ => { h with })) <|
  keeps_nil

omit [Ext] in
theorem registerRequest_decoded {b : GoString} {r : RegisterRequest}
    (h : unmarshal registerRequestFields RegisterRequest.zero b = .ok r) : r.Decoded := by
  unfold unmarshal at h
  split at h
  · simp at h
  · rename_i j hj
    exact decStruct_keeps registerRequest_keeps (parseDoc_valid hj)
      ⟨rfl, rfl, by simp [RegisterRequest.zero], by simp [RegisterRequest.zero]⟩ h

theorem u2fFromRegister_shape {p t : MfaToken} {r : RegisterRequest} (hp : p.Shape) (hr : r.Decoded)
    (h : u2fFromRegister p r = .ok t) : t.Shape := by
  unfold u2fFromRegister at h
  split at h
  · simp at h
  split at h
  · simp at h
  split at h
  · simp at h
  split at h
  · simp at h
  · simp at h
  split at h
  · simp at h
  rename_i ao hao
  split at h
  · simp at h
  rename_i ad had
  split at h
  · simp at h
  split at h
  · simp at h
  rename_i flags hfl
  split at h
  · simp at h
  split at h
  · simp at h
  split at h
  · simp at h
  · simp at h
  have hd := hr.attestationObject ao hao ad had
  simp only [Res.ok.injEq] at h
  subst h
  exact { hp with
    flagsOrder := (hd.flagsOrder flags hfl).2
    signatureCounter := hd.signatureCounter
    parametersOrder := by
      dsimp only
      iterate 9 apply mapInsert_sorted
      exact List.Pairwise.nil }

theorem newMfaToken_shape {nd : Nondet} (hn : nd.now.Ok) {req req' : Request} {t : MfaToken}
    (h : newMfaToken nd req = (.ok t, req')) : t.Shape := by
  have h0 : ∀ p : MfaToken, p.period = 0 → p.digits = 0 → p.expiredAt = .zero → p.createdAt = nd.now 0 →
      (p.disabledAt = nd.now 1 ∨ p.disabledAt = .zero) → p.parameters = [] → p.flags = [] → p.signatureCounter = 0 →
      p.Shape := by
    intro p h1 h2 h3 h4 h5 h6 h7 h8
    refine ⟨h1 ▸ int0, h2 ▸ int0, h3 ▸ timeZero_ok, h4 ▸ hn _, ?_, ?_, ?_, ?_⟩
    · rcases h5 with h5 | h5 <;> rw [h5]
      · exact hn _
      · exact timeZero_ok
    · rw [h6]; exact List.Pairwise.nil
    · rw [h7]; exact List.Pairwise.nil
    · rw [h8]; decide
  unfold newMfaToken at h
  dsimp only at h
  split at h
  · simp only [Prod.mk.injEq] at h
    obtain ⟨h, _⟩ := h
    unfold newTotp at h
    dsimp only at h
    split at h
    · simp at h
    · split at h
      · simp at h
      · rename_i hper
        generalize (if req.mfaToken.digits = 0 then (6 : Int) else req.mfaToken.digits) = dg at h
        split at h
        · simp at h
        · rename_i hdig
          split at h
          · simp only [Res.ok.injEq] at h
            subst h
            have := h0 { MfaToken.zero with
              id := getRandomString nd.seedRand 0 40
              createdAt := nd.now 0
              comment := req.mfaToken.comment
              type := req.mfaToken.type
              disabled := req.mfaToken.disabled
              disabledAt := if req.mfaToken.disabled then nd.now 1 else .zero } rfl rfl rfl rfl
                (by dsimp only; split <;> simp) rfl rfl rfl
            refine { this with period := ?_, digits := ?_ }
            · unfold Int64; dsimp only; omega
            · unfold Int64; dsimp only; omega
          · simp at h
          · simp at h
  · split at h
    · simp only [Prod.mk.injEq] at h
      obtain ⟨h, _⟩ := h
      unfold newU2F at h
      split at h
      · simp at h
      split at h
      · simp at h
      split at h
      · simp at h
      split at h
      · simp at h
      · simp at h
      rename_i r hr
      refine u2fFromRegister_shape (h0 _ rfl rfl rfl rfl ?_ rfl rfl rfl) (registerRequest_decoded hr) h
      dsimp only
      split <;> simp
    · split at h <;> simp at h

/-! ## Users -/

theorem loadedUser_shape {u : User} (h : u.Shape) : (loadedUser u).Shape := by
  refine { h with passwords := ?_ }
  intro p hp
  obtain ⟨q, hq, rfl⟩ := List.mem_map.1 hp
  have := h.passwords q hq
  unfold Database.fixAlgorithm
  split
  · exact { this with }
  · exact this

theorem exec_shape {c : Call} {nd : Nondet} {db : Database} {fs : FS} {req : Request} (hn : nd.now.Ok)
    (h : ∀ u ∈ db.users, u.Shape) : ∀ u ∈ (exec c nd db fs req).db.users, u.Shape := by
  refine exec_forall_users h ?_ ?_
  · intro p e roles name hp he
    have hpri : e.isPrimary = false := by
      unfold newEmailAddress at he
      split at he
      · simp at he
      · split at he
        · simp only [Res.ok.injEq] at he; rw [← he]
        · simp at he
    refine ⟨?_, ?_, ?_, ?_, ?_, ?_, ?_, ?_, ?_, ?_, hn _, hn _, by simp [newUserOf, Int64]⟩
    all_goals simp [newUserOf, User.zero, hpri]
    exact newPassword_shape (hn.skip 2) hp
  · intro u u' _ hu hop
    have hrev : Int64 (User.incr64 u.revision) := by have := hu.revision; unfold Int64 User.incr64 at *; split <;> omega
    cases hop with
    | addPublicKey key hk hnew =>
      refine { hu with publicKeys := ?_, lastModified := hn _, revision := hrev }
      intro a ha
      rcases List.mem_append.1 ha with ha | ha
      · exact hu.publicKeys a ha
      · simp at ha; subst ha; exact newPublicKey_shape hn hk
    | deletePublicKey hex =>
      refine { hu with publicKeys := ?_, lastModified := hn _, revision := hrev }
      exact fun a ha => hu.publicKeys a (List.mem_filter.1 ha).1
    | addAPIKey s n hk key hs hnone hhash hkey =>
      refine { hu with apiKeys := ?_, lastModified := hn _, revision := hrev }
      intro a ha
      rcases List.mem_append.1 ha with ha | ha
      · exact hu.apiKeys a ha
      · simp at ha; subst ha; exact newAPIKey_shape hn hkey
    | deleteAPIKey hex =>
      refine { hu with apiKeys := ?_, lastModified := hn _, revision := hrev }
      exact fun a ha => hu.apiKeys a (List.mem_filter.1 ha).1
    | changeUserPassword p hpol hold hp =>
      refine { hu with passwords := ?_, lastModified := hn _, revision := hrev }
      intro a ha
      rcases List.mem_cons.1 ha with rfl | ha
      · exact newPassword_shape hn hp
      · obtain ⟨q, hq, rfl | ⟨k, _, rfl⟩⟩ := keepLoop_mem ha
        · exact hu.passwords _ hq
        · exact disable_shape ((hn.skip 1).skip (2 * k)) (hu.passwords _ hq)
    | addMfaToken t req' ht hnew =>
      refine { hu with mfaTokens := ?_, lastModified := hn _, revision := hrev }
      intro a ha
      rcases List.mem_append.1 ha with ha | ha
      · exact hu.mfaTokens a ha
      · simp at ha; subst ha; exact newMfaToken_shape hn ht
    | deleteMfaToken hex =>
      refine { hu with mfaTokens := ?_, lastModified := hn _, revision := hrev }
      exact fun a ha => hu.mfaTokens a (List.mem_filter.1 ha).1

/-! ## Databases -/

omit [Ext] in
theorem enforce_ok {p : Policy} (h : p.Ok) : (enforceDefaultPolicy p).1.Ok := by
  have key : ∀ x d : Int, Int64 x → Int64 d → Int64 (fillDefault x d).1 := by
    intro x d hx hd
    unfold fillDefault
    split
    · exact hd
    · exact hx
  exact ⟨⟨key _ _ h.password.keepVersions ⟨by decide, by decide⟩, key _ _ h.password.minLength ⟨by decide, by decide⟩,
    key _ _ h.password.maxLength ⟨by decide, by decide⟩⟩, ⟨key _ _ h.user.minLength ⟨by decide, by decide⟩,
    key _ _ h.user.maxLength ⟨by decide, by decide⟩⟩⟩

theorem commit_shape {nd : Nondet} (hn : nd.commitTime.Ok) {db db' : Database} {fs fs' : FS} {e : Option GoErr}
    (h : db.toDBData.Shape) (hc : db.commit nd fs = (db', fs', e)) : db'.toDBData.Shape := by
  have : db' = { db with revision := (db.revision + 1) % 2 ^ 64, lastModified := nd.commitTime } := by
    unfold Database.commit at hc
    dsimp only at hc
    split at hc <;> (simp only [Prod.mk.injEq] at hc; exact hc.1.symm)
  subst this
  exact ⟨h.policy, Nat.mod_lt _ (by decide), hn, h.users⟩

theorem opened_shape {nd : Nondet} (hn : nd.commitTime.Ok) {fs fs' : FS} {fp : GoString} {db : Database}
    (h : newDatabase nd fs fp = (.ok db, fs')) : db.toDBData.Shape := by
  obtain ⟨d, hd, _, hdata, _⟩ := newDatabase_data h
  have hs : d.toDBData.Shape := by
    rcases openFile_ok hd with ⟨_, hc⟩ | ⟨b, data, _, _, hb, h1 | h1⟩
    · exact commit_shape hn ⟨enforce_ok policy_zero_ok, by simp [Database.empty, DBData.zero], timeZero_ok, by simp [Database.empty, DBData.zero]⟩ hc
    · obtain ⟨_, _, rfl⟩ := h1
      exact { (unmarshal_ok hb).shape with policy := enforce_ok (unmarshal_ok hb).policy }
    · exact commit_shape hn { (unmarshal_ok hb).shape with policy := enforce_ok (unmarshal_ok hb).policy } h1.2
  rw [hdata]
  refine ⟨hs.policy, hs.revision, hs.lastModified, ?_⟩
  intro u hu
  obtain ⟨v, hv, rfl⟩ := List.mem_map.1 hu
  exact loadedUser_shape (hs.users v hv)

theorem exec_db_shape {c : Call} {nd : Nondet} {db : Database} {fs : FS} {req : Request} (hn : nd.now.Ok)
    (hc : nd.commitTime.Ok) (h : db.toDBData.Shape) : (exec c nd db fs req).db.toDBData.Shape := by
  refine ⟨?_, ?_, ?_, exec_shape hn h.users⟩
  · rw [(exec_path c nd db fs req).2.1]; exact h.policy
  · rcases exec_spec c nd db fs req with h1 | ⟨db', m, h1⟩
    · rw [h1.db_eq]; exact h.revision
    · rw [h1.db_eq]; exact Nat.mod_lt _ (by decide)
  · rcases exec_spec c nd db fs req with h1 | ⟨db', m, h1⟩
    · rw [h1.db_eq]; exact h.lastModified
    · rw [h1.db_eq]; exact hc

/-- On a well-behaved runtime everything but the strings is always representable. -/
theorem proper_shape {db : Database} (h : ReachProper db) : db.toDBData.Shape := by
  induction h with
  | init nd fs fp fs' hnd h => exact opened_shape hnd.commitTime h
  | step h c nd fs req hnd hfresh ih => exact exec_db_shape hnd.now hnd.commitTime ih

end

end GoIdentity
