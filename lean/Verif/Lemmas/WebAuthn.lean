import Verif.Lemmas.Totp
import Verif.Lemmas.Passwords
/-!
# WebAuthn documents and tokens
-/
set_option linter.unusedSectionVars false
namespace GoIdentity

/-! ## Maps -/

theorem mapGet_insert {α : Type} (k k' : GoString) (v : α) (m : List (GoString × α)) :
    mapGet k (mapInsert k' v m) = if k = k' then some v else mapGet k m := by
  induction m with
  | nil => simp [mapInsert, mapGet]
  | cons p m ih =>
    obtain ⟨k₁, v₁⟩ := p
    unfold mapInsert
    by_cases h1 : k' = k₁
    · subst h1
      rw [if_pos rfl]
      simp only [mapGet]
      by_cases h2 : k = k' <;> simp [h2]
    · rw [if_neg h1]
      split
      · simp [mapGet]
      · simp only [mapGet, ih]
        by_cases h2 : k = k₁
        · subst h2
          rw [if_pos rfl, if_neg (fun h => h1 h.symm), if_pos rfl]
        · simp [h2]

theorem mapGet_eq_lookup {α : Type} (k : GoString) (m : List (GoString × α)) : mapGet k m = m.lookup k := by
  induction m with
  | nil => rfl
  | cons p m ih =>
    obtain ⟨k₁, v₁⟩ := p
    simp only [mapGet, List.lookup_cons, ih]
    by_cases h : k = k₁
    · simp [h]
    · have : (k == k₁) = false := by simpa using h
      simp [h, this]

/-! ## Decoders that never panic -/

/-- No member value makes a field decoder panic. -/
def NoPanic {σ : Type} (fs : List (Field σ)) : Prop := ∀ f ∈ fs, ∀ j s, f.dec j s ≠ .panic

theorem decMembers_noPanic {σ : Type} {fs : List (Field σ)} (h : NoPanic fs) (m : List (GoString × Json)) (s : σ) :
    decMembers fs m s ≠ .panic := by
  induction m generalizing s with
  | nil => simp [decMembers]
  | cons kv m ih =>
    obtain ⟨k, v⟩ := kv
    unfold decMembers
    split
    · exact ih s
    · rename_i f hf
      have hmem : f ∈ fs := by
        unfold findField at hf
        split at hf
        · rename_i g hg
          rw [Option.some.injEq] at hf
          rw [← hf]
          exact List.mem_of_find?_eq_some hg
        · exact List.mem_of_find?_eq_some hf
      have := h f hmem v s
      split
      · exact ih _
      · simp
      · rename_i hp; exact absurd hp this

theorem decStruct_noPanic {σ : Type} {fs : List (Field σ)} (h : NoPanic fs) (j : Json) (s : σ) :
    decStruct fs j s ≠ .panic := by
  unfold decStruct
  split
  · simp
  · exact decMembers_noPanic h _ _
  · simp [typeErr]

theorem unmarshal_noPanic {σ : Type} {fs : List (Field σ)} (h : NoPanic fs) (z : σ) (b : GoString) :
    unmarshal fs z b ≠ .panic := by
  unfold unmarshal
  split
  · simp
  · exact decStruct_noPanic h _ _

theorem decMap_noPanic {α : Type} {elem : Json → Res α} (h : ∀ j, elem j ≠ .panic) (m : List (GoString × Json))
    (acc : List (GoString × α)) : decMap elem m acc ≠ .panic := by
  induction m generalizing acc with
  | nil => simp [decMap]
  | cons kv m ih =>
    obtain ⟨k, v⟩ := kv
    unfold decMap
    split
    · exact ih _
    · simp
    · rename_i hp; exact absurd hp (h v)

theorem fStr_noPanic {σ : Type} (n : GoString) (g : σ → GoString) (t : σ → GoString → σ) (j : Json) (s : σ) :
    (fStr n g t).dec j s ≠ .panic := by
  simp only [fStr]; split <;> simp [typeErr]

theorem fBool_noPanic {σ : Type} (n : GoString) (g : σ → Bool) (t : σ → Bool → σ) (j : Json) (s : σ) :
    (fBool n g t).dec j s ≠ .panic := by
  simp only [fBool]; split <;> simp [typeErr]

theorem fUint_noPanic {σ : Type} (b : Nat) (n : GoString) (g : σ → Nat) (t : σ → Nat → σ) (j : Json) (s : σ) :
    (fUint b n g t).dec j s ≠ .panic := by
  simp only [fUint, decUint]
  repeat' split
  all_goals simp [typeErr]

theorem elemAny_noPanic (j : Json) : elemAny j ≠ .panic := by
  unfold elemAny
  split <;> simp [typeErr]

theorem fAny_noPanic {σ : Type} (n : GoString) (g : σ → Json) (t : σ → Json → σ) (j : Json) (s : σ) :
    (fAny n g t).dec j s ≠ .panic := by
  simp only [fAny]
  split
  · simp
  · simp
  · exact absurd ‹_› (elemAny_noPanic j)

theorem fOptMap_noPanic {σ α : Type} (n : GoString) (e : α → Json) {elem : Json → Res α} (h : ∀ j, elem j ≠ .panic)
    (g : σ → Option (List (GoString × α))) (t : σ → Option (List (GoString × α)) → σ) (j : Json) (s : σ) :
    (fOptMap n e elem g t).dec j s ≠ .panic := by
  simp only [fOptMap]
  split
  · simp
  · split
    · simp
    · simp
    · rename_i hp; exact absurd hp (decMap_noPanic h _ _)
  · simp [typeErr]

theorem fPtr_noPanic {σ τ : Type} (n : GoString) {fs : List (Field τ)} (h : NoPanic fs) (z : τ) (g : σ → Option τ)
    (t : σ → Option τ → σ) (j : Json) (s : σ) : (fPtr n fs z g t).dec j s ≠ .panic := by
  simp only [fPtr]
  split
  · simp
  · split
    · simp
    · simp
    · rename_i hp; exact absurd hp (decStruct_noPanic h _ _)

theorem clientData_noPanic : NoPanic clientDataFields := by
  intro f hf j s
  simp only [clientDataFields, List.mem_cons, List.not_mem_nil, or_false] at hf
  rcases hf with rfl | rfl | rfl | rfl
  · apply fStr_noPanic
  · apply fBool_noPanic
  · apply fStr_noPanic
  · apply fStr_noPanic

theorem credentialData_noPanic : NoPanic credentialDataFields := by
  intro f hf j s
  simp only [credentialDataFields, List.mem_cons, List.not_mem_nil, or_false] at hf
  rcases hf with rfl | rfl | rfl
  · apply fStr_noPanic
  · apply fStr_noPanic
  · exact fOptMap_noPanic _ _ elemAny_noPanic _ _ _ _

theorem authData_noPanic : NoPanic authDataFields := by
  intro f hf j s
  simp only [authDataFields, List.mem_cons, List.not_mem_nil, or_false] at hf
  rcases hf with rfl | rfl | rfl | rfl | rfl
  · apply fStr_noPanic
  · refine fOptMap_noPanic _ _ (fun j => ?_) _ _ _ _
    unfold elemBool; split <;> simp [typeErr]
  · apply fUint_noPanic
  · apply fAny_noPanic
  · apply fPtr_noPanic _ credentialData_noPanic

theorem authenticateRequest_noPanic : NoPanic authenticateRequestFields := by
  intro f hf j s
  simp only [authenticateRequestFields, List.mem_cons, List.not_mem_nil, or_false] at hf
  rcases hf with rfl | rfl | rfl | rfl | rfl | rfl | rfl | rfl
  · apply fStr_noPanic
  · apply fStr_noPanic
  · apply fPtr_noPanic _ authData_noPanic
  · apply fStr_noPanic
  · apply fPtr_noPanic _ clientData_noPanic
  · apply fStr_noPanic
  · apply fStr_noPanic
  · apply fStr_noPanic

/-! ## Authenticator data -/

/-- The eight flag names, from the lowest bit to the highest. -/
def flagNames : List GoString :=
  [gs! "UP", gs! "RFU1", gs! "UV", gs! "RFU2a", gs! "RFU2b", gs! "RFU2c", gs! "AT", gs! "ED"]

theorem mask_testBit (b : UInt8) (i : Nat) (hi : i < 8) :
    ((b &&& UInt8.ofNat (2 ^ i)) == UInt8.ofNat (2 ^ i)) = b.toNat.testBit i := by
  have key : ∀ (i : Fin 8) (n : Fin 256),
      ((UInt8.ofNat n.val &&& UInt8.ofNat (2 ^ i.val)) == UInt8.ofNat (2 ^ i.val)) = n.val.testBit i.val := by
    decide +kernel
  have := key ⟨i, hi⟩ ⟨b.toNat, b.toNat_lt⟩
  simpa using this

/-- What authenticator data says: hash, flags and counter, as WebAuthn section 6.1 lays them out. -/
structure AuthDataSays (b : GoString) (ad : AuthData) : Prop where
  hash : ad.relyingPartyID = (b.take 32).flatMap fun x => [hexDigit (x.toNat / 16), hexDigit (x.toNat % 16)]
  flags : ∃ m, ad.flags = some m ∧ m.length = 8 ∧
    ∀ (i : Nat) (name : GoString), flagNames[i]? = some name → m.lookup name = some ((b.getD 32 0).toNat.testBit i)
  counter : ad.signatureCounter = bytesVal ((b.drop 33).take 4)

theorem flags_fold (fb : UInt8) :
    flagMasks.foldl (fun m kv => mapInsert kv.1 ((fb &&& kv.2) == kv.2) m) [] =
      [(gs! "AT", fb.toNat.testBit 6), (gs! "ED", fb.toNat.testBit 7), (gs! "RFU1", fb.toNat.testBit 1),
       (gs! "RFU2a", fb.toNat.testBit 3), (gs! "RFU2b", fb.toNat.testBit 4), (gs! "RFU2c", fb.toNat.testBit 5),
       (gs! "UP", fb.toNat.testBit 0), (gs! "UV", fb.toNat.testBit 2)] := by
  rw [← mask_testBit fb 0 (by omega), ← mask_testBit fb 1 (by omega), ← mask_testBit fb 2 (by omega),
    ← mask_testBit fb 3 (by omega), ← mask_testBit fb 4 (by omega), ← mask_testBit fb 5 (by omega),
    ← mask_testBit fb 6 (by omega), ← mask_testBit fb 7 (by omega)]
  rfl

theorem unpackAuthData_ok {b : GoString} (h : 37 ≤ b.length) : ∃ ad, unpackAuthData b = .ok ad ∧ AuthDataSays b ad := by
  unfold unpackAuthData
  rw [if_neg (by omega)]
  refine ⟨_, rfl, ⟨rfl, ⟨_, rfl, ?_, ?_⟩, beVal_eq _⟩⟩
  · rw [flags_fold]; rfl
  · intro i name hi
    rw [flags_fold]
    match i, hi with
    | 0, hi | 1, hi | 2, hi | 3, hi | 4, hi | 5, hi | 6, hi | 7, hi =>
      simp only [flagNames, List.getElem?_cons_succ, List.getElem?_cons_zero, Option.some.injEq] at hi
      subst hi; rfl
    | n + 8, hi => simp [flagNames] at hi

theorem AuthDataSays.unpack {b : GoString} {ad : AuthData} (h : unpackAuthData b = .ok ad) :
    37 ≤ b.length ∧ AuthDataSays b ad := by
  by_cases hl : 37 ≤ b.length
  · obtain ⟨ad', h', hs⟩ := unpackAuthData_ok hl
    rw [h, Res.ok.injEq] at h'
    exact ⟨hl, h' ▸ hs⟩
  · unfold unpackAuthData at h
    rw [if_pos (by omega)] at h
    simp at h

theorem unpackAuthData_ne_panic (b : GoString) : unpackAuthData b ≠ .panic := by
  unfold unpackAuthData; split <;> simp

/-! ## Assertions -/

variable [Ext]

/-- `s` is the base64 text of 32 bytes with big-endian value `n`: a P-256 coordinate. -/
def IsCoord (s : GoString) (n : Nat) : Prop := ∃ b, b64Decode s = some b ∧ b.length = 32 ∧ bytesVal b = n

/-- The payload is the base64 text of a JSON document that decodes to the request `r`. -/
def IsAuthRequest (payload : GoString) (r : AuthenticateRequest) : Prop :=
  ∃ doc, b64Decode payload = some doc ∧ unmarshal authenticateRequestFields AuthenticateRequest.zero doc = .ok r

/-- The assertion in `r` is valid for the key registered in the parameters, under the expected challenge. -/
def ValidAssertion (params : List (GoString × GoString)) (challenge : GoString) (r : AuthenticateRequest) : Prop :=
  ∃ (xs ys : GoString) (x y : Nat) (clientBytes authBytes sig : GoString) (cd : ClientData),
    -- the registered key
    params.lookup (gs! "key_type") = some (gs! "ec2") ∧ params.lookup (gs! "key_algo") = some (gs! "es256") ∧
    params.lookup (gs! "curve_xcoord") = some xs ∧ IsCoord xs x ∧
    params.lookup (gs! "curve_ycoord") = some ys ∧ IsCoord ys y ∧
    -- the client data
    trimSpace r.clientDataEncoded ≠ [] ∧ b64Decode r.clientDataEncoded = some clientBytes ∧
    unmarshal clientDataFields ClientData.zero clientBytes = .ok cd ∧
    cd.type = gs! "webauthn.get" ∧ cd.crossOrigin = false ∧ cd.challenge = challenge ∧
    -- the authenticator data
    trimSpace r.authDataEncoded ≠ [] ∧ b64Decode r.authDataEncoded = some authBytes ∧ 37 ≤ authBytes.length ∧
    (authBytes.take 32).flatMap (fun b => [hexDigit (b.toNat / 16), hexDigit (b.toNat % 16)]) =
      (params.lookup (gs! "rp_id_hash")).getD [] ∧
    (authBytes.getD 32 0).toNat.testBit 0 = true ∧
    -- the signature
    trimSpace r.signatureEncoded ≠ [] ∧ b64Decode r.signatureEncoded = some sig ∧
    ecdsaVerify x y (authBytes ++ Sha.sha256 clientBytes) sig = true

theorem derivePublicKey_iff {params : List (GoString × GoString)} {x y : Nat} :
    derivePublicKey params = .ok (x, y) ↔
      ∃ xs ys, params.lookup (gs! "curve_xcoord") = some xs ∧ params.lookup (gs! "curve_ycoord") = some ys ∧
        params.lookup (gs! "key_algo") = some (gs! "es256") ∧ IsCoord xs x ∧ IsCoord ys y := by
  simp only [← mapGet_eq_lookup]
  unfold derivePublicKey IsCoord
  constructor
  · intro h
    repeat' split at h
    all_goals first
      | (simp at h; done)
      | skip
    rename_i xs ys algo hx hy ha _ xb hxb hxl _ yb hyb hyl halg
    simp only [Res.ok.injEq, Prod.mk.injEq] at h
    exact ⟨xs, ys, hx, hy, by rw [ha, halg], ⟨xb, hxb, by simpa using hxl, by rw [← beVal_eq, h.1]⟩,
      ⟨yb, hyb, by simpa using hyl, by rw [← beVal_eq, h.2]⟩⟩
  · rintro ⟨xs, ys, hx, hy, ha, ⟨xb, hxb, hxl, hxv⟩, ⟨yb, hyb, hyl, hyv⟩⟩
    simp only [hx, hy, ha, hxb, hyb, hxl, hyl, ne_eq, not_true_eq_false, if_false, if_true, beVal_eq, hxv, hyv]

theorem derivePublicKey_ne_panic (params : List (GoString × GoString)) : derivePublicKey params ≠ .panic := by
  unfold derivePublicKey
  repeat' split
  all_goals simp

/-- What a successful `WebAuthnRequest` has checked. -/
def Accepted (t : MfaToken) (payload : GoString) (resp : AuthenticateRequest) : Prop :=
  ∃ doc r cd, b64Decode payload = some doc ∧
    unmarshal authenticateRequestFields AuthenticateRequest.zero doc = .ok r ∧ resp.clientData = some cd ∧
    ValidAssertion t.parameters cd.challenge r

theorem webAuthnRequest_inv (t : MfaToken) (payload : GoString) :
    webAuthnRequest t payload ≠ .panic ∧ ∀ resp, webAuthnRequest t payload = .ok resp → Accepted t payload resp := by
  generalize hP : (fun R : Res AuthenticateRequest => R ≠ .panic ∧ ∀ resp, R = .ok resp → Accepted t payload resp) = P
  have hE : ∀ e, P (.err e) := by intro e; rw [← hP]; simp
  have hW : ∀ s, P (waErr s) := fun s => hE _
  have hP' : ∀ R, P R = (R ≠ .panic ∧ ∀ resp, R = .ok resp → Accepted t payload resp) := by intro R; rw [← hP]
  rw [← hP']
  unfold webAuthnRequest
  by_cases h1 : t.type ≠ gs! "u2f"
  · rw [if_pos h1]; exact hW _
  rw [if_neg h1]
  cases hid : mapGet (gs! "u2f_id") t.parameters with
  | none => exact hW _
  | some u2fID =>
  cases hkt : mapGet (gs! "key_type") t.parameters with
  | none => exact hW _
  | some keyType =>
  dsimp only
  by_cases h2 : keyType ≠ gs! "ec2"
  · rw [if_pos h2]; exact hW _
  rw [if_neg h2]
  cases hkey : derivePublicKey t.parameters with
  | err e => exact hE _
  | panic => exact absurd hkey (derivePublicKey_ne_panic _)
  | ok k =>
  obtain ⟨kx, ky⟩ := k
  dsimp only
  cases hdoc : b64Decode payload with
  | none => exact hE _
  | some doc =>
  dsimp only
  cases hun : unmarshal authenticateRequestFields AuthenticateRequest.zero doc with
  | err e => exact hE _
  | panic => exact absurd hun (unmarshal_noPanic authenticateRequest_noPanic _ _)
  | ok r =>
  dsimp only
  by_cases h3 : u2fID ≠ r.id
  · rw [if_pos h3]; exact hW _
  rw [if_neg h3]
  by_cases h4 : trimSpace r.clientDataEncoded = []
  · rw [if_pos h4]; exact hW _
  rw [if_neg h4]
  cases hcb : b64Decode r.clientDataEncoded with
  | none => exact hW _
  | some cdBytes =>
  dsimp only
  cases hcd : unmarshal clientDataFields ClientData.zero cdBytes with
  | err e => exact hE _
  | panic => exact absurd hcd (unmarshal_noPanic clientData_noPanic _ _)
  | ok cd =>
  dsimp only
  by_cases h5 : trimSpace r.signatureEncoded = []
  · rw [if_pos h5]; exact hW _
  rw [if_neg h5]
  cases hsig : b64Decode r.signatureEncoded with
  | none => exact hW _
  | some sig =>
  dsimp only
  by_cases h6 : trimSpace r.authDataEncoded = []
  · rw [if_pos h6]; exact hW _
  rw [if_neg h6]
  cases had : b64Decode r.authDataEncoded with
  | none => exact hW _
  | some adBytes =>
  dsimp only
  cases hadu : unpackAuthData adBytes with
  | err e => exact hE _
  | panic => exact absurd hadu (unpackAuthData_ne_panic _)
  | ok ad =>
  dsimp only
  by_cases h7 : cd.type ≠ gs! "webauthn.get"
  · rw [if_pos h7]; exact hW _
  rw [if_neg h7]
  by_cases h8 : cd.crossOrigin = true
  · rw [if_pos h8]; exact hW _
  rw [if_neg h8]
  by_cases h9 : ad.relyingPartyID ≠ (mapGet (gs! "rp_id_hash") t.parameters).getD []
  · rw [if_pos h9]; exact hW _
  rw [if_neg h9]
  by_cases h10 : (mapGet (gs! "UP") (ad.flags.getD [])).getD false ≠ true
  · rw [if_pos h10]; exact hW _
  rw [if_neg h10]
  by_cases h11 : ¬ (mapGet (gs! "key_algo") t.parameters).getD [] = gs! "es256"
  · rw [if_neg h11]; exact hW _
  rw [if_pos (Decidable.not_not.1 h11)]
  by_cases h12 : ¬ ecdsaVerify kx ky (adBytes ++ Sha.sha256 cdBytes) sig = true
  · rw [if_neg h12]; exact hE _
  rw [if_pos (Decidable.not_not.1 h12), ← hP]
  refine ⟨by simp, ?_⟩
  intro resp hresp
  rw [Res.ok.injEq] at hresp
  subst hresp
  obtain ⟨xs, ys, hx, hy, ha, hxc, hyc⟩ := derivePublicKey_iff.1 hkey
  obtain ⟨hlen, hsays⟩ := AuthDataSays.unpack hadu
  obtain ⟨m, hm, _, hfl⟩ := hsays.flags
  refine ⟨doc, r, cd, hdoc, hun, rfl, xs, ys, kx, ky, cdBytes, adBytes, sig, cd, ?_, ha, hx, hxc, hy, hyc, h4, hcb, hcd,
    Decidable.not_not.1 h7, by simpa using h8, rfl, h6, had, hlen, ?_, ?_, h5, hsig, Decidable.not_not.1 h12⟩
  · rw [← mapGet_eq_lookup, hkt, Decidable.not_not.1 h2]
  · rw [← mapGet_eq_lookup, ← hsays.hash]
    exact Decidable.not_not.1 h9
  · have h0 := hfl 0 (gs! "UP") rfl
    have h10' := Decidable.not_not.1 h10
    rw [hm, Option.getD_some, mapGet_eq_lookup, h0, Option.getD_some] at h10'
    exact h10'

theorem webAuthnRequest_iff {t : MfaToken} {payload challenge : GoString} {r : AuthenticateRequest}
    (ht : t.type = gs! "u2f") (hid : t.parameters.lookup (gs! "u2f_id") = some r.id)
    (hr : IsAuthRequest payload r) :
    (∃ resp cd, webAuthnRequest t payload = .ok resp ∧ resp.clientData = some cd ∧ cd.challenge = challenge) ↔
      ValidAssertion t.parameters challenge r := by
  obtain ⟨doc, hdoc, hun⟩ := hr
  constructor
  · rintro ⟨resp, cd', h, hcd', hch⟩
    obtain ⟨doc', r', cd, hdoc', hun', hcd, hv⟩ := (webAuthnRequest_inv t payload).2 resp h
    rw [hdoc, Option.some.injEq] at hdoc'
    subst hdoc'
    rw [hun, Res.ok.injEq] at hun'
    subst hun'
    rw [hcd', Option.some.injEq] at hcd
    subst hcd
    rw [← hch]; exact hv
  · rintro ⟨xs, ys, x, y, cdBytes, adBytes, sig, cd, hkt, ha, hx, hxc, hy, hyc, hcb, hcdb, hcdu, hty, hco, hch, hab, had,
      hlen, hrp, hup, hsb, hsig, hver⟩
    have hkey := derivePublicKey_iff.2 ⟨xs, ys, hx, hy, ha, hxc, hyc⟩
    obtain ⟨ad, hadu, hsays⟩ := unpackAuthData_ok hlen
    obtain ⟨m, hm, _, hfl⟩ := hsays.flags
    have h0 : (mapGet (gs! "UP") (ad.flags.getD [])).getD false = true := by
      rw [hm, mapGet_eq_lookup, Option.getD_some, hfl 0 (gs! "UP") rfl, hup]; rfl
    have hrp' : ad.relyingPartyID = (mapGet (gs! "rp_id_hash") t.parameters).getD [] := by
      rw [hsays.hash, mapGet_eq_lookup]; exact hrp
    rw [← mapGet_eq_lookup] at hid hkt ha
    have ha' : (mapGet (gs! "key_algo") t.parameters).getD [] = gs! "es256" := by rw [ha]; rfl
    refine ⟨{ r with clientData := some cd, clientDataEncoded := [], signatureEncoded := [], authData := some ad }, cd, ?_,
      rfl, hch⟩
    unfold webAuthnRequest
    rw [if_neg (not_not_intro ht), hid, hkt]
    dsimp only
    rw [if_neg (not_not_intro rfl), hkey]
    dsimp only
    rw [hdoc]
    dsimp only
    rw [hun]
    dsimp only
    rw [if_neg (not_not_intro rfl), if_neg hcb, hcdb]
    dsimp only
    rw [hcdu]
    dsimp only
    rw [if_neg hsb, hsig]
    dsimp only
    rw [if_neg hab, had]
    dsimp only
    rw [hadu]
    dsimp only
    rw [if_neg (not_not_intro hty), if_neg (by simp [hco]), if_neg (not_not_intro hrp'), if_neg (not_not_intro h0),
      if_pos ha', if_pos hver]

theorem webAuthnRequest_ne_panic (t : MfaToken) (payload : GoString) : webAuthnRequest t payload ≠ .panic :=
  (webAuthnRequest_inv t payload).1

theorem webAuthnRequest_clientData {t : MfaToken} {payload : GoString} {resp : AuthenticateRequest}
    (h : webAuthnRequest t payload = .ok resp) : ∃ cd, resp.clientData = some cd := by
  obtain ⟨_, _, cd, _, _, hcd, _⟩ := (webAuthnRequest_inv t payload).2 resp h
  exact ⟨cd, hcd⟩

/-- An enabled U2F token registered with this credential id. -/
def IsCandidate (t : MfaToken) (id : GoString) : Prop :=
  t.disabled = false ∧ t.type = gs! "u2f" ∧ t.parameters.lookup (gs! "u2f_id") = some id

theorem verifyTokens_iff {w : ReqWebAuthn} {r : AuthenticateRequest} (hr : IsAuthRequest w.request r) (ts : List MfaToken) :
    User.verifyTokens w r.id ts = .ok () ↔
      ∃ pre t post, ts = pre ++ t :: post ∧ (∀ t' ∈ pre, ¬ IsCandidate t' r.id) ∧ IsCandidate t r.id ∧
        ValidAssertion t.parameters w.challenge r := by
  induction ts with
  | nil => simp [User.verifyTokens]
  | cons t ts ih =>
    have hskip : ¬ IsCandidate t r.id →
        ((∃ pre t' post, ts = pre ++ t' :: post ∧ (∀ t'' ∈ pre, ¬ IsCandidate t'' r.id) ∧ IsCandidate t' r.id ∧
          ValidAssertion t'.parameters w.challenge r) ↔
        ∃ pre t' post, t :: ts = pre ++ t' :: post ∧ (∀ t'' ∈ pre, ¬ IsCandidate t'' r.id) ∧ IsCandidate t' r.id ∧
          ValidAssertion t'.parameters w.challenge r) := by
      intro hn
      constructor
      · rintro ⟨pre, t', post, rfl, hpre, hc, hv⟩
        refine ⟨t :: pre, t', post, rfl, ?_, hc, hv⟩
        intro t'' ht''
        rcases List.mem_cons.1 ht'' with rfl | h
        · exact hn
        · exact hpre _ h
      · rintro ⟨pre, t', post, he, hpre, hc, hv⟩
        cases pre with
        | nil =>
          simp only [List.nil_append, List.cons.injEq] at he
          exact absurd (he.1 ▸ hc) hn
        | cons p pre =>
          simp only [List.cons_append, List.cons.injEq] at he
          exact ⟨pre, t', post, he.2, fun x hx => hpre x (List.mem_cons_of_mem _ hx), hc, hv⟩
    unfold User.verifyTokens
    by_cases h1 : t.disabled = true
    · rw [if_pos h1, ih]
      exact hskip (fun hc => by rw [hc.1] at h1; cases h1)
    · rw [if_neg h1]
      by_cases h2 : t.type = gs! "u2f"
      · rw [if_neg (by simpa using h2)]
        cases h3 : mapGet (gs! "u2f_id") t.parameters with
        | none =>
          rw [ih]
          refine hskip (fun hc => ?_)
          have := hc.2.2
          rw [← mapGet_eq_lookup, h3] at this
          cases this
        | some id =>
          dsimp only
          by_cases h4 : r.id = id
          · rw [if_neg (by simpa using h4)]
            have hid : t.parameters.lookup (gs! "u2f_id") = some r.id := by rw [← mapGet_eq_lookup, h3, h4]
            have hc : IsCandidate t r.id := ⟨by simpa using h1, h2, hid⟩
            have hiff := webAuthnRequest_iff (challenge := w.challenge) h2 hid hr
            have hrhs : (∃ pre t' post, t :: ts = pre ++ t' :: post ∧ (∀ t'' ∈ pre, ¬ IsCandidate t'' r.id) ∧
                IsCandidate t' r.id ∧ ValidAssertion t'.parameters w.challenge r) ↔
                ValidAssertion t.parameters w.challenge r := by
              constructor
              · rintro ⟨pre, t', post, he, hpre, hc', hv⟩
                cases pre with
                | nil =>
                  simp only [List.nil_append, List.cons.injEq] at he
                  rw [he.1]; exact hv
                | cons p pre =>
                  simp only [List.cons_append, List.cons.injEq] at he
                  exact absurd (he.1 ▸ hc) (hpre p (by simp))
              · intro hv
                exact ⟨[], t, ts, rfl, by simp, hc, hv⟩
            rw [hrhs, ← hiff]
            cases hw : webAuthnRequest t w.request with
            | err e => simp
            | panic => exact absurd hw (webAuthnRequest_ne_panic _ _)
            | ok resp =>
              obtain ⟨cd, hcd⟩ := webAuthnRequest_clientData hw
              simp only [hcd, Res.ok.injEq]
              constructor
              · intro h
                split at h
                · simp at h
                · rename_i hch
                  exact ⟨resp, cd, rfl, hcd, by simpa using hch⟩
              · rintro ⟨resp', cd', rfl, hcd', hch⟩
                rw [hcd, Option.some.injEq] at hcd'
                rw [hcd', if_neg (by simpa using hch)]
          · rw [if_pos h4, ih]
            apply hskip
            intro hc
            have := hc.2.2
            rw [← mapGet_eq_lookup, h3, Option.some.injEq] at this
            exact h4 this.symm
      · rw [if_pos h2, ih]
        exact hskip (fun hc => h2 hc.2.1)

theorem verifyTokens_ne_panic (w : ReqWebAuthn) (id : GoString) (ts : List MfaToken) :
    User.verifyTokens w id ts ≠ .panic := by
  induction ts with
  | nil => simp [User.verifyTokens]
  | cons t ts ih =>
    unfold User.verifyTokens
    repeat' split
    all_goals first
      | exact ih
      | (simp; done)
      | skip
    · rename_i hp; exact absurd hp (webAuthnRequest_ne_panic _ _)
    · rename_i hw _ hn
      obtain ⟨cd, hcd⟩ := webAuthnRequest_clientData hw
      rw [hcd] at hn; cases hn

theorem unpackWebAuthnRequest_iff {s : GoString} {r : AuthenticateRequest} :
    unpackWebAuthnRequest s = .ok r ↔ IsAuthRequest s r := by
  unfold unpackWebAuthnRequest IsAuthRequest
  constructor
  · intro h
    repeat' split at h
    all_goals first
      | (simp at h; done)
      | skip
    rename_i doc hdoc _ r' hun
    rw [Res.ok.injEq] at h
    exact ⟨doc, hdoc, h ▸ hun⟩
  · rintro ⟨doc, hdoc, hun⟩
    simp [hdoc, hun]

theorem verifyWebAuthnRequest_iff {w : ReqWebAuthn} {u : User} :
    u.verifyWebAuthnRequest w = .ok () ↔
      ∃ r, IsAuthRequest w.request r ∧ ∃ pre t post, u.mfaTokens = pre ++ t :: post ∧ (∀ t' ∈ pre, ¬ IsCandidate t' r.id) ∧
        IsCandidate t r.id ∧ ValidAssertion t.parameters w.challenge r := by
  unfold User.verifyWebAuthnRequest
  constructor
  · intro h
    split at h
    · simp at h
    · simp at h
    · rename_i r hr
      have hr' := unpackWebAuthnRequest_iff.1 hr
      exact ⟨r, hr', (verifyTokens_iff hr' _).1 h⟩
  · rintro ⟨r, hr, h⟩
    rw [unpackWebAuthnRequest_iff.2 hr]
    exact (verifyTokens_iff hr _).2 h

theorem verifyWebAuthnRequest_ne_panic (w : ReqWebAuthn) (u : User) : u.verifyWebAuthnRequest w ≠ .panic := by
  unfold User.verifyWebAuthnRequest
  split
  · simp
  · rename_i hp
    unfold unpackWebAuthnRequest at hp
    repeat' split at hp
    all_goals first
      | (simp at hp; done)
      | (rename_i hq; exact absurd hq (unmarshal_noPanic authenticateRequest_noPanic _ _))
  · exact verifyTokens_ne_panic _ _ _

end GoIdentity
