import Verif.Lemmas.WebAuthn
/-!
# WebAuthn: C33–C35
-/
namespace GoIdentity
open Toy

/-! ## C33 -/

/-- C33: with an empty password and a WebAuthn request, `AuthenticateUser` returns nil exactly if the name denotes a stored
user, the request decodes, and the first of the user's enabled U2F tokens with the credential id of the request accepts the
assertion: EC2/ES256 key with 32-byte coordinates, client data of type `webauthn.get`, not cross-origin and with the expected
challenge, authenticator data with the registered rpIdHash and the user-present bit, and a signature that verifies under the
registered key over the authenticator data followed by the SHA-256 of the client data (`ValidAssertion`). -/
theorem C33_webauthn_authentication [Ext] {db : Database} (h : Reach Opened db) (nd : Nondet) (fs : FS) (req : Request)
    (hpw : req.user.password = []) (hw : req.webAuthn.request ≠ []) :
    ((exec .authenticateUser nd db fs req).Succeeded ↔
      ∃ u ∈ db.users, Denotes req.user.username u ∧ ∃ r, IsAuthRequest req.webAuthn.request r ∧
        ∃ pre t post, u.mfaTokens = pre ++ t :: post ∧ (∀ t' ∈ pre, ¬ IsCandidate t' r.id) ∧ IsCandidate t r.id ∧
          ValidAssertion t.parameters req.webAuthn.challenge r) ∧
    ((exec .authenticateUser nd db fs req).Succeeded → (exec .authenticateUser nd db fs req).req.response.code = 200) ∧
    (¬ (exec .authenticateUser nd db fs req).Succeeded →
      (exec .authenticateUser nd db fs req).Failed ∧ (exec .authenticateUser nd db fs req).req.response.code = 400) := by
  have hI := reach_inv h
  simp only [exec, Database.authenticateUser]
  cases hg : db.getUser req.user.username with
  | none =>
    have hn := (getUser_none_iff hI).1 hg
    refine ⟨⟨fun hs => by simp [Result.Succeeded, Database.failWith] at hs, ?_⟩,
      fun hs => by simp [Result.Succeeded, Database.failWith] at hs, fun _ => ⟨⟨_, rfl⟩, rfl⟩⟩
    rintro ⟨u, hu, hd, _⟩
    exact absurd hd (hn u hu)
  | some iu =>
    obtain ⟨i, u⟩ := iu
    obtain ⟨hi, hd⟩ := (getUser_iff hI).1 hg
    simp only [if_neg (not_not_intro hpw), if_pos hw]
    have huniq : ∀ v ∈ db.users, Denotes req.user.username v → v = u := by
      intro v hv hdv
      obtain ⟨j, hj⟩ := List.getElem?_of_mem hv
      have := (getUser_iff hI).2 ⟨hj, hdv⟩
      rw [hg] at this
      simp only [Option.some.injEq, Prod.mk.injEq] at this
      exact this.2.symm
    cases hv : u.verifyWebAuthnRequest req.webAuthn with
    | ok x =>
      exact ⟨⟨fun _ => ⟨u, List.mem_of_getElem? hi, hd, verifyWebAuthnRequest_iff.1 hv⟩, fun _ => rfl⟩, fun _ => rfl,
        fun hs => absurd rfl hs⟩
    | panic => exact absurd hv (verifyWebAuthnRequest_ne_panic _ _)
    | err e =>
      refine ⟨⟨fun hs => by simp [Result.Succeeded, Database.failWith] at hs, ?_⟩,
        fun hs => by simp [Result.Succeeded, Database.failWith] at hs, fun _ => ⟨⟨_, rfl⟩, rfl⟩⟩
      rintro ⟨w, hw, hdw, hp⟩
      rw [huniq w hw hdw] at hp
      rw [verifyWebAuthnRequest_iff.2 hp] at hv
      simp at hv

/-- C33: in particular, no WebAuthn login without a signature that verifies under the key of one of the user's enabled
tokens. -/
theorem C33_needs_signature [Ext] {db : Database} (h : Reach Opened db) (nd : Nondet) (fs : FS) (req : Request)
    (hpw : req.user.password = []) (hs : (exec .authenticateUser nd db fs req).Succeeded) :
    ∃ u ∈ db.users, Denotes req.user.username u ∧ ∃ t ∈ u.mfaTokens, t.disabled = false ∧ t.type = gs! "u2f" ∧
      ∃ xs ys x y data sig, t.parameters.lookup (gs! "curve_xcoord") = some xs ∧ IsCoord xs x ∧
        t.parameters.lookup (gs! "curve_ycoord") = some ys ∧ IsCoord ys y ∧ ecdsaVerify x y data sig = true := by
  by_cases hw : req.webAuthn.request = []
  · simp only [exec, Database.authenticateUser, hpw, hw] at hs
    split at hs <;> simp [Result.Succeeded, Database.failWith] at hs
  · obtain ⟨u, hu, hd, r, _, pre, t, post, hts, _, hc, hv⟩ := (C33_webauthn_authentication h nd fs req hpw hw).1.1 hs
    obtain ⟨xs, ys, x, y, cb, ab, sig, cd, _, _, hx, hxc, hy, hyc, _, _, _, _, _, _, _, _, _, _, _, _, _, hver⟩ := hv
    exact ⟨u, hu, hd, t, by rw [hts]; simp, hc.1, hc.2.1, xs, ys, x, y, _, sig, hx, hxc, hy, hyc, hver⟩

/-! ## C34 -/

/-- C34: authenticator data is rejected exactly if it is shorter than 37 bytes. -/
theorem C34_short_rejected (b : GoString) :
    (b.length < 37 → ∃ e, unpackAuthData b = .err e) ∧ (37 ≤ b.length → ∃ ad, unpackAuthData b = .ok ad) := by
  refine ⟨fun h => ?_, fun h => ?_⟩
  · unfold unpackAuthData; rw [if_pos h]; exact ⟨_, rfl⟩
  · obtain ⟨ad, h, _⟩ := unpackAuthData_ok h; exact ⟨ad, h⟩

/-- C34: otherwise the hash is the lower-case hex of the first 32 bytes, flag `i` is bit `i` of byte 32, there are exactly
eight flags, and the counter is the big-endian value of bytes 33 to 36. -/
theorem C34_decoding {b : GoString} {ad : AuthData} (h : unpackAuthData b = .ok ad) :
    ad.relyingPartyID = (b.take 32).flatMap (fun x => [hexDigit (x.toNat / 16), hexDigit (x.toNat % 16)]) ∧
    (∃ m, ad.flags = some m ∧ m.length = 8 ∧ ∀ (i : Nat) (name : GoString),
      flagNames[i]? = some name → m.lookup name = some ((b.getD 32 0).toNat.testBit i)) ∧
    ad.signatureCounter = bytesVal ((b.drop 33).take 4) ∧ ad.signatureCounter < 2 ^ 32 := by
  obtain ⟨hlen, hs⟩ := AuthDataSays.unpack h
  refine ⟨hs.hash, hs.flags, hs.counter, ?_⟩
  rw [hs.counter]
  have := bytesVal_lt ((b.drop 33).take 4)
  have hl : ((b.drop 33).take 4).length = 4 := by simp; omega
  rw [hl] at this
  simpa using this

/-- The hex text determines the 32 bytes. -/
theorem hexDigit_inj {a b : Nat} (ha : a < 16) (hb : b < 16) (h : hexDigit a = hexDigit b) : a = b := by
  have key : ∀ a b : Fin 16, hexDigit a.val = hexDigit b.val → a = b := by decide +kernel
  exact congrArg Fin.val (key ⟨a, ha⟩ ⟨b, hb⟩ h)

theorem hex_inj {s t : GoString} (h : hexBytes s = hexBytes t) : s = t := by
  induction s generalizing t with
  | nil =>
    cases t with
    | nil => rfl
    | cons b t => simp [hexBytes] at h
  | cons a s ih =>
    cases t with
    | nil => simp [hexBytes] at h
    | cons b t =>
      simp only [hexBytes, List.flatMap_cons, List.cons_append, List.nil_append, List.cons.injEq] at h
      obtain ⟨h1, h2, h3⟩ := h
      have ha := a.toNat_lt
      have hb := b.toNat_lt
      have e1 := hexDigit_inj (by omega) (by omega) h1
      have e2 := hexDigit_inj (by omega) (by omega) h2
      have : a = b := UInt8.toNat_inj.1 (by omega)
      subst this
      rw [ih h3]

/-- C34: nothing is lost: authenticator data with the same decoding agree in their first 37 bytes. -/
theorem C34_faithful {b b' : GoString} {ad : AuthData} (h : unpackAuthData b = .ok ad) (h' : unpackAuthData b' = .ok ad) :
    b.take 37 = b'.take 37 := by
  obtain ⟨hl, hs⟩ := AuthDataSays.unpack h
  obtain ⟨hl', hs'⟩ := AuthDataSays.unpack h'
  have e1 : b.take 32 = b'.take 32 := hex_inj (hs.hash.symm.trans hs'.hash)
  have e3 : (b.drop 33).take 4 = (b'.drop 33).take 4 :=
    bytesVal_inj (by simp; omega) (hs.counter.symm.trans hs'.counter)
  have e2 : b.getD 32 0 = b'.getD 32 0 := by
    obtain ⟨m, hm, _, hf⟩ := hs.flags
    obtain ⟨m', hm', _, hf'⟩ := hs'.flags
    rw [hm, Option.some.injEq] at hm'
    subst hm'
    apply UInt8.toNat_inj.1
    apply Nat.eq_of_testBit_eq
    intro i
    by_cases hi : i < 8
    · obtain ⟨n, hn⟩ : ∃ n, flagNames[i]? = some n := ⟨flagNames[i]'(by simpa [flagNames] using hi), by simp⟩
      have := (hf i n hn).symm.trans (hf' i n hn)
      simpa using this
    · have hp : (256 : Nat) ≤ 2 ^ i := by
        have := Nat.pow_le_pow_right (n := 2) (by omega) (show 8 ≤ i by omega)
        simpa using this
      rw [Nat.testBit_lt_two_pow (Nat.lt_of_lt_of_le (UInt8.toNat_lt _) hp),
        Nat.testBit_lt_two_pow (Nat.lt_of_lt_of_le (UInt8.toNat_lt _) hp)]
  have split : ∀ s : GoString, 37 ≤ s.length → s.take 37 = s.take 32 ++ s.getD 32 0 :: (s.drop 33).take 4 := by
    intro s hs
    have h1 : s.take 37 = s.take 32 ++ (s.drop 32).take 5 := by
      have := List.take_add (l := s) (i := 32) (j := 5)
      simpa using this
    have h2 : s.drop 32 = s.getD 32 0 :: s.drop 33 := by
      rw [List.drop_eq_getElem_cons (by omega)]
      congr 1
      simp [List.getD, List.getElem?_eq_getElem (show 32 < s.length by omega)]
    rw [h1, h2]
    rfl
  rw [split b hl, split b' hl', e1, e2, e3]

/-- Authenticator data: a hash of 32 bytes `ab`, flags UP and UV, counter 258. -/
def toyAuthData : GoString := List.replicate 32 0xab ++ [5, 0, 0, 1, 2]

example : ∃ ad, unpackAuthData toyAuthData = .ok ad ∧ ad.signatureCounter = 258 ∧
    ad.flags.map (List.lookup (gs! "UV")) = some (some true) ∧ ad.flags.map (List.lookup (gs! "AT")) = some (some false) := by
  exact ⟨_, rfl, by decide +kernel⟩

/-! ## C35 -/

/-- The COSE key is an EC2 key for ES256, with P-256 or no curve named, and these coordinates (empty if absent). -/
structure CoseKey [Ext] (pk : List (GoString × Json)) (curve x y : GoString) : Prop where
  keyType : ∃ l, pk.lookup (gs! "key_type") = some (.num l) ∧ floatIs l 2 = true
  algorithm : ∃ l, pk.lookup (gs! "algorithm") = some (.num l) ∧ floatIs l (-7) = true
  curve : (pk.lookup (gs! "curve_type") = none ∧ curve = []) ∨
    (∃ l, pk.lookup (gs! "curve_type") = some (.num l) ∧ floatIs l 1 = true ∧ curve = gs! "p256")
  xcoord : (pk.lookup (gs! "curve_x") = none ∧ x = []) ∨ pk.lookup (gs! "curve_x") = some (.str x)
  ycoord : (pk.lookup (gs! "curve_y") = none ∧ y = []) ∨ pk.lookup (gs! "curve_y") = some (.str y)

/-- A registration with all its mandatory parts: authenticator data, its flags and the public key. -/
def GoodRegistration (r : RegisterRequest) (ad : AuthData) (flags : List (GoString × Bool))
    (pk : List (GoString × Json)) : Prop :=
  r.id ≠ [] ∧ r.type = gs! "public-key" ∧
  (∀ tr ∈ r.transports, tr = gs! "usb" ∨ tr = gs! "nfc" ∨ tr = gs! "ble" ∨ tr = gs! "internal") ∧
  ∃ ao cd, r.attestationObject = some ao ∧ ao.authData = some ad ∧ ad.relyingPartyID ≠ [] ∧ ad.flags = some flags ∧
    ad.credentialData = some cd ∧ cd.publicKey = some pk

/-- The text is the base64 of a JSON document that decodes to the registration `r`. -/
def IsRegistration (s : GoString) (r : RegisterRequest) : Prop :=
  ∃ doc, b64Decode s = some doc ∧ unmarshal registerRequestFields RegisterRequest.zero doc = .ok r

theorem numberIs_true [Ext] {v : Json} {n : Int} : numberIs v n = .ok true ↔ ∃ l, v = .num l ∧ floatIs l n = true := by
  cases v <;> simp [numberIs]

theorem optString_ok {o : Option Json} {s : GoString} :
    optString o = .ok s ↔ (o = none ∧ s = []) ∨ o = some (.str s) := by
  unfold optString
  split <;> simp_all [eq_comm]

theorem checkCoseKey_iff [Ext] {pk : List (GoString × Json)} {c x y : GoString} :
    checkCoseKey pk = .ok (c, x, y) ↔ CoseKey pk c x y := by
  constructor
  · intro h
    unfold checkCoseKey at h
    cases hk : mapGet (gs! "key_type") pk with
    | none => rw [hk] at h; simp at h
    | some v =>
    rw [hk] at h; dsimp only at h
    cases hv : numberIs v 2 with
    | panic => rw [hv] at h; simp at h
    | err e => rw [hv] at h; simp at h
    | ok b =>
    rw [hv] at h
    cases b with
    | false => simp at h
    | true =>
    dsimp only at h
    cases ha : mapGet (gs! "algorithm") pk with
    | none => rw [ha] at h; simp at h
    | some a =>
    rw [ha] at h; dsimp only at h
    cases hav : numberIs a (-7) with
    | panic => rw [hav] at h; simp at h
    | err e => rw [hav] at h; simp at h
    | ok b =>
    rw [hav] at h
    cases b with
    | false => simp at h
    | true =>
    dsimp only at h
    have hc : ∀ {R : Res GoString} {k : GoString → Res (GoString × GoString × GoString)} {o},
        (match R with | .panic => (.panic : Res (GoString × GoString × GoString)) | .err e => .err e | .ok c => k c) = .ok o → ∃ c, R = .ok c ∧ k c = .ok o := by
      intro R k o h
      cases R with
      | ok c => exact ⟨c, rfl, h⟩
      | err e => simp at h
      | panic => simp at h
    obtain ⟨c', hcur, h⟩ := hc h
    obtain ⟨x', hx, h⟩ := hc h
    obtain ⟨y', hy, h⟩ := hc h
    simp only [Res.ok.injEq, Prod.mk.injEq] at h
    obtain ⟨rfl, rfl, rfl⟩ := h
    rw [optString_ok] at hx hy
    rw [mapGet_eq_lookup] at hk ha hx hy hcur
    obtain ⟨l, rfl, hl⟩ := numberIs_true.1 hv
    obtain ⟨l', rfl, hl'⟩ := numberIs_true.1 hav
    refine ⟨⟨l, hk, hl⟩, ⟨l', ha, hl'⟩, ?_, hx, hy⟩
    cases hct : pk.lookup (gs! "curve_type") with
    | none => rw [hct] at hcur; left; simp at hcur; simp [hcur]
    | some v =>
      rw [hct] at hcur
      right
      dsimp only at hcur
      cases hn : numberIs v 1 with
      | panic => rw [hn] at hcur; simp at hcur
      | err e => rw [hn] at hcur; simp at hcur
      | ok b =>
        rw [hn] at hcur
        cases b with
        | false => simp at hcur
        | true =>
          simp only [Res.ok.injEq] at hcur
          obtain ⟨l, rfl, hl⟩ := numberIs_true.1 hn
          exact ⟨l, rfl, hl, hcur.symm⟩
  · rintro ⟨⟨l, hk, hl⟩, ⟨l', ha, hl'⟩, hc, hx, hy⟩
    rw [← optString_ok] at hx hy
    unfold checkCoseKey
    rw [mapGet_eq_lookup, hk]
    dsimp only
    rw [numberIs_true.2 ⟨l, rfl, hl⟩]
    dsimp only
    rw [mapGet_eq_lookup, ha]
    dsimp only
    rw [numberIs_true.2 ⟨l', rfl, hl'⟩]
    dsimp only
    rw [mapGet_eq_lookup, mapGet_eq_lookup, mapGet_eq_lookup, hx, hy]
    rcases hc with ⟨hn, rfl⟩ | ⟨l'', hn, hl'', rfl⟩
    · rw [hn]
    · rw [hn]
      dsimp only
      rw [numberIs_true.2 ⟨l'', rfl, hl''⟩]

theorem checkTransports_ok {ts : List GoString} :
    checkTransports ts = .ok () ↔ ∀ tr ∈ ts, tr = gs! "usb" ∨ tr = gs! "nfc" ∨ tr = gs! "ble" ∨ tr = gs! "internal" := by
  induction ts with
  | nil => simp [checkTransports]
  | cons t ts ih =>
    unfold checkTransports
    rw [List.forall_mem_cons]
    by_cases h : t = gs! "usb" ∨ t = gs! "nfc" ∨ t = gs! "ble" ∨ t = gs! "internal"
    · rw [if_pos h, ih]; exact ⟨fun h' => ⟨h, h'⟩, fun h' => h'.2⟩
    · rw [if_neg h]
      refine ⟨fun h' => ?_, fun h' => absurd h'.1 h⟩
      split at h' <;> simp at h'

theorem checkTransports_ne_panic (ts : List GoString) : checkTransports ts ≠ .panic := by
  induction ts with
  | nil => simp [checkTransports]
  | cons t ts ih =>
    unfold checkTransports
    split
    · exact ih
    · split <;> simp

/-- After the structural checks, registration is the check of the COSE key. -/
theorem u2fFromRegister_good [Ext] {p : MfaToken} {r : RegisterRequest} {ad : AuthData} {flags : List (GoString × Bool)}
    {pk : List (GoString × Json)} (h : GoodRegistration r ad flags pk) :
    u2fFromRegister p r =
      match checkCoseKey pk with
      | .err e => .err e
      | .panic => .panic
      | .ok (curve, x, y) => .ok { p with
          flags := flags
          signatureCounter := ad.signatureCounter
          parameters :=
            mapInsert (gs! "curve_ycoord") y <| mapInsert (gs! "curve_xcoord") x <|
            mapInsert (gs! "curve_type") curve <| mapInsert (gs! "key_algo") (gs! "es256") <|
            mapInsert (gs! "key_type") (gs! "ec2") <|
            mapInsert (gs! "u2f_transports") (joinWith [44] r.transports) <|
            mapInsert (gs! "u2f_type") r.type <| mapInsert (gs! "u2f_id") r.id <|
            mapInsert (gs! "rp_id_hash") ad.relyingPartyID [] } := by
  obtain ⟨h1, h2, h3, ao, cd, h4, h5, h6, h7, h8, h9⟩ := h
  unfold u2fFromRegister
  rw [if_neg h1, if_neg (by rw [h2]; simp), if_neg (not_not_intro h2), checkTransports_ok.2 h3]
  dsimp only
  rw [h4]
  dsimp only
  rw [h5]
  dsimp only
  rw [if_neg h6, h7]
  dsimp only
  rw [h8]
  dsimp only
  rw [h9]
  rfl

theorem u2fFromRegister_inv [Ext] {p : MfaToken} {r : RegisterRequest} {t : MfaToken} (h : u2fFromRegister p r = .ok t) :
    ∃ ad flags pk, GoodRegistration r ad flags pk := by
  unfold u2fFromRegister at h
  by_cases h1 : r.id = []
  · rw [if_pos h1] at h; simp at h
  rw [if_neg h1] at h
  by_cases h2 : r.type = []
  · rw [if_pos h2] at h; simp at h
  rw [if_neg h2] at h
  by_cases h3 : r.type ≠ gs! "public-key"
  · rw [if_pos h3] at h; simp at h
  rw [if_neg h3] at h
  cases h4 : checkTransports r.transports with
  | err e => rw [h4] at h; simp at h
  | panic => rw [h4] at h; simp at h
  | ok u =>
  rw [h4] at h; dsimp only at h
  cases h5 : r.attestationObject with
  | none => rw [h5] at h; simp at h
  | some ao =>
  rw [h5] at h; dsimp only at h
  cases h6 : ao.authData with
  | none => rw [h6] at h; simp at h
  | some ad =>
  rw [h6] at h; dsimp only at h
  by_cases h7 : ad.relyingPartyID = []
  · rw [if_pos h7] at h; simp at h
  rw [if_neg h7] at h
  cases h8 : ad.flags with
  | none => rw [h8] at h; simp at h
  | some flags =>
  rw [h8] at h; dsimp only at h
  cases h9 : ad.credentialData with
  | none => rw [h9] at h; simp at h
  | some cd =>
  rw [h9] at h; dsimp only at h
  cases h10 : cd.publicKey with
  | none => rw [h10] at h; simp at h
  | some pk =>
  exact ⟨ad, flags, pk, h1, Decidable.not_not.1 h3, checkTransports_ok.1 h4, ao, cd, h5, h6, h7, h8, h9, h10⟩

/-- `NewMfaToken` of type `u2f`. -/
theorem newMfaToken_u2f [Ext] (nd : Nondet) {req : Request} (ht : req.mfaToken.type = gs! "u2f") :
    ∃ p, newMfaToken nd req = (newU2F p req.webAuthn, req) ∧ p.id = getRandomString nd.seedRand 0 40 ∧
      p.type = gs! "u2f" ∧ p.comment = req.mfaToken.comment ∧ p.createdAt = nd.now 0 ∧ p.disabled = req.mfaToken.disabled := by
  unfold newMfaToken
  dsimp only
  rw [if_neg (by rw [ht]; decide), if_pos ht]
  exact ⟨_, rfl, rfl, ht, rfl, rfl, rfl⟩

/-- C35: a U2F token is made only from a registration that decodes, is complete, and has an EC2/ES256 key. -/
theorem C35_registration_accepted_iff [Ext] (nd : Nondet) (req : Request) (ht : req.mfaToken.type = gs! "u2f") :
    (∃ t, (newMfaToken nd req).1 = .ok t) ↔
      req.webAuthn.register ≠ [] ∧ req.webAuthn.challenge ≠ [] ∧
        ∃ r ad flags pk curve x y, IsRegistration req.webAuthn.register r ∧ GoodRegistration r ad flags pk ∧
          CoseKey pk curve x y := by
  obtain ⟨p, hp, _⟩ := newMfaToken_u2f nd ht
  rw [hp]
  unfold newU2F
  constructor
  · rintro ⟨t, h⟩
    by_cases h1 : req.webAuthn.register = []
    · simp [h1] at h
    by_cases h2 : req.webAuthn.challenge = []
    · simp [h1, h2] at h
    simp only [if_neg h1, if_neg h2] at h
    cases h3 : b64Decode req.webAuthn.register with
    | none => rw [h3] at h; simp at h
    | some doc =>
    rw [h3] at h; dsimp only at h
    cases h4 : unmarshal registerRequestFields RegisterRequest.zero doc with
    | err e => rw [h4] at h; simp at h
    | panic => rw [h4] at h; simp at h
    | ok r =>
    rw [h4] at h; dsimp only at h
    obtain ⟨ad, flags, pk, hg⟩ := u2fFromRegister_inv h
    rw [u2fFromRegister_good hg] at h
    cases h5 : checkCoseKey pk with
    | err e => rw [h5] at h; simp at h
    | panic => rw [h5] at h; simp at h
    | ok cxy =>
      obtain ⟨c, x, y⟩ := cxy
      exact ⟨h1, h2, r, ad, flags, pk, c, x, y, ⟨doc, h3, h4⟩, hg, checkCoseKey_iff.1 h5⟩
  · rintro ⟨h1, h2, r, ad, flags, pk, c, x, y, ⟨doc, h3, h4⟩, hg, hk⟩
    simp only [if_neg h1, if_neg h2, h3, h4]
    rw [u2fFromRegister_good hg, checkCoseKey_iff.2 hk]
    exact ⟨_, rfl⟩

/-- C35: what the token stores: the challenge as its secret, the flags and counter of the authenticator data, and nine
parameters with the credential id, the rpIdHash and the coordinates as given. -/
theorem C35_registration_stores [Ext] (nd : Nondet) (req : Request) (ht : req.mfaToken.type = gs! "u2f") {t : MfaToken}
    (h : (newMfaToken nd req).1 = .ok t) {r : RegisterRequest} (hr : IsRegistration req.webAuthn.register r)
    {ad : AuthData} {flags : List (GoString × Bool)} {pk : List (GoString × Json)} (hg : GoodRegistration r ad flags pk)
    {curve x y : GoString} (hk : CoseKey pk curve x y) :
    t.secret = req.webAuthn.challenge ∧ t.type = gs! "u2f" ∧ t.comment = req.mfaToken.comment ∧ t.createdAt = nd.now 0 ∧
    t.disabled = req.mfaToken.disabled ∧ t.flags = flags ∧ t.signatureCounter = ad.signatureCounter ∧
    t.parameters.length = 9 ∧
    t.parameters.lookup (gs! "u2f_id") = some r.id ∧ t.parameters.lookup (gs! "u2f_type") = some (gs! "public-key") ∧
    t.parameters.lookup (gs! "u2f_transports") = some (joinWith [44] r.transports) ∧
    t.parameters.lookup (gs! "rp_id_hash") = some ad.relyingPartyID ∧
    t.parameters.lookup (gs! "key_type") = some (gs! "ec2") ∧ t.parameters.lookup (gs! "key_algo") = some (gs! "es256") ∧
    t.parameters.lookup (gs! "curve_type") = some curve ∧ t.parameters.lookup (gs! "curve_xcoord") = some x ∧
    t.parameters.lookup (gs! "curve_ycoord") = some y := by
  obtain ⟨h1, h2, _⟩ := (C35_registration_accepted_iff nd req ht).1 ⟨t, h⟩
  obtain ⟨p, hp, _, hp2, hp3, hp4, hp5⟩ := newMfaToken_u2f nd ht
  obtain ⟨doc, h3, h4⟩ := hr
  rw [hp] at h
  unfold newU2F at h
  simp only [if_neg h1, if_neg h2, h3, h4] at h
  rw [u2fFromRegister_good hg, checkCoseKey_iff.2 hk] at h
  simp only [Res.ok.injEq] at h
  subst h
  refine ⟨rfl, hp2, hp3, hp4, hp5, rfl, rfl, rfl, ?_⟩
  simp only [← mapGet_eq_lookup, mapGet_insert]
  simp [hg.2.1]

/-- C35: a token whose registration lacks a coordinate is stored all the same, but no assertion is ever valid for it. -/
theorem C35_missing_coordinate_useless [Ext] {params : List (GoString × GoString)} {c : GoString}
    (hc : params.lookup (gs! "curve_xcoord") = some [] ∨ params.lookup (gs! "curve_ycoord") = some [])
    (r : AuthenticateRequest) : ¬ ValidAssertion params c r := by
  rintro ⟨xs, ys, x, y, _, _, _, _, _, _, hx, hxc, hy, hyc, _⟩
  have key : ∀ n, ¬ IsCoord [] n := by
    rintro n ⟨b, hb, hl, _⟩
    have h0 : b64Decode [] = some [] := by decide
    rw [h0, Option.some.injEq] at hb
    subst hb
    simp at hl
  rcases hc with hc | hc
  · rw [hc, Option.some.injEq] at hx; subst hx; exact key _ hxc
  · rw [hc, Option.some.injEq] at hy; subst hy; exact key _ hyc

/-- C35: a complete registration whose key type is not a JSON number makes the call panic. -/
theorem C35_wrong_json_type_panics [Ext] (nd : Nondet) {req : Request} (ht : req.mfaToken.type = gs! "u2f")
    (h1 : req.webAuthn.register ≠ []) (h2 : req.webAuthn.challenge ≠ []) {r : RegisterRequest}
    (hr : IsRegistration req.webAuthn.register r) {ad : AuthData} {flags : List (GoString × Bool)}
    {pk : List (GoString × Json)} (hg : GoodRegistration r ad flags pk) {v : Json}
    (hv : pk.lookup (gs! "key_type") = some v) (hnum : ∀ l, v ≠ .num l) :
    (newMfaToken nd req).1 = .panic := by
  obtain ⟨p, hp, _⟩ := newMfaToken_u2f nd ht
  obtain ⟨doc, h3, h4⟩ := hr
  rw [hp]
  unfold newU2F
  simp only [if_neg h1, if_neg h2, h3, h4]
  rw [u2fFromRegister_good hg]
  unfold checkCoseKey
  rw [mapGet_eq_lookup, hv]
  cases v with
  | num l => exact absurd rfl (hnum l)
  | _ => rfl

/-- The key pair of RFC 6979, A.2.5. -/
def sampleKey : Nat := 0xc9afa9d845ba75166b5c215767b1d6934e50c3db36e89b127b8a622b120f6721
def sampleX : Nat := 0x60fed4ba255a9d31c961eb74c6356d68c049b8923b61fa6ce669622e60f29fb6
def sampleY : Nat := 0x7903fe1008b8bc99a41ae9e95628bc64f2f1b20c2d7e9f5177a3c294d4462299

/-- A registration document; `kt` is the text of its key type. -/
def regDoc (kt : GoString) : GoString :=
  gs! "{\"id\":\"cred\",\"type\":\"public-key\",\"transports\":[\"usb\"],\"attestationObject\":{\"authData\":{\"rpIdHash\":\"" ++
  hexBytes (List.replicate 32 0xab) ++
  gs! "\",\"flags\":{\"UP\":true},\"signatureCounter\":7,\"credentialData\":{\"publicKey\":{\"key_type\":" ++ kt ++
  gs! ",\"algorithm\":-7,\"curve_type\":1,\"curve_x\":\"" ++ b64Encode (Sha.natBE 32 sampleX) ++ gs! "\",\"curve_y\":\"" ++
  b64Encode (Sha.natBE 32 sampleY) ++ gs! "\"}}}}}"

/-- Register a security key for Joe. -/
def reqU2F (kt : GoString) : Request :=
  { user := { username := gs! "Joe", email := gs! "joe@example.com" },
    mfaToken := { type := gs! "u2f", comment := gs! "key" },
    webAuthn := { register := b64Encode (regDoc kt), challenge := gs! "registration challenge" } }

def dbU2F : Database := (exec .addMfaToken nd db2 fs3 (reqU2F (gs! "2"))).db
theorem dbU2F_reach : Reach Opened dbU2F := .step db2_reachO ..

def toyClientData (challenge : GoString) : GoString :=
  gs! "{\"type\":\"webauthn.get\",\"challenge\":\"" ++ challenge ++ gs! "\",\"crossOrigin\":false}"

/-- An assertion over the toy authenticator data. -/
def assertDoc (challenge : GoString) (sig : GoString) : GoString :=
  gs! "{\"id\":\"cred\",\"auth_data_encoded\":\"" ++ b64Encode toyAuthData ++ gs! "\",\"client_data_encoded\":\"" ++
  b64Encode (toyClientData challenge) ++ gs! "\",\"signature_encoded\":\"" ++ b64Encode sig ++ gs! "\"}"

/-- The signature of the key of RFC 6979 over the toy authenticator data and the challenge `abc`. -/
def toySig : GoString :=
  [0x30, 68, 0x02, 32] ++ Sha.natBE 32 0x4ef389c53c0fe5662cf8297eed13e3262d84dacbb13d7724a7f739bafde362c0 ++
  [0x02, 32] ++ Sha.natBE 32 0x5d1b1635357367ab5b9233d3d79c38c32dd44595153cae5538bc38aee56bf184

def reqAssert (challenge sig expected : GoString) : Request :=
  { user := { username := gs! "joe" },
    webAuthn := { request := b64Encode (assertDoc challenge sig), challenge := expected } }

example : (exec .addMfaToken nd db2 fs3 (reqU2F (gs! "2"))).Succeeded := by
  unfold Result.Succeeded; decide +kernel
-- The right signature over the expected challenge is accepted, a wrong signature or challenge is not.
example : (exec .authenticateUser nd dbU2F fs3 (reqAssert (gs! "abc") toySig (gs! "abc"))).Succeeded ∧
    ¬ (exec .authenticateUser nd dbU2F fs3 (reqAssert (gs! "abc") [0] (gs! "abc"))).Succeeded ∧
    ¬ (exec .authenticateUser nd dbU2F fs3 (reqAssert (gs! "abc") toySig (gs! "abd"))).Succeeded := by
  unfold Result.Succeeded; decide +kernel

/-- C35: a registration whose key type is the JSON string `"2"` makes `AddMFAToken` panic. -/
theorem C35_panic_witness : (exec .addMfaToken nd db2 fs3 (reqU2F (gs! "\"2\""))).out = .panic := by decide +kernel

end GoIdentity
