import Verif.Lemmas.Ecdsa
import Verif.Props.WebAuthn
/-!
# ECDSA in the WebAuthn login: C82

The signature check is stated with the group of the curve from Mathlib (Spec/Ecdsa.lean), not with the formulas of the model.
-/
namespace GoIdentity
open Toy P256
open Sha (beNat)

/-! ## The curve -/

/-- C82: the parameters of the curve are those of FIPS 186-4, D.1.2.3: the prime of the field, the coefficient `b` as derived
from the published seed by SHA-1 (ANSI X9.62, A.3.3.1: `b² c = -27`), the base point, and a prime order. -/
theorem C82_parameters :
    p = 2 ^ 256 - 2 ^ 224 + 2 ^ 192 + 2 ^ 96 - 1 ∧ p.Prime ∧ n.Prime ∧ Nat.card curve.Point = n ∧
    gx = 0x6b17d1f2e12c4247f8bce6e563a440f277037d812deb33a0f4a13945d898c296 ∧
    gy = 0x4fe342e2fe1a7f9b8ee7eb4a7c0f9e162bce33576b315ececbb6406837bf51f5 ∧
    ∃ seed : GoString, beNat seed = 0xc49d360886e704936a6678e1139d26b7819f7e90 ∧ seed.length = 20 ∧
      ∃ seed1 : GoString, beNat seed1 = beNat seed + 1 ∧ seed1.length = 20 ∧
        (b * b * (beNat (Sha.sha1 seed) % 2 ^ 95 * 2 ^ 160 + beNat (Sha.sha1 seed1)) + 27) % p = 0 := by
  refine ⟨by decide +kernel, p_prime, n_prime, card_points, rfl, rfl, Sha.natBE 20 0xc49d360886e704936a6678e1139d26b7819f7e90, by decide +kernel,
    by decide +kernel, Sha.natBE 20 0xc49d360886e704936a6678e1139d26b7819f7e91, by decide +kernel, by decide +kernel,
    by decide +kernel⟩

/-- C82: every point other than zero is the public key of exactly one private key from 1 to `n - 1`. -/
theorem C82_every_point_is_a_key {G : curve.Point} (hG : IsPoint G gx gy) {Q : curve.Point} {x y : Nat} (hQ : IsPoint Q x y) :
    ∃ d, (0 < d ∧ d < n ∧ d • G = Q) ∧ ∀ d', d' < n → d' • G = Q → d' = d := by
  obtain ⟨d, hd, rfl⟩ := exists_dlog hG Q
  refine ⟨d, ⟨Nat.pos_of_ne_zero ?_, hd, rfl⟩, fun d' hd' h => ?_⟩
  · rintro rfl
    rw [zero_nsmul] at hQ
    exact not_isPoint_zero _ _ hQ
  · have := (nsmul_inj_mod (x := G)).1 h
    rwa [base_addOrder hG, Nat.mod_eq_of_lt hd, Nat.mod_eq_of_lt hd'] at this

/-! ## The check of a signature -/

/-- C82: for a key on the curve and a signature with nothing after its two integers, the check succeeds exactly if the bytes are
the DER form of a valid signature for the SHA-256 of the data. -/
theorem C82_accepted_iff [Ext] {G Q : curve.Point} {x y : Nat} (hG : IsPoint G gx gy) (hQ : IsPoint Q x y) {data sig : GoString}
    (hm : ∀ r s rest, SigShape sig r s rest → rest = []) :
    ecdsaVerify x y data sig = true ↔ ∃ r s : Nat, SigShape sig r s [] ∧ Valid G Q (unsignedBE (Sha.sha256 data)) r s :=
  ecdsaVerify_iff hG hQ hm

/-- C82: the same with the private key: the accepted signatures are the ones its holder can make. -/
theorem C82_accepted_iff_signed [Ext] {G : curve.Point} {x y d : Nat} (hG : IsPoint G gx gy) (hQ : IsPoint (d • G) x y)
    {data sig : GoString} (hm : ∀ r s rest, SigShape sig r s rest → rest = []) :
    ecdsaVerify x y data sig = true ↔
      ∃ k r s : Nat, SigShape sig r s [] ∧ Signs G d (unsignedBE (Sha.sha256 data)) k r s := by
  rw [C82_accepted_iff hG hQ hm]
  constructor
  · rintro ⟨r, s, h1, h2⟩
    obtain ⟨k, h3⟩ := (valid_iff_signs hG).1 h2
    exact ⟨k, r, s, h1, h3⟩
  · rintro ⟨k, r, s, h1, h2⟩
    exact ⟨r, s, h1, (valid_iff_signs hG).2 ⟨k, h2⟩⟩

/-- C82: whatever the key, bytes that are not a DER sequence beginning with two positive integers are rejected. -/
theorem C82_malformed_rejected [Ext] {x y : Nat} {data sig : GoString}
    (h : ¬ ∃ r s rest, 0 < r ∧ 0 < s ∧ SigShape sig r s rest) : ecdsaVerify x y data sig = false := by
  cases hv : ecdsaVerify x y data sig with
  | false => rfl
  | true => exact absurd (ecdsaVerify_shape hv) h

/-- C82: two numbers below the order have exactly one form as bytes. -/
theorem C82_one_encoding [Ext] {r s : Nat} (hr : r < n) (hs : s < n) :
    ∃ sig, SigShape sig r s [] ∧ ∀ sig', SigShape sig' r s [] → sig' = sig := by
  have hn : n < 2 ^ 256 := by decide +kernel
  obtain ⟨sig, h⟩ := sigShape_exists (r := r) (s := s) (by omega) (by omega)
  exact ⟨sig, h, fun sig' h' => sigShape_bytes (by omega) (by omega) h' h⟩

/-- C82: a signature can be valid, under one key, for at most four digests modulo the order. -/
theorem C82_binds_digest {G Q : curve.Point} (hG : IsPoint G gx gy) (r s : Nat) :
    ∃ L : List Nat, L.length ≤ 4 ∧ ∀ e, Valid G Q e r s → e % n ∈ L := digests_le_four hG Q r s

/-- C82: signatures are not unique: beside `(r, s)`, the pair `(r, n - s)` is valid, and it is another one. -/
theorem C82_second_signature {G Q : curve.Point} (hG : IsPoint G gx gy) {e r s : Nat} (h : Valid G Q e r s) :
    Valid G Q e r (n - s) ∧ n - s ≠ s := by
  refine ⟨valid_neg (base_order hG) (order_all Q) h, ?_⟩
  have hodd : n % 2 = 1 := by decide +kernel
  omega

/-! ## The login -/

/-- All parts of a valid assertion except the signature check: the registered key has the coordinates `x` and `y`, and the
signature `sig` is over `data`. -/
def AssertionParts [Ext] (params : List (GoString × GoString)) (challenge : GoString) (r : AuthenticateRequest) (x y : Nat)
    (data sig : GoString) : Prop :=
  ∃ (xs ys clientBytes authBytes : GoString) (cd : ClientData),
    params.lookup (gs! "key_type") = some (gs! "ec2") ∧ params.lookup (gs! "key_algo") = some (gs! "es256") ∧
    params.lookup (gs! "curve_xcoord") = some xs ∧ IsCoord xs x ∧
    params.lookup (gs! "curve_ycoord") = some ys ∧ IsCoord ys y ∧
    trimSpace r.clientDataEncoded ≠ [] ∧ b64Decode r.clientDataEncoded = some clientBytes ∧
    unmarshal clientDataFields ClientData.zero clientBytes = .ok cd ∧
    cd.type = gs! "webauthn.get" ∧ cd.crossOrigin = false ∧ cd.challenge = challenge ∧
    trimSpace r.authDataEncoded ≠ [] ∧ b64Decode r.authDataEncoded = some authBytes ∧ 37 ≤ authBytes.length ∧
    (authBytes.take 32).flatMap (fun b => [hexDigit (b.toNat / 16), hexDigit (b.toNat % 16)]) =
      (params.lookup (gs! "rp_id_hash")).getD [] ∧
    (authBytes.getD 32 0).toNat.testBit 0 = true ∧
    trimSpace r.signatureEncoded ≠ [] ∧ b64Decode r.signatureEncoded = some sig ∧
    data = authBytes ++ Sha.sha256 clientBytes

theorem validAssertion_iff [Ext] {params : List (GoString × GoString)} {challenge : GoString} {r : AuthenticateRequest} :
    ValidAssertion params challenge r ↔
      ∃ x y data sig, AssertionParts params challenge r x y data sig ∧ ecdsaVerify x y data sig = true := by
  constructor
  · rintro ⟨xs, ys, x, y, cb, ab, sig, cd, h1, h2, h3, h4, h5, h6, h7, h8, h9, h10, h11, h12, h13, h14, h15, h16, h17, h18, h19, h20⟩
    exact ⟨x, y, _, sig, ⟨xs, ys, cb, ab, cd, h1, h2, h3, h4, h5, h6, h7, h8, h9, h10, h11, h12, h13, h14, h15, h16, h17, h18, h19, rfl⟩, h20⟩
  · rintro ⟨x, y, _, sig, ⟨xs, ys, cb, ab, cd, h1, h2, h3, h4, h5, h6, h7, h8, h9, h10, h11, h12, h13, h14, h15, h16, h17, h18, h19, rfl⟩, h20⟩
    exact ⟨xs, ys, x, y, cb, ab, sig, cd, h1, h2, h3, h4, h5, h6, h7, h8, h9, h10, h11, h12, h13, h14, h15, h16, h17, h18, h19, h20⟩

theorem assertionParts_unique [Ext] {params : List (GoString × GoString)} {challenge : GoString} {r : AuthenticateRequest}
    {x y x' y' : Nat} {data sig data' sig' : GoString} (h : AssertionParts params challenge r x y data sig)
    (h' : AssertionParts params challenge r x' y' data' sig') : x = x' ∧ y = y' ∧ data = data' ∧ sig = sig' := by
  obtain ⟨xs, ys, cb, ab, cd, -, -, h3, ⟨xb, hx1, -, rfl⟩, h5, ⟨yb, hy1, -, rfl⟩, -, h8, -, -, -, -, -, h14, -, -, -, -, h19, rfl⟩ := h
  obtain ⟨xs', ys', cb', ab', cd', -, -, g3, ⟨xb', gx1, -, rfl⟩, g5, ⟨yb', gy1, -, rfl⟩, -, g8, -, -, -, -, -, g14, -, -, -, -, g19, rfl⟩ := h'
  rw [h3] at g3; cases g3
  rw [h5] at g5; cases g5
  rw [hx1] at gx1; cases gx1
  rw [hy1] at gy1; cases gy1
  rw [h8] at g8; cases g8
  rw [h14] at g14; cases g14
  rw [h19] at g19; cases g19
  exact ⟨rfl, rfl, rfl, rfl⟩

/-- C82: a WebAuthn login with a key on the curve succeeds exactly if its signature is one that the holder of the private key can
make for this authenticator data and client data. -/
theorem C82_login_iff_signed [Ext] {db : Database} (h : Reach Opened db) (nd : Nondet) (fs : FS) (req : Request)
    (hpw : req.user.password = []) (hw : req.webAuthn.request ≠ [])
    {u : User} (hu : u ∈ db.users) (hd : Denotes req.user.username u)
    {r : AuthenticateRequest} (hr : IsAuthRequest req.webAuthn.request r)
    {pre post : List MfaToken} {t : MfaToken} (ht : u.mfaTokens = pre ++ t :: post) (hpre : ∀ t' ∈ pre, ¬ IsCandidate t' r.id)
    (hc : IsCandidate t r.id) {x y : Nat} {data sig : GoString}
    (hp : AssertionParts t.parameters req.webAuthn.challenge r x y data sig)
    {G : curve.Point} (hG : IsPoint G gx gy) {d : Nat} (hQ : IsPoint (d • G) x y)
    (hm : ∀ r s rest, SigShape sig r s rest → rest = []) :
    (exec .authenticateUser nd db fs req).Succeeded ↔
      ∃ k r s : Nat, SigShape sig r s [] ∧ Signs G d (unsignedBE (Sha.sha256 data)) k r s := by
  rw [← C82_accepted_iff_signed hG hQ hm, (C33_webauthn_authentication h nd fs req hpw hw).1]
  constructor
  · rintro ⟨u', hu', hd', r', ⟨doc, hdoc, hdoc'⟩, pre', t', post', ht', hpre', hc', hv⟩
    obtain ⟨doc2, hd1, hd2⟩ := hr
    rw [hdoc] at hd1; cases hd1
    rw [hdoc'] at hd2; cases hd2
    have huu : u' = u := by
      obtain ⟨i, hi⟩ := List.getElem?_of_mem hu
      obtain ⟨j, hj⟩ := List.getElem?_of_mem hu'
      have e1 := (getUser_iff (reach_inv h)).2 ⟨hi, hd⟩
      have e2 := (getUser_iff (reach_inv h)).2 ⟨hj, hd'⟩
      rw [e1] at e2
      simp only [Option.some.injEq, Prod.mk.injEq] at e2
      exact e2.2.symm
    subst huu
    have htt : t' = t := by
      rw [ht] at ht'
      rcases List.append_eq_append_iff.1 ht' with ⟨l, hl1, hl2⟩ | ⟨l, hl1, hl2⟩
      · cases l with
        | nil => simp at hl2; exact hl2.1.symm
        | cons a l =>
          simp only [List.cons_append, List.cons.injEq] at hl2
          exact absurd hc (hpre' t (by rw [hl1, hl2.1]; simp))
      · cases l with
        | nil => simp at hl2; exact hl2.1
        | cons a l =>
          simp only [List.cons_append, List.cons.injEq] at hl2
          exact absurd hc' (hpre t' (by rw [hl1, hl2.1]; simp))
    subst htt
    obtain ⟨x', y', data', sig', hp', hver⟩ := validAssertion_iff.1 hv
    obtain ⟨rfl, rfl, rfl, rfl⟩ := assertionParts_unique hp hp'
    exact hver
  · intro hver
    exact ⟨u, hu, hd, r, hr, pre, t, post, ht, hpre, hc, validAssertion_iff.2 ⟨x, y, data, sig, hp, hver⟩⟩

/-- C82: a successful WebAuthn login can be replayed: the same request succeeds again, at any time and on any later database in
which the user still has the same tokens.  The signature counter of the authenticator data is compared with nothing. -/
theorem C82_replay [Ext] {db db' : Database} (h : Reach Opened db) (h' : Reach Opened db') (nd nd' : Nondet) (fs fs' : FS)
    (req : Request) (hpw : req.user.password = []) (hw : req.webAuthn.request ≠ [])
    (hs : (exec .authenticateUser nd db fs req).Succeeded)
    (hsame : ∀ u ∈ db.users, Denotes req.user.username u →
      ∃ u' ∈ db'.users, Denotes req.user.username u' ∧ u'.mfaTokens = u.mfaTokens) :
    (exec .authenticateUser nd' db' fs' req).Succeeded := by
  obtain ⟨u, hu, hd, r, hr, pre, t, post, ht, hpre, hc, hv⟩ := (C33_webauthn_authentication h nd fs req hpw hw).1.1 hs
  obtain ⟨u', hu', hd', he⟩ := hsame u hu hd
  exact (C33_webauthn_authentication h' nd' fs' req hpw hw).1.2 ⟨u', hu', hd', r, hr, pre, t, post, by rw [he, ht], hpre, hc, hv⟩

/-- C82: whoever sees an accepted assertion can make a different one that is accepted too: replace `s` by `n - s`. -/
theorem C82_malleable [Ext] {x y : Nat} {Q : curve.Point} (hQ : IsPoint Q x y) {data sig : GoString}
    (hm : ∀ r s rest, SigShape sig r s rest → rest = []) (h : ecdsaVerify x y data sig = true) :
    ∃ sig', sig' ≠ sig ∧ ecdsaVerify x y data sig' = true := by
  obtain ⟨G, hG⟩ := exists_base
  obtain ⟨r, s, hsig, hv⟩ := (C82_accepted_iff hG hQ hm).1 h
  obtain ⟨hv', hne⟩ := C82_second_signature hG hv
  have hn : n < 2 ^ 256 := by decide +kernel
  obtain ⟨sig', hsig', -⟩ := C82_one_encoding hv'.2.1 hv'.2.2.2.1
  have hl := sigShape_length (by have := hv'.2.1; omega) (by have := hv'.2.2.2.1; omega) hsig'
  refine ⟨sig', ?_, ?_⟩
  · rintro rfl
    have := sigShape_det hl hsig hsig'
    omega
  · exact (C82_accepted_iff hG hQ fun r2 s2 rest h2 => (sigShape_det hl hsig' h2).2.2).2 ⟨r, n - s, hsig', hv'⟩

/-- Registration of a key whose coordinates are both zero. -/
def reqOffCurve : Request :=
  { reqU2F [] with webAuthn := { register := b64Encode (
      gs! "{\"id\":\"cred\",\"type\":\"public-key\",\"attestationObject\":{\"authData\":{\"rpIdHash\":\"ab\",\"flags\":{}," ++
      gs! "\"credentialData\":{\"publicKey\":{\"key_type\":2,\"algorithm\":-7,\"curve_x\":\"" ++ b64Encode (Sha.natBE 32 0) ++
      gs! "\",\"curve_y\":\"" ++ b64Encode (Sha.natBE 32 0) ++ gs! "\"}}}}}"), challenge := gs! "registration challenge" } }

/-- C82: registration does not check that the key is a point of the curve: a key that is not can be registered. -/
theorem C82_key_not_checked :
    Reach Opened db2 ∧ (exec .addMfaToken nd db2 fs3 reqOffCurve).Succeeded ∧
    ∃ u ∈ (exec .addMfaToken nd db2 fs3 reqOffCurve).db.users, ∃ t ∈ u.mfaTokens,
      derivePublicKey t.parameters = .ok (0, 0) ∧ ¬ ∃ Q, IsPoint Q 0 0 := by
  refine ⟨db2_reachO, by unfold Result.Succeeded; decide +kernel, ?_⟩
  have hoff : ¬ ∃ Q, IsPoint Q 0 0 := by
    rw [← onCurve_iff]; decide +kernel
  have key : ((exec .addMfaToken nd db2 fs3 reqOffCurve).db.users.any fun u => u.mfaTokens.any fun t =>
      match derivePublicKey t.parameters with | .ok (0, 0) => true | _ => false) = true := by decide +kernel
  obtain ⟨u, hu, hu2⟩ := List.any_eq_true.1 key
  obtain ⟨t, ht, ht2⟩ := List.any_eq_true.1 hu2
  refine ⟨u, hu, t, ht, ?_, hoff⟩
  split at ht2
  · rename_i h; exact h
  · simp at ht2

/-! ## Cases -/

/-- The key pair of RFC 6979, A.2.5, is one. -/
theorem sample_isPoint {G : curve.Point} (hG : IsPoint G gx gy) : IsPoint (sampleKey • G) sampleX sampleY :=
  isPoint_mul hG (by decide +kernel) (by decide +kernel) (by decide +kernel) (by decide +kernel)

/-- The secret number, and the signature, of RFC 6979, A.2.5, for SHA-256 and the message `sample`. -/
def sampleK : Nat := 0xa6e3c57dd01abe90086538398355dd4c3b17aa873382b0f24d6129493d8aad60
def sampleR : Nat := 0xefd48b2aacb6a8fd1140dd9cd45e81d69d2c877b56aaf991c34d0ea84eaf3716
def sampleS : Nat := 0xf7cb1c942d657c41d436c7a1b6e29f65f3e900dbb9aff4064dc4ab2f843acda8

theorem sample_signs {G : curve.Point} (hG : IsPoint G gx gy) :
    Signs G sampleKey (unsignedBE (Sha.sha256 (gs! "sample"))) sampleK sampleR sampleS :=
  ⟨sampleR, 0x34a7e72c423213443152c82df94fe0f6851bf894fd91c64b19555346093ff492,
    isPoint_mul hG (by decide +kernel) (by decide +kernel) (by decide +kernel) (by decide +kernel),
    by decide +kernel, by decide +kernel, by decide +kernel, by decide +kernel, by decide +kernel⟩

-- Both the published signature and its twin are valid, and neither is for another message.
example : ∃ G : curve.Point, IsPoint G gx gy ∧ Valid G (sampleKey • G) (unsignedBE (Sha.sha256 (gs! "sample"))) sampleR sampleS ∧
    Valid G (sampleKey • G) (unsignedBE (Sha.sha256 (gs! "sample"))) sampleR (n - sampleS) ∧
    ¬ Valid G (sampleKey • G) (unsignedBE (Sha.sha256 (gs! "samplf"))) sampleR sampleS := by
  obtain ⟨G, hG⟩ := exists_base
  have hv := (valid_iff_signs hG).2 ⟨_, sample_signs hG⟩
  refine ⟨G, hG, hv, (C82_second_signature hG hv).1, ?_⟩
  rw [← verify_iff hG (sample_isPoint hG) (order_all _)]
  decide +kernel
-- The key pair of the sample, and that of no other private key below 3.
example : ∃ G : curve.Point, IsPoint G gx gy ∧ IsPoint (sampleKey • G) sampleX sampleY ∧ ¬ IsPoint (1 • G) sampleX sampleY := by
  obtain ⟨G, hG⟩ := exists_base
  refine ⟨G, hG, sample_isPoint hG, fun h => ?_⟩
  rw [one_nsmul] at h
  exact absurd (isPoint_coords hG h).1 (by decide +kernel)
-- A signature made by OpenSSL, as it is and with a byte changed.
example : ecdsaVerify 0x96530deea6842cc43054dfc7dd11a5fc0002936b87c9e5565989227ff19a7292
    0x8a9b5b4336beb023b31da26c0427d0faa1886ac4ddb624ecf0ba8471661f298 (gs! "a message")
    (Sha.natBE 71 0x3045022074fc662151e7c00ef5f72de861dd94090b11c99b4a9cdc36cf214397c350746a022100f702d8342fa73aed9bf42e093d0c74f56fc78c5f55b321c93eae0d0822fe73ce) = true ∧
    ecdsaVerify 0x96530deea6842cc43054dfc7dd11a5fc0002936b87c9e5565989227ff19a7292
    0x8a9b5b4336beb023b31da26c0427d0faa1886ac4ddb624ecf0ba8471661f298 (gs! "a message")
    (Sha.natBE 71 (0x3045022074fc662151e7c00ef5f72de861dd94090b11c99b4a9cdc36cf214397c350746a022100f702d8342fa73aed9bf42e093d0c74f56fc78c5f55b321c93eae0d0822fe73ce + 1)) = false := by
  decide +kernel
/-- In the toy world nothing odd is accepted. -/
theorem toy_verified {x y : Nat} {data sig : GoString} (h : ecdsaVerify x y data sig = true) :
    ∃ Q, IsPoint Q x y ∧ ∀ r s rest, SigShape sig r s rest → rest = [] := by
  have h0 := h
  rw [ecdsaVerify] at h
  split at h
  · simp at h
  · rename_i r s m hp
    split at h
    · simp at h
    · split at h
      · exact absurd h (by simp [Ext.ecdsaOdd])
      · rename_i hrs hno
        simp only [Bool.or_eq_true, Bool.not_eq_true', not_or, Bool.not_eq_true, Bool.not_eq_false] at hno
        obtain ⟨Q, hQ⟩ := (onCurve_iff x y).1 hno.2
        refine ⟨Q, hQ, ?_⟩
        obtain ⟨G, hG⟩ := exists_base
        rw [verify_iff hG hQ (order_all Q)] at h
        obtain ⟨rest, hsh, hm⟩ := sigShape_of_parse hp
        rw [hm.1 hno.1] at hsh
        have hn : n < 2 ^ 256 := by decide +kernel
        have hsh' : SigShape sig (r.toNat : Int) (s.toNat : Int) [] := by
          rwa [Int.toNat_of_nonneg (by omega), Int.toNat_of_nonneg (by omega)]
        have hl := sigShape_length (by have := h.2.1; omega) (by have := h.2.2.2.1; omega) hsh'
        exact fun r2 s2 rest2 h2 => (sigShape_det hl hsh' h2).2.2

-- The hypotheses of the login theorem hold of a registered key and a login with it.
example : ∃ u ∈ dbU2F.users, Denotes (gs! "joe") u ∧ ∃ r pre t post x y data sig, ∃ (d : Nat) (G : curve.Point),
    IsAuthRequest (reqAssert (gs! "abc") toySig (gs! "abc")).webAuthn.request r ∧
    u.mfaTokens = pre ++ t :: post ∧ (∀ t' ∈ pre, ¬ IsCandidate t' r.id) ∧ IsCandidate t r.id ∧
    AssertionParts t.parameters (gs! "abc") r x y data sig ∧ IsPoint G gx gy ∧ IsPoint (d • G) x y ∧
    (∀ r s rest, SigShape sig r s rest → rest = []) := by
  have hs : (exec .authenticateUser nd dbU2F fs3 (reqAssert (gs! "abc") toySig (gs! "abc"))).Succeeded := by
    unfold Result.Succeeded; decide +kernel
  obtain ⟨u, hu, hd, r, hr, pre, t, post, ht, hpre, hc, hv⟩ :=
    (C33_webauthn_authentication dbU2F_reach nd fs3 (reqAssert (gs! "abc") toySig (gs! "abc")) rfl (by decide +kernel)).1.1 hs
  obtain ⟨x, y, data, sig, hp, hver⟩ := validAssertion_iff.1 hv
  obtain ⟨G, hG⟩ := exists_base
  obtain ⟨Q, hQ, hstrict⟩ := toy_verified hver
  obtain ⟨d, -, rfl⟩ := exists_dlog hG Q
  exact ⟨u, hu, hd, r, pre, t, post, x, y, data, sig, d, G, hr, ht, hpre, hc, hp, hG, hQ, hstrict⟩

end GoIdentity
