import Verif.Spec.WaRefusal
/-!
# Lemmas on the refusal of assertions
-/
namespace GoIdentity
set_option linter.unusedSectionVars false
variable [Ext]

theorem derivePublicKey_err_iff {params : List (GoString × GoString)} {e : GoErr} :
    derivePublicKey params = .err e ↔ NoKey params e := by
  constructor
  · intro h
    unfold derivePublicKey at h
    simp only [mapGet_eq_lookup] at h
    cases hx : params.lookup (gs! "curve_xcoord") with
    | none =>
      rw [hx] at h
      cases hy : params.lookup (gs! "curve_ycoord") <;> cases ha : params.lookup (gs! "key_algo") <;>
        (rw [hy, ha] at h; injection h with h; subst h; exact .noX hx)
    | some x =>
    cases hy : params.lookup (gs! "curve_ycoord") with
    | none =>
      rw [hx, hy] at h
      cases ha : params.lookup (gs! "key_algo") <;> (rw [ha] at h; injection h with h; subst h; exact .noY hx hy)
    | some y =>
    cases ha : params.lookup (gs! "key_algo") with
    | none => rw [hx, hy, ha] at h; injection h with h; subst h; exact .noAlgo hx hy ha
    | some a =>
    rw [hx, hy, ha] at h
    dsimp only at h
    cases hxb : b64Decode x with
    | none => rw [hxb] at h; injection h with h; subst h; exact .xText hx hy ha hxb
    | some xb =>
    rw [hxb] at h
    dsimp only at h
    by_cases hxl : xb.length ≠ 32
    · rw [if_pos hxl] at h; injection h with h; subst h; exact .xLength hx hy ha hxb hxl
    rw [if_neg hxl] at h
    have h32 : Is32 x := ⟨xb, hxb, Decidable.not_not.1 hxl⟩
    cases hyb : b64Decode y with
    | none => rw [hyb] at h; injection h with h; subst h; exact .yText hx hy ha h32 hyb
    | some yb =>
    rw [hyb] at h
    dsimp only at h
    by_cases hyl : yb.length ≠ 32
    · rw [if_pos hyl] at h; injection h with h; subst h; exact .yLength hx hy ha h32 hyb hyl
    rw [if_neg hyl] at h
    by_cases hal : a = gs! "es256"
    · rw [if_pos hal] at h; cases h
    rw [if_neg hal] at h; injection h with h; subst h
    exact .algo hx hy ha h32 ⟨yb, hyb, Decidable.not_not.1 hyl⟩ hal
  · intro h
    unfold derivePublicKey
    simp only [mapGet_eq_lookup]
    cases h with
    | noX hx => simp only [hx]
    | noY hx hy => simp only [hx, hy]
    | noAlgo hx hy ha => simp only [hx, hy, ha]
    | xText hx hy ha hb => simp only [hx, hy, ha, hb]
    | xLength hx hy ha hb hl => simp only [hx, hy, ha, hb]; rw [if_pos hl]
    | yText hx hy ha h32 hb =>
      obtain ⟨xb, hxb, hxl⟩ := h32
      simp only [hx, hy, ha, hb, hxb, hxl, ne_eq, not_true_eq_false, if_false]
    | yLength hx hy ha h32 hb hl =>
      obtain ⟨xb, hxb, hxl⟩ := h32
      simp only [hx, hy, ha, hb, hxb, hxl, ne_eq, not_true_eq_false, if_false]
      rw [if_pos hl]
    | algo hx hy ha h32 h32' hal =>
      obtain ⟨xb, hxb, hxl⟩ := h32
      obtain ⟨yb, hyb, hyl⟩ := h32'
      simp only [hx, hy, ha, hxb, hxl, hyb, hyl, ne_eq, not_true_eq_false, if_false]
      rw [if_neg hal]

theorem up_flag {ab : GoString} {ad : AuthData} (h : AuthDataSays ab ad) :
    (mapGet (gs! "UP") (ad.flags.getD [])).getD false = (ab.getD 32 0).toNat.testBit 0 := by
  obtain ⟨m, hm, _, hfl⟩ := h.flags
  rw [hm, mapGet_eq_lookup, Option.getD_some, hfl 0 (gs! "UP") rfl]
  rfl

theorem webAuthnRequest_refused {t : MfaToken} {payload : GoString} {e : GoErr} (h : webAuthnRequest t payload = .err e) :
    Refused t payload e := by
  unfold webAuthnRequest at h
  simp only [mapGet_eq_lookup (α := GoString)] at h
  by_cases h1 : t.type ≠ gs! "u2f"
  · rw [if_pos h1] at h; injection h with h; subst h; exact .tokenType h1
  rw [if_neg h1] at h
  replace h1 := Decidable.not_not.1 h1
  cases hid : t.parameters.lookup (gs! "u2f_id") with
  | none => rw [hid] at h; injection h with h; subst h; exact .noId h1 hid
  | some id =>
  cases hkt : t.parameters.lookup (gs! "key_type") with
  | none => rw [hid, hkt] at h; injection h with h; subst h; exact .noKeyType h1 hid hkt
  | some kt =>
  rw [hid, hkt] at h
  dsimp only at h
  by_cases h2 : kt ≠ gs! "ec2"
  · rw [if_pos h2] at h; injection h with h; subst h; exact .keyType h1 hid hkt h2
  rw [if_neg h2] at h
  replace h2 := Decidable.not_not.1 h2
  subst h2
  cases hkey : derivePublicKey t.parameters with
  | err e' => rw [hkey] at h; injection h with h; subst h; exact .noKey h1 hid hkt (derivePublicKey_err_iff.1 hkey)
  | panic => exact absurd hkey (derivePublicKey_ne_panic _)
  | ok k =>
  obtain ⟨kx, ky⟩ := k
  rw [hkey] at h
  dsimp only at h
  have hU : Usable t id kx ky := by
    obtain ⟨xs, ys, hx, hy, ha, hxc, hyc⟩ := derivePublicKey_iff.1 hkey
    exact ⟨h1, hid, hkt, ha, xs, ys, hx, hxc, hy, hyc⟩
  cases hdoc : b64Decode payload with
  | none => rw [hdoc] at h; injection h with h; subst h; exact .payloadText hU hdoc
  | some doc =>
  rw [hdoc] at h
  dsimp only at h
  cases hun : unmarshal authenticateRequestFields AuthenticateRequest.zero doc with
  | err e' => rw [hun] at h; injection h with h; subst h; exact .payloadJson hU hdoc hun
  | panic => exact absurd hun (unmarshal_noPanic authenticateRequest_noPanic _ _)
  | ok r =>
  rw [hun] at h
  dsimp only at h
  by_cases h3 : id ≠ r.id
  · rw [if_pos h3] at h; injection h with h; subst h; exact .keyId hU ⟨doc, hdoc, hun⟩ h3
  rw [if_neg h3] at h
  replace h3 := Decidable.not_not.1 h3
  have hA : Asked t payload kx ky r := ⟨h3 ▸ hU, doc, hdoc, hun⟩
  by_cases h4 : trimSpace r.clientDataEncoded = []
  · rw [if_pos h4] at h; injection h with h; subst h; exact .clientEmpty hA h4
  rw [if_neg h4] at h
  cases hcb : b64Decode r.clientDataEncoded with
  | none => rw [hcb] at h; injection h with h; subst h; exact .clientText hA h4 hcb
  | some cb =>
  rw [hcb] at h
  dsimp only at h
  cases hcd : unmarshal clientDataFields ClientData.zero cb with
  | err e' => rw [hcd] at h; injection h with h; subst h; exact .clientJson hA ⟨h4, hcb⟩ hcd
  | panic => exact absurd hcd (unmarshal_noPanic clientData_noPanic _ _)
  | ok cd =>
  rw [hcd] at h
  dsimp only at h
  have hC : HasClient r cb cd := ⟨⟨h4, hcb⟩, hcd⟩
  by_cases h5 : trimSpace r.signatureEncoded = []
  · rw [if_pos h5] at h; injection h with h; subst h; exact .sigEmpty hA hC h5
  rw [if_neg h5] at h
  cases hsig : b64Decode r.signatureEncoded with
  | none => rw [hsig] at h; injection h with h; subst h; exact .sigText hA hC h5 hsig
  | some sig =>
  rw [hsig] at h
  dsimp only at h
  have hS : Carries r.signatureEncoded sig := ⟨h5, hsig⟩
  by_cases h6 : trimSpace r.authDataEncoded = []
  · rw [if_pos h6] at h; injection h with h; subst h; exact .authEmpty hA hC hS h6
  rw [if_neg h6] at h
  cases had : b64Decode r.authDataEncoded with
  | none => rw [had] at h; injection h with h; subst h; exact .authText hA hC hS h6 had
  | some ab =>
  rw [had] at h
  dsimp only at h
  have hB : Carries r.authDataEncoded ab := ⟨h6, had⟩
  cases hadu : unpackAuthData ab with
  | err e' =>
    rw [hadu] at h; injection h with h; subst h
    by_cases hl : ab.length < 37
    · unfold unpackAuthData at hadu
      rw [if_pos hl] at hadu
      injection hadu with hadu
      subst hadu
      exact .authShort hA hC hS hB hl
    · obtain ⟨ad, hok, _⟩ := unpackAuthData_ok (show 37 ≤ ab.length from by omega)
      rw [hok] at hadu
      cases hadu
  | panic => exact absurd hadu (unpackAuthData_ne_panic _)
  | ok ad =>
  rw [hadu] at h
  dsimp only at h
  obtain ⟨hlen, hsays⟩ := AuthDataSays.unpack hadu
  have hP : Parts r cb cd sig ab := ⟨hC, hS, hB, hlen⟩
  by_cases h7 : cd.type ≠ gs! "webauthn.get"
  · rw [if_pos h7] at h; injection h with h; subst h; exact .clientType hA hP h7
  rw [if_neg h7] at h
  replace h7 := Decidable.not_not.1 h7
  by_cases h8 : cd.crossOrigin = true
  · rw [if_pos h8] at h; injection h with h; subst h; exact .crossOrigin hA hP h7 h8
  rw [if_neg h8] at h
  replace h8 : cd.crossOrigin = false := by simpa using h8
  rw [hsays.hash] at h
  by_cases h9 : SameParty t ab
  case neg =>
    have h9' := h9
    unfold SameParty at h9'
    rw [if_pos h9'] at h; injection h with h; subst h; exact .party hA hP h7 h8 h9
  have h9' := h9
  unfold SameParty at h9'
  rw [if_neg (not_not_intro h9')] at h
  rw [up_flag hsays] at h
  by_cases h10 : (ab.getD 32 0).toNat.testBit 0 ≠ true
  · rw [if_pos h10] at h; injection h with h; subst h; exact .present hA hP h7 h8 h9 (by simpa using h10)
  rw [if_neg h10] at h
  replace h10 := Decidable.not_not.1 h10
  rw [hU.2.2.2.1, Option.getD_some, if_pos rfl] at h
  by_cases h12 : ecdsaVerify kx ky (ab ++ Sha.sha256 cb) sig = true
  · rw [if_pos h12] at h; cases h
  rw [if_neg h12] at h; injection h with h; subst h
  exact .signature hA hP h7 h8 h9 h10 (by simpa using h12)

theorem Usable.key {t : MfaToken} {id : GoString} {x y : Nat} (h : Usable t id x y) :
    derivePublicKey t.parameters = .ok (x, y) := by
  obtain ⟨_, _, _, ha, xs, ys, hx, hxc, hy, hyc⟩ := h
  exact derivePublicKey_iff.2 ⟨xs, ys, hx, hy, ha, hxc, hyc⟩

theorem refused_webAuthnRequest {t : MfaToken} {payload : GoString} {e : GoErr} (h : Refused t payload e) :
    webAuthnRequest t payload = .err e := by
  unfold webAuthnRequest waErr
  simp only [mapGet_eq_lookup (α := GoString)]
  cases h with
  | tokenType h => rw [if_pos h]; rfl
  | noId h1 h2 => simp only [h1, h2, ne_eq, not_true_eq_false, if_false]; rfl
  | noKeyType h1 h2 h3 => simp only [h1, h2, h3, ne_eq, not_true_eq_false, if_false]; rfl
  | keyType h1 h2 h3 h4 => simp only [h1, h2, h3, ne_eq, not_true_eq_false, if_false]; rw [if_pos h4]; rfl
  | noKey h1 h2 h3 h4 =>
    simp only [h1, h2, h3, derivePublicKey_err_iff.2 h4, ne_eq, not_true_eq_false, if_false]
  | payloadText hU hd =>
    have hk := hU.key
    obtain ⟨h1, h2, h3, -⟩ := hU
    simp only [h1, h2, h3, hk, hd, ne_eq, not_true_eq_false, if_false]
  | payloadJson hU hd hu =>
    have hk := hU.key
    obtain ⟨h1, h2, h3, -⟩ := hU
    simp only [h1, h2, h3, hk, hd, hu, ne_eq, not_true_eq_false, if_false]
  | keyId hU hr hne =>
    have hk := hU.key
    obtain ⟨h1, h2, h3, -⟩ := hU
    obtain ⟨doc, hd, hu⟩ := hr
    simp only [h1, h2, h3, hk, hd, hu, ne_eq, not_true_eq_false, if_false]
    rw [if_pos hne]
    rfl
  | clientEmpty hA h4 =>
    obtain ⟨hU, doc, hd, hu⟩ := hA
    have hk := hU.key
    obtain ⟨h1, h2, h3, -⟩ := hU
    simp only [h1, h2, h3, hk, hd, hu, h4, ne_eq, not_true_eq_false, if_false, if_true]
    rfl
  | clientText hA h4 hc =>
    obtain ⟨hU, doc, hd, hu⟩ := hA
    have hk := hU.key
    obtain ⟨h1, h2, h3, -⟩ := hU
    simp only [h1, h2, h3, hk, hd, hu, h4, hc, ne_eq, not_true_eq_false, if_false]
    rfl
  | clientJson hA hC hj =>
    obtain ⟨hU, doc, hd, hu⟩ := hA
    have hk := hU.key
    obtain ⟨h1, h2, h3, -⟩ := hU
    obtain ⟨h4, hc⟩ := hC
    simp only [h1, h2, h3, hk, hd, hu, h4, hc, hj, ne_eq, not_true_eq_false, if_false]
    rfl
  | sigEmpty hA hC h5 =>
    obtain ⟨hU, doc, hd, hu⟩ := hA
    have hk := hU.key
    obtain ⟨h1, h2, h3, -⟩ := hU
    obtain ⟨⟨h4, hc⟩, hj⟩ := hC
    simp only [h1, h2, h3, hk, hd, hu, h4, hc, hj, h5, ne_eq, not_true_eq_false, if_false, if_true]
    rfl
  | sigText hA hC h5 hs =>
    obtain ⟨hU, doc, hd, hu⟩ := hA
    have hk := hU.key
    obtain ⟨h1, h2, h3, -⟩ := hU
    obtain ⟨⟨h4, hc⟩, hj⟩ := hC
    simp only [h1, h2, h3, hk, hd, hu, h4, hc, hj, h5, hs, ne_eq, not_true_eq_false, if_false]
    rfl
  | authEmpty hA hC hS h6 =>
    obtain ⟨hU, doc, hd, hu⟩ := hA
    have hk := hU.key
    obtain ⟨h1, h2, h3, -⟩ := hU
    obtain ⟨⟨h4, hc⟩, hj⟩ := hC
    obtain ⟨h5, hs⟩ := hS
    simp only [h1, h2, h3, hk, hd, hu, h4, hc, hj, h5, hs, h6, ne_eq, not_true_eq_false, if_false, if_true]
    rfl
  | authText hA hC hS h6 ha =>
    obtain ⟨hU, doc, hd, hu⟩ := hA
    have hk := hU.key
    obtain ⟨h1, h2, h3, -⟩ := hU
    obtain ⟨⟨h4, hc⟩, hj⟩ := hC
    obtain ⟨h5, hs⟩ := hS
    simp only [h1, h2, h3, hk, hd, hu, h4, hc, hj, h5, hs, h6, ha, ne_eq, not_true_eq_false, if_false]
    rfl
  | authShort hA hC hS hB hl =>
    obtain ⟨hU, doc, hd, hu⟩ := hA
    have hk := hU.key
    obtain ⟨h1, h2, h3, -⟩ := hU
    obtain ⟨⟨h4, hc⟩, hj⟩ := hC
    obtain ⟨h5, hs⟩ := hS
    obtain ⟨h6, ha⟩ := hB
    simp only [h1, h2, h3, hk, hd, hu, h4, hc, hj, h5, hs, h6, ha, ne_eq, not_true_eq_false, if_false]
    unfold unpackAuthData
    rw [if_pos hl]
  | clientType hA hP h7 =>
    obtain ⟨hU, doc, hd, hu⟩ := hA
    have hk := hU.key
    obtain ⟨h1, h2, h3, -⟩ := hU
    obtain ⟨⟨⟨h4, hc⟩, hj⟩, ⟨h5, hs⟩, ⟨h6, ha⟩, hl⟩ := hP
    obtain ⟨ad, hok, hsays⟩ := unpackAuthData_ok hl
    simp only [h1, h2, h3, hk, hd, hu, h4, hc, hj, h5, hs, h6, ha, hok, ne_eq, not_true_eq_false, if_false]
    rw [if_pos h7]
    rfl
  | crossOrigin hA hP h7 h8 =>
    obtain ⟨hU, doc, hd, hu⟩ := hA
    have hk := hU.key
    obtain ⟨h1, h2, h3, -⟩ := hU
    obtain ⟨⟨⟨h4, hc⟩, hj⟩, ⟨h5, hs⟩, ⟨h6, ha⟩, hl⟩ := hP
    obtain ⟨ad, hok, hsays⟩ := unpackAuthData_ok hl
    simp only [h1, h2, h3, hk, hd, hu, h4, hc, hj, h5, hs, h6, ha, hok, h7, h8, ne_eq, not_true_eq_false, if_false, if_true]
    rfl
  | party hA hP h7 h8 h9 =>
    obtain ⟨hU, doc, hd, hu⟩ := hA
    have hk := hU.key
    obtain ⟨h1, h2, h3, -⟩ := hU
    obtain ⟨⟨⟨h4, hc⟩, hj⟩, ⟨h5, hs⟩, ⟨h6, ha⟩, hl⟩ := hP
    obtain ⟨ad, hok, hsays⟩ := unpackAuthData_ok hl
    unfold SameParty at h9
    simp only [h1, h2, h3, hk, hd, hu, h4, hc, hj, h5, hs, h6, ha, hok, h7, h8, hsays.hash, ne_eq, not_true_eq_false,
      if_false, Bool.false_eq_true]
    rw [if_pos h9]
    rfl
  | present hA hP h7 h8 h9 h10 =>
    obtain ⟨hU, doc, hd, hu⟩ := hA
    have hk := hU.key
    obtain ⟨h1, h2, h3, -⟩ := hU
    obtain ⟨⟨⟨h4, hc⟩, hj⟩, ⟨h5, hs⟩, ⟨h6, ha⟩, hl⟩ := hP
    obtain ⟨ad, hok, hsays⟩ := unpackAuthData_ok hl
    unfold SameParty at h9
    simp only [h1, h2, h3, hk, hd, hu, h4, hc, hj, h5, hs, h6, ha, hok, h7, h8, hsays.hash, up_flag hsays, h9, h10, ne_eq,
      not_true_eq_false, if_false, Bool.false_eq_true, not_false_eq_true, if_true]
    rfl
  | signature hA hP h7 h8 h9 h10 h11 =>
    obtain ⟨hU, doc, hd, hu⟩ := hA
    have hk := hU.key
    obtain ⟨h1, h2, h3, hal, -⟩ := hU
    obtain ⟨⟨⟨h4, hc⟩, hj⟩, ⟨h5, hs⟩, ⟨h6, ha⟩, hl⟩ := hP
    obtain ⟨ad, hok, hsays⟩ := unpackAuthData_ok hl
    unfold SameParty at h9
    simp only [h1, h2, h3, hk, hd, hu, h4, hc, hj, h5, hs, h6, ha, hok, h7, h8, hsays.hash, up_flag hsays, h9, h10, h11, hal,
      Option.getD_some, ne_eq, not_true_eq_false, if_false, Bool.false_eq_true, if_true]

theorem webAuthnRequest_returned {t : MfaToken} {payload : GoString} {resp : AuthenticateRequest}
    (h : Returned t payload resp) : webAuthnRequest t payload = .ok resp := by
  obtain ⟨x, y, r, cb, cd, sig, ab, ad, hA, hP, h7, h8, h9, h10, h11, hok, rfl⟩ := h
  unfold webAuthnRequest waErr
  simp only [mapGet_eq_lookup (α := GoString)]
  obtain ⟨hU, doc, hd, hu⟩ := hA
  have hk := hU.key
  obtain ⟨h1, h2, h3, hal, -⟩ := hU
  obtain ⟨⟨⟨h4, hc⟩, hj⟩, ⟨h5, hs⟩, ⟨h6, ha⟩, hl⟩ := hP
  obtain ⟨-, hsays⟩ := AuthDataSays.unpack hok
  unfold SameParty at h9
  simp only [h1, h2, h3, hk, hd, hu, h4, hc, hj, h5, hs, h6, ha, hok, h7, h8, hsays.hash, up_flag hsays, h9, h10, h11, hal,
    Option.getD_some, ne_eq, not_true_eq_false, if_false, Bool.false_eq_true, if_true]

/-- An assertion that is accepted passes every check. -/
theorem returned_of_not_refused {t : MfaToken} {payload : GoString} (h : ∀ e, ¬ Refused t payload e) :
    ∃ resp, Returned t payload resp := by
  obtain ⟨hnp, hok⟩ := webAuthnRequest_inv t payload
  cases hw : webAuthnRequest t payload with
  | panic => exact absurd hw hnp
  | err e => exact absurd (webAuthnRequest_refused hw) (h e)
  | ok resp =>
  obtain ⟨doc, r, cd', hdoc, hun, -, xs, ys, x, y, cb, ab, sig, cd, hkt, hka, hx, hxc, hy, hyc, h4, hcb, hcd, h7, h8, -, h6, had, hlen,
    hsp, hup, h5, hsig, hver⟩ := hok resp hw
  have h1 : t.type = gs! "u2f" := by
    by_cases h1 : t.type = gs! "u2f"
    · exact h1
    · exact absurd (.tokenType h1) (h _)
  cases hid : t.parameters.lookup (gs! "u2f_id") with
  | none => exact absurd (.noId h1 hid) (h _)
  | some id =>
  have hU : Usable t id x y := ⟨h1, hid, hkt, hka, xs, ys, hx, hxc, hy, hyc⟩
  have h3 : id = r.id := by
    by_cases h3 : id = r.id
    · exact h3
    · exact absurd (.keyId hU ⟨doc, hdoc, hun⟩ h3) (h _)
  subst h3
  obtain ⟨ad, hadu, -⟩ := unpackAuthData_ok hlen
  exact ⟨_, x, y, r, cb, cd, sig, ab, ad, ⟨hU, doc, hdoc, hun⟩, ⟨⟨⟨h4, hcb⟩, hcd⟩, ⟨h5, hsig⟩, ⟨h6, had⟩, hlen⟩, h7, h8, hsp, hup,
    hver, hadu, rfl⟩

theorem webAuthnRequest_ok_iff {t : MfaToken} {payload : GoString} {resp : AuthenticateRequest} :
    webAuthnRequest t payload = .ok resp ↔ Returned t payload resp := by
  refine ⟨fun h => ?_, webAuthnRequest_returned⟩
  obtain ⟨resp', h'⟩ := returned_of_not_refused (t := t) (payload := payload) (fun e he => by
    rw [refused_webAuthnRequest he] at h
    cases h)
  have := webAuthnRequest_returned h'
  rw [h] at this
  injection this with this
  exact this ▸ h'

end GoIdentity
