import Verif.Lemmas.Refusals4
/-!
# The tables of checks: tokens
-/
set_option linter.unusedSectionVars false
namespace GoIdentity
variable [Ext]

theorem tryCodes_err {secret algo code : GoString} {digits : Int} {l : List Nat} {e : GoErr}
    (h : tryCodes secret algo digits code l = .err e) : e = .withV .mfaTokenInvalidPasscode [gs! "failed"] [] := by
  induction l with
  | nil => simp only [tryCodes, Res.err.injEq] at h; exact h.symm
  | cons t ts ih =>
    unfold tryCodes at h
    split at h
    · exact ih h
    · simp at h
    · split at h
      · simp at h
      · exact ih h

theorem enrol_spec {nd : Nondet} {req : Request} (ht : req.mfaToken.type = gs! "totp") (h0 : 600 ≤ nd.unix)
    (hmax : nd.unix < 2 ^ 63) (w : GoErr → GoErr) :
    Phase w (fun t => t.secret = req.mfaToken.secret ∧ t.comment = req.mfaToken.comment)
      (Checks.enrol nd req.mfaToken w) (newMfaToken nd req).1 := by
  have hC := fun t => C31_enrolment ht h0 hmax (t := t)
  have hnew : (newMfaToken nd req).1 = (newTotp nd
      { MfaToken.zero with
        id := getRandomString nd.seedRand 0 40, createdAt := nd.now 0, comment := req.mfaToken.comment
        type := req.mfaToken.type, disabled := req.mfaToken.disabled
        disabledAt := if req.mfaToken.disabled then nd.now 1 else .zero } req.mfaToken).1 := by
    unfold newMfaToken
    dsimp only
    rw [if_pos ht]
  generalize hp : ({ MfaToken.zero with
        id := getRandomString nd.seedRand 0 40, createdAt := nd.now 0, comment := req.mfaToken.comment
        type := req.mfaToken.type, disabled := req.mfaToken.disabled
        disabledAt := if req.mfaToken.disabled then nd.now 1 else .zero } : MfaToken) = p at hnew
  have hpc : p.comment = req.mfaToken.comment := by rw [← hp]
  rw [hnew] at hC ⊢
  generalize req.mfaToken = m at *
  unfold Checks.enrol
  dsimp only
  by_cases hA : toLower m.algorithm ∈ [gs! "sha1", gs! "sha256", gs! "sha512", []]
  case neg =>
    have he : (newTotp nd p m).1 = .err (.withV .mfaTokenInvalidAlgorithm [toLower m.algorithm] []) := by
      simp only [List.mem_cons, List.not_mem_nil, or_false, not_or] at hA
      unfold newTotp
      dsimp only
      rw [if_neg (by rintro (h | h | h) <;> simp [h] at hA), if_neg hA.2.2.2]
    rw [he]
    exact Decides.yesr ⟨ht, hA⟩
  refine .nor (fun hc => hc.2 hA) ?_
  have hopt : ∃ alg h, AlgNamed alg h ∧ (if toLower m.algorithm = gs! "sha1" ∨ toLower m.algorithm = gs! "sha256" ∨
      toLower m.algorithm = gs! "sha512" then some (toLower m.algorithm)
      else if toLower m.algorithm = [] then some (gs! "sha1") else none) = some alg := by
    simp only [List.mem_cons, List.not_mem_nil, or_false] at hA
    rcases hA with hA | hA | hA | hA
    · exact ⟨_, .sha1, .inl ⟨rfl, rfl⟩, by rw [hA]; rfl⟩
    · exact ⟨_, .sha256, .inr (.inl ⟨rfl, rfl⟩), by rw [hA]; rfl⟩
    · exact ⟨_, .sha512, .inr (.inr ⟨rfl, rfl⟩), by rw [hA]; rfl⟩
    · exact ⟨_, .sha1, .inl ⟨rfl, rfl⟩, by rw [hA]; rfl⟩
  obtain ⟨alg, h, hn, hopt⟩ := hopt
  generalize hdg : (if m.digits = 0 then (6 : Int) else m.digits) = digits at *
  have heq : (newTotp nd p m).1 =
      if m.period < 30 ∨ 300 < m.period then .err (.withV .mfaTokenInvalidPeriod [] [m.period])
      else if digits < 4 ∨ 8 < digits then .err (.withV .mfaTokenInvalidDigits [] [digits])
      else match validateCodeWithTime { p with secret := m.secret, algorithm := alg, period := m.period, digits := digits }
            m.passcode (nd.unix - m.period) with
        | .ok _ => .ok { p with secret := m.secret, algorithm := alg, period := m.period, digits := digits }
        | .err e => .err e
        | .panic => .panic := by
    unfold newTotp
    dsimp only
    rw [hopt]
    dsimp only
    rw [hdg]
    split
    · rfl
    split
    · rfl
    cases validateCodeWithTime { p with secret := m.secret, algorithm := alg, period := m.period, digits := digits }
      m.passcode (nd.unix - m.period) <;> rfl
  by_cases h1 : m.period < 30 ∨ 300 < m.period
  · rw [heq, if_pos h1]; exact Decides.yesr ⟨ht, h1⟩
  rw [if_neg h1] at heq
  refine .nor (fun hc => h1 hc.2) ?_
  by_cases h2 : digits < 4 ∨ 8 < digits
  · rw [heq, if_pos h2]; exact Decides.yesr ⟨ht, h2⟩
  rw [if_neg h2] at heq
  refine .nor (fun hc => h2 hc.2) ?_
  have hvs := (validate_spec (p := { p with secret := m.secret, algorithm := alg, period := m.period, digits := digits })
    hn m.passcode (nd.unix - m.period)).2
  have hval : validateCodeWithTime { p with secret := m.secret, algorithm := alg, period := m.period, digits := digits }
      m.passcode (nd.unix - m.period) =
      if trimSpace m.passcode = [] then .err (.withV .mfaTokenInvalidPasscode [gs! "empty"] [])
      else if (trimSpace m.passcode).length < 4 ∨ 8 < (trimSpace m.passcode).length then
        .err (.withV .mfaTokenInvalidPasscode [gs! "not 4-8 characters long"] [])
      else if ((trimSpace m.passcode).length : Int) ≠ digits then
        .err (.withV .mfaTokenInvalidPasscode [gs! "digits length mismatch"] [])
      else tryCodes m.secret alg digits (trimSpace m.passcode)
        [timeStep (nd.unix - m.period) m.period % 2 ^ 64, (timeStep (nd.unix - m.period) m.period % 2 ^ 64 + 1) % 2 ^ 64,
          (timeStep (nd.unix - m.period) m.period % 2 ^ 64 + (2 ^ 64 - 1)) % 2 ^ 64] := rfl
  by_cases h3 : trimSpace m.passcode = []
  · rw [if_pos h3] at hval
    rw [heq, hval]
    exact Decides.yesr ⟨ht, trimSpace_nil_iff.1 h3⟩
  rw [if_neg h3] at hval
  refine .nor (fun hc => h3 (trimSpace_nil_iff.2 hc.2)) ?_
  by_cases h4 : (trimSpace m.passcode).length < 4 ∨ 8 < (trimSpace m.passcode).length
  · rw [if_pos h4] at hval
    rw [heq, hval]
    exact Decides.yesr ⟨ht, h4⟩
  rw [if_neg h4] at hval
  refine .nor (fun hc => h4 hc.2) ?_
  by_cases h5 : ((trimSpace m.passcode).length : Int) = digits
  case neg =>
    rw [if_pos h5] at hval
    rw [heq, hval]
    exact Decides.yesr ⟨ht, h5⟩
  rw [if_neg (fun hc => hc h5)] at hval
  refine .nor (fun hc => hc.2 h5) ?_
  cases hv : validateCodeWithTime { p with secret := m.secret, algorithm := alg, period := m.period, digits := digits }
      m.passcode (nd.unix - m.period) with
  | panic => exact absurd hv hvs
  | ok x =>
    rw [hv] at heq
    rw [heq]
    refine ⟨⟨rfl, hpc⟩, .refuse ?_ .nil⟩
    rintro ⟨_, hc⟩
    apply hc
    obtain ⟨alg', h', d, k1, k2, _, _, k3, _, _, k4, _⟩ := (hC _).1 heq
    refine ⟨alg', h', k1, k2, ?_⟩
    rw [← k3]
    simpa using k4
  | err e =>
    rw [hv] at heq
    rw [heq]
    have : e = .withV .mfaTokenInvalidPasscode [gs! "failed"] [] := by
      rw [hval] at hv
      exact tryCodes_err hv
    subst this
    refine Decides.yesr ⟨ht, ?_⟩
    rintro ⟨alg', h', k1, k2, k4⟩
    have := (hC _).2 ⟨alg', h', digits.toNat, k1, k2, by omega, by omega, by omega, by omega, by omega, k4, rfl⟩
    rw [heq] at this
    simp at this

theorem enrol_other {nd : Nondet} {m : ReqMfaToken} (ht : m.type ≠ gs! "totp") (w : GoErr → GoErr) :
    Passes (Checks.enrol nd m w) := by
  unfold Checks.enrol
  exact .refuse (fun h => ht h.1) (.refuse (fun h => ht h.1) (.refuse (fun h => ht h.1) (.refuse (fun h => ht h.1)
    (.refuse (fun h => ht h.1) (.refuse (fun h => ht h.1) (.refuse (fun h => ht h.1) .nil))))))

/-! ## Registrations -/

section
variable {pk : (List (GoString × Json) → Prop) → Prop} {pk0 : List (GoString × Json)} {name : GoString} {n : Int}
  {wrong : GoErr} {v : Json}

theorem member_none (hpk : ∀ P, pk P ↔ P pk0) (hl : pk0.lookup name = none) : Passes (Checks.member pk name n wrong) :=
  .refuse (by rw [hpk, hl]; simp) (.endsIf (by rw [hpk, hl]; simp) .nil)

theorem member_some (hpk : ∀ P, pk P ↔ P pk0) (hl : pk0.lookup name = some v) :
    (∃ l, v = .num l ∧ floatIs l n = true ∧ numberIs v n = .ok true ∧ Passes (Checks.member pk name n wrong)) ∨
    (numberIs v n = .ok false ∧ Decides (Checks.member pk name n wrong) (.fail wrong)) ∨
    (numberIs v n = .panic ∧ Decides (Checks.member pk name n wrong) .panic) := by
  unfold Checks.member
  by_cases hn : ∃ l, v = .num l
  · obtain ⟨l, rfl⟩ := hn
    cases hf : floatIs l n with
    | true =>
      refine .inl ⟨l, rfl, hf, by simp [numberIs, hf], .refuse ?_ (.endsIf ?_ .nil)⟩
      · rw [hpk, hl]; rintro ⟨l', h1, h2⟩; cases h1; rw [hf] at h2; simp at h2
      · rw [hpk, hl]; rintro ⟨v', h1, h2⟩; cases h1; exact h2 l rfl
    | false => exact .inr (.inl ⟨by simp [numberIs, hf], .yesr ((hpk _).2 ⟨l, hl, hf⟩)⟩)
  · refine .inr (.inr ⟨?_, .nor ?_ (.yes ((hpk _).2 ⟨v, hl, fun l hc => hn ⟨l, hc⟩⟩))⟩)
    · cases v with
      | num l => exact absurd ⟨l, rfl⟩ hn
      | _ => rfl
    · rw [hpk, hl]; rintro ⟨l', h1, _⟩; cases h1; exact hn ⟨l', rfl⟩

end

theorem optString_ends (o : Option Json) :
    (optString o = .panic ∧ ∃ v, o = some v ∧ ∀ s, v ≠ .str s) ∨
    ((∃ x, optString o = .ok x) ∧ ¬ ∃ v, o = some v ∧ ∀ s, v ≠ .str s) := by
  cases o with
  | none => exact .inr ⟨⟨_, rfl⟩, by simp⟩
  | some v =>
    cases v with
    | str s => exact .inr ⟨⟨s, rfl⟩, by rintro ⟨v, h1, h2⟩; cases h1; exact h2 s rfl⟩
    | _ => exact .inl ⟨rfl, _, rfl, by simp⟩

theorem cose_spec {pk : (List (GoString × Json) → Prop) → Prop} {pk0 : List (GoString × Json)} (hpk : ∀ P, pk P ↔ P pk0)
    (w : GoErr → GoErr) : Phase w (fun _ => True) (Checks.cose pk w) (checkCoseKey pk0) := by
  unfold Checks.cose checkCoseKey
  simp only [mapGet_eq_lookup, List.append_assoc]
  cases h1 : pk0.lookup (gs! "key_type") with
  | none => exact Decides.yesr ((hpk _).2 h1)
  | some v =>
  refine .nor (by rw [hpk, h1]; simp) ?_
  dsimp only [List.append]
  rcases member_some (n := 2) (wrong := w (.withV .webAuthnRegisterPublicKeyUnsupported [gs! "number"] [])) hpk h1 with
    ⟨l, _, _, e1, p1⟩ | ⟨e1, p1⟩ | ⟨e1, p1⟩
  · rw [e1]
    refine .skip p1 ?_
    dsimp only
    cases h2 : pk0.lookup (gs! "algorithm") with
    | none => exact Decides.yesr ((hpk _).2 h2)
    | some v =>
    refine .nor (by rw [hpk, h2]; simp) ?_
    dsimp only [List.append]
    rcases member_some (n := -7) (wrong := w (.withV .webAuthnRegisterPublicKeyAlgorithmUnsupported [gs! "number"] [])) hpk h2 with
      ⟨l, _, _, e2, p2⟩ | ⟨e2, p2⟩ | ⟨e2, p2⟩
    · rw [e2]
      refine .skip p2 ?_
      dsimp only
      have tail : ∀ curve : GoString, Phase (α := GoString × GoString × GoString) w (fun _ => True)
          [endsIf (pk fun pk => ∃ v, pk.lookup (gs! "curve_x") = some v ∧ ∀ s, v ≠ .str s) .panic,
           endsIf (pk fun pk => ∃ v, pk.lookup (gs! "curve_y") = some v ∧ ∀ s, v ≠ .str s) .panic]
          (match optString (pk0.lookup (gs! "curve_x")) with
            | .panic => .panic
            | .err e => .err e
            | .ok x =>
              match optString (pk0.lookup (gs! "curve_y")) with
              | .panic => .panic
              | .err e => .err e
              | .ok y => .ok (curve, x, y)) := by
        intro curve
        rcases optString_ends (pk0.lookup (gs! "curve_x")) with ⟨x1, x2⟩ | ⟨⟨x, x1⟩, x2⟩
        · rw [x1]; exact Decides.yes ((hpk _).2 x2)
        · rw [x1]
          refine .no (by rw [hpk]; exact x2) ?_
          dsimp only
          rcases optString_ends (pk0.lookup (gs! "curve_y")) with ⟨y1, y2⟩ | ⟨⟨y, y1⟩, y2⟩
          · rw [y1]; exact Decides.yes ((hpk _).2 y2)
          · rw [y1]
            exact .no (by rw [hpk]; exact y2) ⟨trivial, .nil⟩
      cases h3 : pk0.lookup (gs! "curve_type") with
      | none => exact .skip (member_none hpk h3) (tail _)
      | some v =>
        rcases member_some (n := 1) (wrong := w (.withV .webAuthnRegisterPublicKeyCurveUnsupported [gs! "number"] [])) hpk h3 with
          ⟨l, _, _, e3, p3⟩ | ⟨e3, p3⟩ | ⟨e3, p3⟩
        · dsimp only; rw [e3]; exact .skip p3 (tail _)
        · dsimp only; rw [e3]; exact Decides.left p3
        · dsimp only; rw [e3]; exact Decides.left p3
    · rw [e2]; exact Decides.left p2
    · rw [e2]; exact Decides.left p2
  · rw [e1]; exact Decides.left p1
  · rw [e1]; exact Decides.left p1

theorem transports_spec (ts : List GoString) :
    (checkTransports ts = .ok () ∧ ∀ t ∈ ts, t ∈ [gs! "usb", gs! "nfc", gs! "ble", gs! "internal"]) ∨
    ∃ pre tr post, ts = pre ++ tr :: post ∧ (∀ t ∈ pre, t ∈ [gs! "usb", gs! "nfc", gs! "ble", gs! "internal"]) ∧
      tr ∉ [gs! "usb", gs! "nfc", gs! "ble", gs! "internal"] ∧
      checkTransports ts = .err (if tr = [] then .std .webAuthnEmptyRegisterTransport
        else .withV .webAuthnInvalidRegisterTransport [tr] []) := by
  induction ts with
  | nil => exact .inl ⟨rfl, by simp⟩
  | cons t ts ih =>
    by_cases h : t ∈ [gs! "usb", gs! "nfc", gs! "ble", gs! "internal"]
    · have h' : t = gs! "usb" ∨ t = gs! "nfc" ∨ t = gs! "ble" ∨ t = gs! "internal" := by simpa using h
      have he : checkTransports (t :: ts) = checkTransports ts := by
        conv => lhs; unfold checkTransports
        rw [if_pos h']
      rw [he]
      rcases ih with ⟨i1, i2⟩ | ⟨pre, tr, post, i1, i2, i3, i4⟩
      · exact .inl ⟨i1, fun x hx => (List.mem_cons.1 hx).elim (fun e => e ▸ h) (i2 x)⟩
      · exact .inr ⟨t :: pre, tr, post, by rw [i1]; rfl,
          fun x hx => (List.mem_cons.1 hx).elim (fun e => e ▸ h) (i2 x), i3, i4⟩
    · refine .inr ⟨[], t, ts, rfl, by simp, h, ?_⟩
      have h' : ¬ (t = gs! "usb" ∨ t = gs! "nfc" ∨ t = gs! "ble" ∨ t = gs! "internal") := by simpa using h
      unfold checkTransports
      rw [if_neg h']
      split <;> rfl

theorem firstUnknown_unique {known : GoString → Prop} {pre pre' post post' : List GoString} {tr tr' : GoString}
    (h : pre ++ tr :: post = pre' ++ tr' :: post') (h1 : ∀ t ∈ pre, known t) (h2 : ¬ known tr) (h1' : ∀ t ∈ pre', known t)
    (h2' : ¬ known tr') : tr = tr' := by
  induction pre generalizing pre' with
  | nil =>
    cases pre' with
    | nil => simp at h; exact h.1
    | cons a l => simp at h; exact absurd (h.1 ▸ h1' a (by simp)) h2
  | cons a l ih =>
    cases pre' with
    | nil => simp at h; exact absurd (h.1 ▸ h1 a (by simp)) h2'
    | cons b l' =>
      simp only [List.cons_append, List.cons.injEq] at h
      exact ih h.2 (fun t ht => h1 t (by simp [ht])) (fun t ht => h1' t (by simp [ht]))

theorem register_spec {m : ReqMfaToken} (ht : m.type = gs! "u2f") (p : MfaToken) (a : ReqWebAuthn) (w : GoErr → GoErr) :
    Phase w (fun t => t.secret = a.challenge ∧ t.comment = p.comment) (Checks.register m a w) (newU2F p a) := by
  unfold Checks.register newU2F
  dsimp only
  by_cases h1 : a.register = []
  · rw [if_pos h1]; exact Decides.yesr ⟨ht, h1⟩
  rw [if_neg h1]
  refine .nor (fun hc => h1 hc.2) ?_
  by_cases h2 : a.challenge = []
  · rw [if_pos h2]; exact Decides.yesr ⟨ht, h2⟩
  rw [if_neg h2]
  refine .nor (fun hc => h2 hc.2) ?_
  cases h3 : b64Decode a.register with
  | none => exact Decides.yesr ⟨ht, rfl⟩
  | some doc =>
  refine .nor (by simp) ?_
  dsimp only
  cases h4 : unmarshal registerRequestFields RegisterRequest.zero doc with
  | panic => exact absurd h4 (unmarshal_noPanic registerRequest_noPanic _ _)
  | err e => exact Decides.here ⟨ht, doc, e, rfl, h4, rfl⟩
  | ok r =>
  refine .step ?_ ?_
  · rintro o ⟨_, doc', e, k1, k2, _⟩
    cases k1; rw [h4] at k2; simp at k2
  dsimp only
  have hR : ∀ P : RegisterRequest → Prop, (m.type = gs! "u2f" ∧ ∃ r, IsRegistration a.register r ∧ P r) ↔ P r := by
    intro P
    constructor
    · rintro ⟨_, r', ⟨doc', k1, k2⟩, hp⟩
      rw [h3] at k1; cases k1; rw [h4] at k2; cases k2; exact hp
    · intro hp
      exact ⟨ht, r, ⟨doc, h3, h4⟩, hp⟩
  simp only [hR]
  unfold u2fFromRegister
  by_cases h5 : r.id = []
  · rw [if_pos h5]; exact Decides.yesr h5
  rw [if_neg h5]
  refine .nor h5 ?_
  by_cases h6 : r.type = []
  · rw [if_pos h6]; exact Decides.yesr h6
  rw [if_neg h6]
  refine .nor h6 ?_
  by_cases h7 : r.type = gs! "public-key"
  case neg => rw [if_pos h7]; exact Decides.here ⟨h7, rfl⟩
  rw [if_neg (fun hc => hc h7)]
  refine .step (fun o hc => hc.1 h7) ?_
  rcases transports_spec r.transports with ⟨t1, t2⟩ | ⟨pre, tr, post, t1, t2, t3, t4⟩
  case inr => rw [t4]; exact Decides.here ⟨pre, tr, post, t1, t2, t3, rfl⟩
  rw [t1]
  refine .step ?_ ?_
  · rintro o ⟨pre, tr, post, k1, _, k2, _⟩
    exact k2 (t2 tr (by rw [k1]; simp))
  dsimp only
  cases h8 : r.attestationObject with
  | none => exact Decides.yesr rfl
  | some ao =>
  refine .nor (by simp) ?_
  dsimp only
  cases h9 : ao.authData with
  | none => exact Decides.yesr ⟨ao, rfl, h9⟩
  | some ad =>
  refine .nor (by rintro ⟨ao', k1, k2⟩; cases k1; rw [h9] at k2; simp at k2) ?_
  dsimp only
  have hD : ∀ P : AuthData → Prop, (∃ ao' ad, some ao = some ao' ∧ ao'.authData = some ad ∧ P ad) ↔ P ad := by
    intro P
    constructor
    · rintro ⟨_, _, k1, k2, hp⟩
      cases k1; rw [h9] at k2; cases k2; exact hp
    · intro hp
      exact ⟨ao, ad, rfl, h9, hp⟩
  simp only [hD]
  by_cases h10 : ad.relyingPartyID = []
  · rw [if_pos h10]; exact Decides.yesr h10
  rw [if_neg h10]
  refine .nor h10 ?_
  cases h11 : ad.flags with
  | none => exact Decides.yesr rfl
  | some flags =>
  refine .nor (by simp) ?_
  dsimp only
  cases h12 : ad.credentialData with
  | none => exact Decides.yesr rfl
  | some cd =>
  refine .nor (by simp) ?_
  dsimp only
  cases h13 : cd.publicKey with
  | none => exact Decides.yesr ⟨cd, rfl, h13⟩
  | some pk =>
  refine .nor (by rintro ⟨cd', k1, k2⟩; cases k1; rw [h13] at k2; simp at k2) ?_
  dsimp only [List.append]
  have hpk : ∀ P : List (GoString × Json) → Prop, (∃ cd' pk, some cd = some cd' ∧ cd'.publicKey = some pk ∧ P pk) ↔ P pk := by
    intro P
    constructor
    · rintro ⟨_, _, k1, k2, hp⟩
      cases k1; rw [h13] at k2; cases k2; exact hp
    · intro hp
      exact ⟨cd, pk, rfl, h13, hp⟩
  have hc := cose_spec hpk w
  cases hk : checkCoseKey pk with
  | err e => rw [hk] at hc; exact hc
  | panic => rw [hk] at hc; exact hc
  | ok x =>
    rw [hk] at hc
    exact ⟨⟨rfl, rfl⟩, hc.2⟩

theorem register_other {m : ReqMfaToken} (ht : m.type ≠ gs! "u2f") (a : ReqWebAuthn) (w : GoErr → GoErr) :
    Passes (Checks.register m a w) := by
  unfold Checks.register Checks.cose Checks.member
  dsimp only
  intro r hr x hx
  simp only [List.mem_append, List.mem_cons, List.not_mem_nil, or_false] at hr
  rcases hr with hr | hr
  · rcases hr with rfl | rfl | rfl | rfl | rfl | rfl | rfl | rfl | rfl | rfl | rfl | rfl | rfl | rfl
    all_goals first
      | exact ht hx.1
      | exact ht hx.1.1
  · rcases hr with ((((rfl | rfl | rfl) | rfl) | rfl | rfl) | rfl | rfl) | rfl | rfl
    all_goals exact ht hx.1.1

theorem mfaDup_spec (t : MfaToken) (ts : List MfaToken) (w : GoErr → GoErr) (hw : w = .withE .addMfaToken []) :
    (∃ pre k post, ts = pre ++ k :: post ∧ (∀ x ∈ pre, x.secret ≠ t.secret ∧ x.comment ≠ t.comment) ∧
      (k.secret = t.secret ∧ User.checkMfaDup t ts = some (w (.std .duplicateMfaTokenSecret)) ∨
       k.secret ≠ t.secret ∧ k.comment = t.comment ∧ User.checkMfaDup t ts = some (w (.std .duplicateMfaTokenComment)))) ∨
    ((∀ x ∈ ts, x.secret ≠ t.secret ∧ x.comment ≠ t.comment) ∧ User.checkMfaDup t ts = none) := by
  subst hw
  induction ts with
  | nil => exact .inr ⟨by simp, rfl⟩
  | cons k ks ih =>
    unfold User.checkMfaDup
    by_cases h1 : k.secret = t.secret
    · rw [if_pos h1]; exact .inl ⟨[], k, ks, rfl, by simp, .inl ⟨h1, rfl⟩⟩
    rw [if_neg h1]
    by_cases h2 : k.comment = t.comment
    · rw [if_pos h2]; exact .inl ⟨[], k, ks, rfl, by simp, .inr ⟨h1, h2, rfl⟩⟩
    rw [if_neg h2]
    rcases ih with ⟨pre, k', post, i1, i2, i3⟩ | ⟨i1, i2⟩
    · refine .inl ⟨k :: pre, k', post, by rw [i1]; rfl, ?_, i3⟩
      intro x hx
      rcases List.mem_cons.1 hx with rfl | hx
      · exact ⟨h1, h2⟩
      · exact i2 x hx
    · refine .inr ⟨?_, i2⟩
      intro x hx
      rcases List.mem_cons.1 hx with rfl | hx
      · exact ⟨h1, h2⟩
      · exact i1 x hx

/-- Making the token. -/
theorem newToken_spec (nd : Nondet) (req : Request) (h0 : 600 ≤ nd.unix) (hmax : nd.unix < 2 ^ 63) (w : GoErr → GoErr) :
    Phase w (fun t => t.secret = (if req.mfaToken.type = gs! "u2f" then req.webAuthn.challenge else req.mfaToken.secret) ∧
        t.comment = req.mfaToken.comment)
      ([refuse (req.mfaToken.type = []) (w (.std .mfaTokenTypeEmpty)),
        refuse (req.mfaToken.type ≠ gs! "totp" ∧ req.mfaToken.type ≠ gs! "u2f")
          (w (.withV .mfaTokenInvalidType [req.mfaToken.type] []))] ++
       (Checks.enrol nd req.mfaToken w ++ Checks.register req.mfaToken req.webAuthn w)) (newMfaToken nd req).1 := by
  by_cases h1 : req.mfaToken.type = gs! "totp"
  · refine .nor (by rw [h1]; decide) (.nor (fun hc => hc.1 h1) ?_)
    have h2 : req.mfaToken.type ≠ gs! "u2f" := by rw [h1]; decide
    rw [if_neg h2]
    dsimp only [List.append]
    exact .pad (register_other h2 _ _) (enrol_spec h1 h0 hmax w)
  by_cases h2 : req.mfaToken.type = gs! "u2f"
  · refine .nor (by rw [h2]; decide) (.nor (fun hc => hc.2 h2) ?_)
    rw [if_pos h2]
    obtain ⟨p, hn, _, _, hc, _⟩ := newMfaToken_u2f nd h2
    rw [hn, ← hc]
    dsimp only [List.append]
    exact .skip (enrol_other h1 w) (register_spec h2 p req.webAuthn w)
  unfold newMfaToken
  dsimp only
  rw [if_neg h1]
  generalize (if req.mfaToken.type = gs! "u2f" then req.webAuthn.challenge else req.mfaToken.secret) = sec
  rw [if_neg h2]
  by_cases h3 : req.mfaToken.type = []
  · rw [if_pos h3]; exact Decides.yesr h3
  · rw [if_neg h3]; exact Decides.nor h3 (.yesr ⟨h1, h2⟩)

theorem addMfaToken_decides {db : Database} (h : Inv db) (nd : Nondet) (fs : FS) (req : Request) (h0 : 600 ≤ nd.unix)
    (hmax : nd.unix < 2 ^ 63) : Decides (Checks.addMfaToken nd db fs req) (db.addMfaToken nd fs req).out := by
  unfold Checks.addMfaToken Database.addMfaToken
  dsimp only
  rcases identity_spec h req (.withE .addMfaToken []) with ⟨e, h1, h2⟩ | ⟨i, u, h1, ha, h2⟩
  · simp only [List.append_assoc]
    rw [h1]; exact h2.left
  rw [h1]
  have hn := newToken_spec nd req h0 hmax (.withE .addMfaToken [])
  simp only [List.append_assoc] at hn ⊢
  refine h2.then ?_
  unfold User.addMfaToken
  cases hm : newMfaToken nd req with
  | mk x req' =>
    rw [hm] at hn
    rw [← List.append_assoc (Checks.enrol _ _ _), ← List.append_assoc]
    cases x with
    | err e => exact Decides.left hn
    | panic => exact Decides.left hn
    | ok t =>
      obtain ⟨⟨hs, hc⟩, hp⟩ := hn
      refine hp.then ?_
      dsimp only
      rw [← hs, ← hc]
      rcases mfaDup_spec t u.mfaTokens _ rfl with ⟨pre, k, post, i1, i2, i3⟩ | ⟨i1, i2⟩
      · rcases i3 with ⟨j1, j2⟩ | ⟨j1, j2, j3⟩
        · rw [j2]; exact .here ⟨u, pre, k, post, ha, i1, i2, .inl ⟨j1, rfl⟩⟩
        · rw [j3]; exact .here ⟨u, pre, k, post, ha, i1, i2, .inr ⟨j1, j2, rfl⟩⟩
      · rw [i2]
        refine .later ?_ ?_
        · rintro o ⟨v, pre, k, post, hv, k1, _, k2⟩
          have := addressed_unique h ha hv
          subst this
          have hk := i1 k (by rw [k1]; simp)
          rcases k2 with k2 | k2
          · exact hk.1 k2.1
          · exact hk.2 k2.2.1
        · dsimp only
          refine finish_ends ?_ _ _
          rfl

/-- Every call ends as its table says. -/
theorem exec_decides {db : Database} (h : Inv db) (c : Call) (nd : Nondet) (fs : FS) (req : Request) {s : GoString}
    (hkeys : c = .addAPIKey → ReachKeys db ∧ 12 ≤ nd.fuel ∧
      getRandomStringFromRange nd.globalRand nd.seedRand 72 96 = .ok s)
    (htime : c = .addMfaToken → 600 ≤ nd.unix ∧ nd.unix < 2 ^ 63) :
    Decides (c.checks nd db fs req s) (exec c nd db fs req).out := by
  cases c with
  | addUser => exact addUser_decides h nd fs req
  | getUsers => exact reads_decide h nd fs req s (by simp)
  | getUser => exact reads_decide h nd fs req s (by simp)
  | deleteUser => exact reads_decide h nd fs req s (by simp)
  | authenticateUser => exact authenticateUser_decides h fs req
  | save => exact finish_decides nd fs db req id
  | copy fp => exact copy_decides nd db fs req fp
  | addPublicKey => exact addPublicKey_decides h nd fs req
  | getPublicKeys => exact reads_decide h nd fs req s (by simp)
  | deletePublicKey => exact deletePublicKey_decides h nd fs req
  | addAPIKey =>
    obtain ⟨h1, h2, h3⟩ := hkeys rfl
    exact addAPIKey_decides h1 nd fs req h2 h3
  | deleteAPIKey => exact deleteAPIKey_decides h nd fs req
  | getAPIKeys => exact reads_decide h nd fs req s (by simp)
  | changeUserPassword => exact changeUserPassword_decides h nd fs req
  | identifyUser =>
    show Decides Checks.done (db.identifyUser fs req).out
    unfold Database.identifyUser
    split <;> exact decides_done
  | lookupAPIKey => exact lookupAPIKey_decides h nd fs req
  | addMfaToken =>
    obtain ⟨h1, h2⟩ := htime rfl
    exact addMfaToken_decides h nd fs req h1 h2
  | getMfaTokens => exact reads_decide h nd fs req s (by simp)
  | deleteMfaToken => exact deleteMfaToken_decides h nd fs req

end GoIdentity
