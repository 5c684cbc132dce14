import Verif.Lemmas.Totp
/-!
# One-time passcodes: C29–C31
-/
namespace GoIdentity
open Toy

/-! ## C29 -/

/-- C29: for every secret, 64-bit counter, supported algorithm and digit count from 4 to 8 there is a code, it is the one of
RFC 4226 (`IsOtp`), and nothing panics. -/
theorem C29_code [Ext] {algo : GoString} {h : HashAlg} (ha : AlgNamed algo h) (secret : GoString)
    {digits ts : Nat} (hd : 4 ≤ digits ∧ digits ≤ 8) (hts : ts < 2 ^ 64) :
    ∃ code, generateMfaCode secret algo digits ts = .ok code ∧ IsOtp h secret digits ts code :=
  generate_spec ha (by omega) hts

/-- C29: there is only one such code. -/
theorem C29_code_unique [Ext] {h : HashAlg} {secret : GoString} {digits counter : Nat} {c c' : GoString}
    (h1 : IsOtp h secret digits counter c) (h2 : IsOtp h secret digits counter c') : c = c' := h1.unique h2

/-- C29: the numbers involved fit the Go types: the truncated value is below 2^31, the divisor at most 10^8. -/
theorem C29_no_overflow (sum : GoString) {digits : Nat} (hd : digits ≤ 8) :
    otpNumber sum < 2 ^ 31 ∧ 10 ^ digits < 2 ^ 63 ∧ otpNumber sum % 10 ^ digits < 2 ^ 31 := by
  have h1 : otpNumber sum < 2 ^ 31 := Nat.mod_lt _ (by decide)
  have h2 : 10 ^ digits ≤ 10 ^ 8 := Nat.pow_le_pow_right (by omega) hd
  exact ⟨h1, by omega, Nat.lt_of_le_of_lt (Nat.mod_le _ _) h1⟩

/-- C29: every other algorithm name is an error. -/
theorem C29_unknown_algorithm [Ext] {algo : GoString} (ha : ∀ h, ¬ AlgNamed algo h) (secret : GoString) (digits : Int)
    (ts : Nat) : ∃ e, generateMfaCode secret algo digits ts = .err e := by
  unfold generateMfaCode
  cases hh : hashAlg algo with
  | ok h => exact absurd (hashAlg_iff.1 hh) (ha h)
  | err e => exact ⟨e, rfl⟩
  | panic =>
    unfold hashAlg at hh
    repeat' split at hh
    all_goals simp at hh

/-- C29: a secret that fits in the hash's block (64 bytes; 128 for sha512) has the same codes with zero bytes after it. -/
theorem C29_zero_bytes_ignored {h : HashAlg} {secret : GoString} {n : Nat} (hn : secret.length + n ≤ Sha.blockSize h)
    (digits counter : Nat) (code : GoString) :
    IsOtp h (secret ++ List.replicate n 0) digits counter code ↔ IsOtp h secret digits counter code := by
  unfold IsOtp
  simp only [Sha.hmac_zeros h secret _ n hn]

/-- C29: a longer secret has the codes of its hash. -/
theorem C29_long_secret_is_hashed {h : HashAlg} {secret : GoString} (hl : Sha.blockSize h < secret.length)
    (digits counter : Nat) (code : GoString) :
    IsOtp h secret digits counter code ↔ IsOtp h (Sha.hash h secret) digits counter code := by
  unfold IsOtp
  simp only [← Sha.hmac_long_key h secret _ hl]

-- The test vector of RFC 4226 appendix D (count 0) for the truncation: the digest cc93cf18508d94934c64b65d8ba7667fb7cde4b0
-- gives 1284755224.
example : truncate [0xcc, 0x93, 0xcf, 0x18, 0x50, 0x8d, 0x94, 0x93, 0x4c, 0x64, 0xb6, 0x5d, 0x8b, 0xa7, 0x66, 0x7f, 0xb7,
    0xcd, 0xe4, 0xb0] = some 1284755224 := by decide
example : otpNumber [0xcc, 0x93, 0xcf, 0x18, 0x50, 0x8d, 0x94, 0x93, 0x4c, 0x64, 0xb6, 0x5d, 0x8b, 0xa7, 0x66, 0x7f, 0xb7,
    0xcd, 0xe4, 0xb0] % 10 ^ 6 = 755224 := by decide
example : AlgNamed (gs! "sha256") .sha256 := by unfold AlgNamed; decide

/-! ## C30 -/

/-- C30: a passcode is accepted exactly if, with surrounding white space removed, it is the token's code (4 to 8 digits) for
the time step, the next or the previous one. -/
theorem C30_window [Ext] {p : MfaToken} {h : HashAlg} (ha : AlgNamed p.algorithm h)
    (hp : 0 < p.period) (code : GoString) {unix : Int} (h0 : p.period ≤ unix) (hmax : unix < 2 ^ 63) :
    validateCodeWithTime p code unix = .ok () ↔
      4 ≤ p.digits ∧ p.digits ≤ 8 ∧
      ∃ s : Nat, (s : Int) ∈ [unix / p.period, unix / p.period + 1, unix / p.period - 1] ∧
        IsOtp h p.secret p.digits.toNat s (trimSpace code) := by
  have hq1 : 1 ≤ unix / p.period := by
    rw [Int.le_ediv_iff_mul_le hp]; omega
  have hq2 : unix / p.period ≤ unix := Int.ediv_le_self _ (by omega)
  have key := (validate_spec ha code unix).1
  rw [timeStep_eq (by omega) hp] at key
  rw [key, steps_mid (by omega) (by omega)]
  refine and_congr_right fun _ => and_congr_right fun _ => exists_congr fun s => and_congr_left fun _ => ?_
  simp only [List.mem_cons, List.not_mem_nil, or_false]
  omega

/-- C30: in the very first step (times below one period) the "previous" step is the counter 2^64 - 1. -/
theorem C30_first_step [Ext] {p : MfaToken} {h : HashAlg} (ha : AlgNamed p.algorithm h)
    (code : GoString) {unix : Int} (h0 : 0 ≤ unix) (h1 : unix < p.period) :
    validateCodeWithTime p code unix = .ok () ↔
      4 ≤ p.digits ∧ p.digits ≤ 8 ∧
      ∃ s ∈ [0, 1, 2 ^ 64 - 1], IsOtp h p.secret p.digits.toNat s (trimSpace code) := by
  have key := (validate_spec ha code unix).1
  rw [timeStep_eq h0 (by omega), Int.ediv_eq_zero_of_lt h0 h1] at key
  exact key

/-- C30: validation never panics for a known algorithm, whatever the token, code and time. -/
theorem C30_no_panic [Ext] {p : MfaToken} {h : HashAlg} (ha : AlgNamed p.algorithm h)
    (code : GoString) (unix : Int) : validateCodeWithTime p code unix ≠ .panic := (validate_spec ha code unix).2

/-- C30: with an unknown algorithm nothing is accepted. -/
theorem C30_unknown_algorithm [Ext] {p : MfaToken} (ha : ∀ h, ¬ AlgNamed p.algorithm h) (code : GoString) (unix : Int) :
    ∃ e, validateCodeWithTime p code unix = .err e := by
  have hgen := C29_unknown_algorithm ha p.secret p.digits
  have htry : ∀ l, ∃ e, tryCodes p.secret p.algorithm p.digits (trimSpace code) l = .err e := by
    intro l
    induction l with
    | nil => exact ⟨_, rfl⟩
    | cons t ts ih =>
      obtain ⟨e, he⟩ := hgen t
      unfold tryCodes
      rw [he]
      exact ih
  unfold validateCodeWithTime
  dsimp only
  split
  · exact ⟨_, rfl⟩
  · split
    · exact ⟨_, rfl⟩
    · split
      · exact ⟨_, rfl⟩
      · exact htry _

/-- C30: `ValidateCode` is this check at the current time for TOTP tokens and refuses every other kind. -/
theorem C30_validate_code [Ext] (p : MfaToken) (code : GoString) (unix : Int) :
    (p.type = gs! "totp" → validateCode p code unix = validateCodeWithTime p code unix) ∧
    (p.type ≠ gs! "totp" → ∃ e, validateCode p code unix = .err e) := by
  unfold validateCode
  constructor
  · intro h; rw [if_pos h]
  · intro h; rw [if_neg h]; exact ⟨_, rfl⟩

/-- A token of the toy world and its code at step 33333333. -/
def toyToken : MfaToken :=
  { MfaToken.zero with type := gs! "totp", algorithm := gs! "sha1", secret := gs! "secret", period := 30, digits := 6 }
def toyCode (step : Nat) : GoString :=
  match generateMfaCode (gs! "secret") (gs! "sha1") 6 step with
  | .ok c => c
  | _ => []
example : validateCodeWithTime toyToken ([32] ++ toyCode 33333332 ++ [10]) 1000000000 = .ok () ∧
    validateCodeWithTime toyToken (toyCode 33333333) 1000000000 = .ok () ∧
    validateCodeWithTime toyToken (toyCode 33333334) 1000000000 = .ok () ∧
    validateCodeWithTime toyToken (toyCode 33333335) 1000000000 ≠ .ok () ∧
    validateCodeWithTime toyToken (toyCode 33333331) 1000000000 ≠ .ok () := by decide +kernel

/-! ## C31 -/

/-- The algorithm a request names: its lower-case form, `sha1` if empty. -/
def ReqAlg [Ext] (m : ReqMfaToken) (alg : GoString) : Prop :=
  (toLower m.algorithm = [] ∧ alg = gs! "sha1") ∨ (toLower m.algorithm ≠ [] ∧ alg = toLower m.algorithm)

theorem newTotp_ok [Ext] {nd : Nondet} {p t : MfaToken} {m : ReqMfaToken} :
    (newTotp nd p m).1 = .ok t ↔ ∃ alg h digits, ReqAlg m alg ∧ AlgNamed alg h ∧ 30 ≤ m.period ∧ m.period ≤ 300 ∧
      digits = (if m.digits = 0 then 6 else m.digits) ∧ 4 ≤ digits ∧ digits ≤ 8 ∧
      t = { p with secret := m.secret, algorithm := alg, period := m.period, digits := digits } ∧
      validateCodeWithTime t m.passcode (nd.unix - m.period) = .ok () := by
  have halg : ∀ alg h, ReqAlg m alg → AlgNamed alg h →
      (if toLower m.algorithm = gs! "sha1" ∨ toLower m.algorithm = gs! "sha256" ∨ toLower m.algorithm = gs! "sha512"
        then some (toLower m.algorithm) else if toLower m.algorithm = [] then some (gs! "sha1") else none) = some alg := by
    intro alg h hr hn
    rcases hr with ⟨h1, rfl⟩ | ⟨h1, rfl⟩
    · rw [h1]; rfl
    · rw [if_pos]
      rcases hn with ⟨h2, _⟩ | ⟨h2, _⟩ | ⟨h2, _⟩
      · exact .inl h2
      · exact .inr (.inl h2)
      · exact .inr (.inr h2)
  constructor
  · intro hok
    unfold newTotp at hok
    dsimp only at hok
    split at hok
    · simp at hok
    · rename_i alg hsome
      have hra : ReqAlg m alg ∧ ∃ h, AlgNamed alg h := by
        unfold ReqAlg AlgNamed
        split at hsome
        · rename_i hc
          simp only [Option.some.injEq] at hsome
          subst hsome
          rcases hc with hc | hc | hc <;> rw [hc]
          · exact ⟨.inr ⟨by decide, rfl⟩, .sha1, .inl ⟨rfl, rfl⟩⟩
          · exact ⟨.inr ⟨by decide, rfl⟩, .sha256, .inr (.inl ⟨rfl, rfl⟩)⟩
          · exact ⟨.inr ⟨by decide, rfl⟩, .sha512, .inr (.inr ⟨rfl, rfl⟩)⟩
        · split at hsome
          · rename_i hc
            simp only [Option.some.injEq] at hsome
            exact ⟨.inl ⟨hc, hsome.symm⟩, .sha1, .inl ⟨hsome.symm, rfl⟩⟩
          · simp at hsome
      obtain ⟨hr, h, hn⟩ := hra
      generalize (if m.digits = 0 then 6 else m.digits) = digits at hok ⊢
      split at hok
      · simp at hok
      · split at hok
        · simp at hok
        · split at hok
          · rename_i hv
            simp only [Res.ok.injEq] at hok
            subst hok
            exact ⟨alg, h, digits, hr, hn, by omega, by omega, rfl, by omega, by omega, rfl, hv⟩
          · simp at hok
          · simp at hok
  · rintro ⟨alg, h, digits, hr, hn, h1, h2, h3, h4, h5, rfl, hv⟩
    unfold newTotp
    dsimp only
    rw [halg alg h hr hn]
    dsimp only
    rw [if_neg (by omega), ← h3, if_neg (by omega), hv]

/-- C31: enrolling a TOTP token succeeds exactly with a known algorithm (case ignored, empty meaning SHA-1), a period of 30 to
300 seconds, 4 to 8 digits (0 meaning 6) and a passcode valid for the current time step or one of the two before it; the
token then has exactly these parameters. -/
theorem C31_enrolment [Ext] {nd : Nondet} {req : Request} (ht : req.mfaToken.type = gs! "totp")
    (h0 : 600 ≤ nd.unix) (hmax : nd.unix < 2 ^ 63) {t : MfaToken} :
    (newMfaToken nd req).1 = .ok t ↔
      ∃ (alg : GoString) (h : HashAlg) (digits : Nat), ReqAlg req.mfaToken alg ∧ AlgNamed alg h ∧
        30 ≤ req.mfaToken.period ∧ req.mfaToken.period ≤ 300 ∧
        (digits : Int) = (if req.mfaToken.digits = 0 then 6 else req.mfaToken.digits) ∧ 4 ≤ digits ∧ digits ≤ 8 ∧
        (∃ s : Nat, (s : Int) ∈ [nd.unix / req.mfaToken.period, nd.unix / req.mfaToken.period - 1,
            nd.unix / req.mfaToken.period - 2] ∧
          IsOtp h req.mfaToken.secret digits s (trimSpace req.mfaToken.passcode)) ∧
        t = { MfaToken.zero with
          id := getRandomString nd.seedRand 0 40, type := gs! "totp", algorithm := alg
          comment := req.mfaToken.comment, secret := req.mfaToken.secret, period := req.mfaToken.period
          digits := digits, createdAt := nd.now 0, disabled := req.mfaToken.disabled
          disabledAt := if req.mfaToken.disabled then nd.now 1 else .zero } := by
  have hnew : (newMfaToken nd req).1 = (newTotp nd
      { MfaToken.zero with
        id := getRandomString nd.seedRand 0 40, createdAt := nd.now 0, comment := req.mfaToken.comment
        type := req.mfaToken.type, disabled := req.mfaToken.disabled
        disabledAt := if req.mfaToken.disabled then nd.now 1 else .zero } req.mfaToken).1 := by
    unfold newMfaToken
    dsimp only
    rw [if_pos ht]
  have hwin : ∀ {t' : MfaToken} {h : HashAlg}, AlgNamed t'.algorithm h → 30 ≤ t'.period → t'.period ≤ 300 →
      t'.period = req.mfaToken.period →
      (validateCodeWithTime t' req.mfaToken.passcode (nd.unix - req.mfaToken.period) = .ok () ↔
        4 ≤ t'.digits ∧ t'.digits ≤ 8 ∧ ∃ s : Nat, (s : Int) ∈ [nd.unix / req.mfaToken.period,
          nd.unix / req.mfaToken.period - 1, nd.unix / req.mfaToken.period - 2] ∧
          IsOtp h t'.secret t'.digits.toNat s (trimSpace req.mfaToken.passcode)) := by
    intro t' h hn hp1 hp2 hpe
    rw [C30_window hn (by omega) _ (by omega) (by omega), hpe]
    have hdiv : (nd.unix - req.mfaToken.period) / req.mfaToken.period = nd.unix / req.mfaToken.period - 1 := by
      rw [Int.sub_ediv_of_dvd _ (Int.dvd_refl _), Int.ediv_self (by omega)]
    rw [hdiv]
    refine and_congr_right fun _ => and_congr_right fun _ => exists_congr fun s => and_congr_left fun _ => ?_
    simp only [List.mem_cons, List.not_mem_nil, or_false]
    omega
  rw [hnew, newTotp_ok, ht]
  constructor
  · rintro ⟨alg, h, digits, hr, hn, h1, h2, h3, h4, h5, rfl, hv⟩
    have hv' := ((hwin (h := h) hn h1 h2 rfl).1 hv).2.2
    refine ⟨alg, h, digits.toNat, hr, hn, h1, h2, by rw [← h3]; omega, by omega, by omega, hv', ?_⟩
    have : ((digits.toNat : Nat) : Int) = digits := by omega
    rw [this]
  · rintro ⟨alg, h, digits, hr, hn, h1, h2, h3, h4, h5, hs, rfl⟩
    refine ⟨alg, h, digits, hr, hn, h1, h2, h3, by omega, by omega, rfl, ?_⟩
    refine (hwin (h := h) hn h1 h2 rfl).2 ⟨?_, ?_, ?_⟩
    · show (4 : Int) ≤ (digits : Int); omega
    · show (digits : Int) ≤ 8; omega
    · exact hs

/-- Enrolment in the toy world, with the algorithm in mixed case and the code of two steps ago. -/
def reqEnrol : Request :=
  { mfaToken := { comment := gs! "phone", type := gs! "totp", secret := gs! "secret", algorithm := gs! "Sha1", period := 30
                  passcode := toyCode 33333331 } }
example : (match (newMfaToken nd reqEnrol).1 with
    | .ok t => t.digits == 6 && t.algorithm == gs! "sha1" && t.secret == gs! "secret"
    | _ => false) = true := by decide +kernel
example : (600 : Int) ≤ nd.unix ∧ nd.unix < 2 ^ 63 := by decide

/-! ## C67 -/

/-- C67: clocks may differ by a full period either way: the code of a moment `t` is accepted at every moment `t'` with
`|t' - t| ≤ period`. -/
theorem C67_skew_tolerated [Ext] {p : MfaToken} {h : HashAlg} (ha : AlgNamed p.algorithm h)
    (hp : 0 < p.period) (hd : 4 ≤ p.digits ∧ p.digits ≤ 8) (code : GoString) {t t' : Int} (ht : 0 ≤ t)
    (hcode : IsOtp h p.secret p.digits.toNat (t / p.period).toNat (trimSpace code))
    (h0 : p.period ≤ t') (hmax : t' < 2 ^ 63) (hlo : t - p.period ≤ t') (hhi : t' ≤ t + p.period) :
    validateCodeWithTime p code t' = .ok () := by
  refine (C30_window ha hp code h0 hmax).2 ⟨hd.1, hd.2, (t / p.period).toNat, ?_, hcode⟩
  have h1 : 0 ≤ t / p.period := Int.ediv_nonneg ht (by omega)
  have h2 : t / p.period - 1 ≤ t' / p.period := by
    have : (t - p.period) / p.period ≤ t' / p.period := Int.ediv_le_ediv hp hlo
    rwa [Int.sub_ediv_of_dvd _ (Int.dvd_refl _), Int.ediv_self (by omega)] at this
  have h3 : t' / p.period ≤ t / p.period + 1 := by
    have : t' / p.period ≤ (t + p.period) / p.period := Int.ediv_le_ediv hp hhi
    rwa [Int.add_ediv_of_dvd_right (Int.dvd_refl _), Int.ediv_self (by omega)] at this
  simp only [List.mem_cons, List.not_mem_nil, or_false]
  omega

/-- C67: no more than that is tolerated: an accepted code is the code of a moment less than two periods away. -/
theorem C67_skew_bounded [Ext] {p : MfaToken} {h : HashAlg} (ha : AlgNamed p.algorithm h)
    (hp : 0 < p.period) (code : GoString) {t' : Int} (h0 : p.period ≤ t') (hmax : t' < 2 ^ 63)
    (hok : validateCodeWithTime p code t' = .ok ()) :
    ∃ t : Int, 0 ≤ t ∧ t' - 2 * p.period < t ∧ t < t' + 2 * p.period ∧
      IsOtp h p.secret p.digits.toNat (t / p.period).toNat (trimSpace code) := by
  obtain ⟨_, _, s, hs, hotp⟩ := (C30_window ha hp code h0 hmax).1 hok
  have hdm := Int.mul_ediv_add_emod t' p.period
  have hm0 := Int.emod_nonneg t' (show p.period ≠ 0 by omega)
  have hm1 := Int.emod_lt_of_pos t' hp
  refine ⟨p.period * s, Int.mul_nonneg (by omega) (by omega), ?_, ?_, ?_⟩
  · simp only [List.mem_cons, List.not_mem_nil, or_false] at hs
    rcases hs with hs | hs | hs <;> rw [hs]
    · omega
    · rw [Int.mul_add]; omega
    · rw [Int.mul_sub]; omega
  · simp only [List.mem_cons, List.not_mem_nil, or_false] at hs
    rcases hs with hs | hs | hs <;> rw [hs]
    · omega
    · rw [Int.mul_add]; omega
    · rw [Int.mul_sub]; omega
  · rw [Int.mul_ediv_cancel_left _ (by omega)]
    exact hotp

/-- C67: the code of step `s` is looked for exactly during the three periods from the beginning of step `s - 1` to the end of
step `s + 1`; as validation keeps no record, it may be used any number of times in between. -/
theorem C67_lifetime [Ext] {p : MfaToken} {h : HashAlg} (ha : AlgNamed p.algorithm h) (hp : 0 < p.period)
    (hd : 4 ≤ p.digits ∧ p.digits ≤ 8) (code : GoString) {s : Nat}
    (hcode : IsOtp h p.secret p.digits.toNat s (trimSpace code))
    (honly : ∀ s', s' ≠ s → ¬ IsOtp h p.secret p.digits.toNat s' (trimSpace code)) {t' : Int} (h0 : p.period ≤ t')
    (hmax : t' < 2 ^ 63) :
    validateCodeWithTime p code t' = .ok () ↔ ((s : Int) - 1) * p.period ≤ t' ∧ t' < ((s : Int) + 2) * p.period := by
  have hiff : validateCodeWithTime p code t' = .ok () ↔ (s : Int) ∈ [t' / p.period, t' / p.period + 1, t' / p.period - 1] := by
    rw [C30_window ha hp code h0 hmax]
    constructor
    · rintro ⟨_, _, s', hs', ho⟩
      by_cases he : s' = s
      · exact he ▸ hs'
      · exact absurd ho (honly s' he)
    · intro hs; exact ⟨hd.1, hd.2, s, hs, hcode⟩
  rw [hiff, ← Int.le_ediv_iff_mul_le hp, ← Int.ediv_lt_iff_lt_mul hp]
  simp only [List.mem_cons, List.not_mem_nil, or_false]
  omega

/-- C67: a code enrolled with is not always accepted at once: enrolment looks at the current step and earlier ones, validation
at the current step and its neighbours.  Here a token is enrolled with the code of two steps ago, and the same code is refused
at the same moment. -/
theorem C67_enrolled_code_may_be_refused :
    ∃ t, (newMfaToken nd reqEnrol).1 = .ok t ∧ validateCodeWithTime t reqEnrol.mfaToken.passcode nd.unix ≠ .ok () := by
  have h : (match (newMfaToken nd reqEnrol).1 with
      | .ok t => decide (validateCodeWithTime t reqEnrol.mfaToken.passcode nd.unix ≠ .ok ())
      | _ => false) = true := by decide +kernel
  cases he : (newMfaToken nd reqEnrol).1 with
  | ok t => rw [he] at h; exact ⟨t, rfl, of_decide_eq_true h⟩
  | err e => rw [he] at h; cases h
  | panic => rw [he] at h; cases h

/- The code of the moment 999999990 is accepted thirty seconds later and earlier, and not a minute later. -/
example : validateCodeWithTime toyToken (toyCode (999999990 / 30)) (999999990 + 30) = .ok () ∧
    validateCodeWithTime toyToken (toyCode (999999990 / 30)) (999999990 - 30) = .ok () ∧
    validateCodeWithTime toyToken (toyCode (999999990 / 30)) (999999990 + 60) ≠ .ok () := by decide +kernel
example : IsOtp .sha1 toyToken.secret toyToken.digits.toNat (999999990 / 30) (trimSpace (toyCode (999999990 / 30))) :=
  ⟨[0, 0, 0, 0, 1, 0xfc, 0xa0, 0x55], by decide +kernel⟩

end GoIdentity
