import Verif.Props.Keys
import Verif.Props.Qr
import Verif.Props.Success
import Verif.Props.Totp
/-!
# From the QR code to the login: C80
-/
namespace GoIdentity
open Toy

/-- What an authenticator application shows at a moment: the code of the time step, with the parameters it read from the
QR code (SHA-1 if no algorithm was given). -/
def Uri.Otp.Shows (o : Uri.Otp) (t : Nat) (code : GoString) : Prop :=
  ∃ h, ((o.algorithm = [] ∧ h = .sha1) ∨ AlgNamed o.algorithm h) ∧ IsOtp h o.secret o.digits (t / o.period) code

/-- The QR code was made for this enrolment request: a TOTP code with its secret, algorithm (case ignored), period and digits,
where the QR code may leave the period at 0 for 30 and both may leave the digits at 0 for 6. -/
structure QrCode.For [Ext] (c : QrCode) (m : ReqMfaToken) : Prop where
  type : c.type = gs! "totp" ∧ m.type = gs! "totp"
  secret : c.secret = m.secret
  algorithm : toLower c.algorithm = toLower m.algorithm
  period : (if c.period = 0 then 30 else c.period) = m.period
  digits : (if c.digits = 0 then 6 else c.digits) = (if m.digits = 0 then 6 else m.digits)

theorem otp_trim {h : HashAlg} {secret : GoString} {digits counter : Nat} {code : GoString}
    (hc : IsOtp h secret digits counter code) : trimSpace code = code := by
  obtain ⟨_, _, _, _, hd, _⟩ := hc
  exact trimSpace_of_graph fun b hb => by have := hd b hb; unfold IsDigit at this; omega

/-- The token an enrolment with these parameters stores. -/
def EnrolledFrom [Ext] (c : QrCode) (t : MfaToken) : Prop :=
  t.secret = c.secret ∧ t.algorithm = (if toLower c.algorithm = [] then gs! "sha1" else toLower c.algorithm) ∧
  t.period = (if c.period = 0 then 30 else c.period) ∧ t.digits = (if c.digits = 0 then 6 else c.digits)

/-- C80: whoever scans the QR code and types the code shown within the last two periods can enrol: `NewMfaToken` with the
parameters of the QR code and that code succeeds. -/
theorem C80_scanned_code_enrols [Ext] {c c' : QrCode} (hb : c.build = .ok c') {plus : Bool} {o : Uri.Otp}
    (ho : Uri.read plus c'.text = some o) {nd : Nondet} {req : Request} (hf : c.For req.mfaToken) {t : Nat}
    (hshow : o.Shows t req.mfaToken.passcode) (h0 : 600 ≤ nd.unix) (hmax : nd.unix < 2 ^ 63)
    (hlo : t ≤ nd.unix) (hhi : nd.unix ≤ t + 2 * req.mfaToken.period) :
    ∃ tok, (newMfaToken nd req).1 = .ok tok ∧ EnrolledFrom c tok ∧ tok.comment = req.mfaToken.comment := by
  have ha := (C57_build_succeeds_iff c).1 ⟨c', hb⟩
  rw [C57_text_reads_back hb plus] at ho
  simp only [Option.some.injEq] at ho
  obtain ⟨h, halg, hotp⟩ := hshow
  rw [← ho] at halg hotp
  dsimp only at halg hotp
  have hp : (if c.period = 0 then (30 : Int) else c.period) = req.mfaToken.period := hf.period
  have hpn : (if c.period = 0 then 30 else c.period.toNat) = req.mfaToken.period.toNat := by
    rw [← hp]; split <;> rfl
  have hp30 : 30 ≤ req.mfaToken.period ∧ req.mfaToken.period ≤ 180 := by
    have := ha.period; rw [← hp]; split <;> omega
  have hd : (if c.digits = 0 then (6 : Int) else c.digits) = (if req.mfaToken.digits = 0 then 6 else req.mfaToken.digits) := hf.digits
  have hdn : (((if c.digits = 0 then 6 else c.digits.toNat) : Nat) : Int) = (if c.digits = 0 then 6 else c.digits) := by
    have := ha.digits; split <;> omega
  have hd48 : 4 ≤ (if c.digits = 0 then 6 else c.digits.toNat) ∧ (if c.digits = 0 then 6 else c.digits.toNat) ≤ 8 := by
    have := ha.digits; split <;> omega
  rw [hpn] at hotp
  generalize hD : (if c.digits = 0 then 6 else c.digits.toNat) = D at *
  have halg' : ∃ alg, ReqAlg req.mfaToken alg ∧ AlgNamed alg h ∧
      alg = (if toLower c.algorithm = [] then gs! "sha1" else toLower c.algorithm) := by
    rcases halg with ⟨e, rfl⟩ | e
    · exact ⟨gs! "sha1", .inl ⟨by rw [← hf.algorithm, e], rfl⟩, .inl ⟨rfl, rfl⟩, by rw [if_pos e]⟩
    · have hne : toLower c.algorithm ≠ [] := by
        intro e'
        rw [e'] at e
        rcases e with ⟨e, _⟩ | ⟨e, _⟩ | ⟨e, _⟩ <;> exact absurd e (by decide)
      exact ⟨_, .inr ⟨by rw [← hf.algorithm]; exact hne, rfl⟩, by rw [← hf.algorithm]; exact e, by rw [if_neg hne, hf.algorithm]⟩
  obtain ⟨alg, hra, hn, hae⟩ := halg'
  have hstep : (((t / req.mfaToken.period.toNat : Nat)) : Int) = (t : Int) / req.mfaToken.period := by
    rw [Int.natCast_ediv, Int.toNat_of_nonneg (by omega)]
  refine ⟨_, (C31_enrolment hf.type.2 h0 hmax).2 ⟨alg, h, D, hra, hn, hp30.1, by omega, by rw [hdn, hd], hd48.1, hd48.2,
    ⟨t / req.mfaToken.period.toNat, ?_, by rw [otp_trim hotp, ← hf.secret]; exact hotp⟩, rfl⟩, ⟨hf.secret.symm, hae, hp.symm, hdn⟩, rfl⟩
  rw [hstep]
  have h1 : (t : Int) / req.mfaToken.period ≤ nd.unix / req.mfaToken.period := Int.ediv_le_ediv (by omega) hlo
  have h2 : nd.unix / req.mfaToken.period ≤ (t : Int) / req.mfaToken.period + 2 := by
    have : nd.unix / req.mfaToken.period ≤ ((t : Int) + req.mfaToken.period * 2) / req.mfaToken.period :=
      Int.ediv_le_ediv (by omega) (by omega)
    rwa [Int.add_mul_ediv_left _ _ (by omega)] at this
  simp only [List.mem_cons, List.not_mem_nil, or_false]
  omega

/-- C80: from then on every code the application shows is accepted by the token, if both clocks differ by at most a period. -/
theorem C80_shown_codes_are_accepted [Ext] {c c' : QrCode} (hb : c.build = .ok c') {plus : Bool} {o : Uri.Otp}
    (ho : Uri.read plus c'.text = some o) {tok : MfaToken} (he : EnrolledFrom c tok) {t : Nat} {code : GoString}
    (hshow : o.Shows t code) {now : Int} (h0 : tok.period ≤ now) (hmax : now < 2 ^ 63)
    (hlo : (t : Int) - tok.period ≤ now) (hhi : now ≤ t + tok.period) : validateCodeWithTime tok code now = .ok () := by
  have ha := (C57_build_succeeds_iff c).1 ⟨c', hb⟩
  rw [C57_text_reads_back hb plus] at ho
  simp only [Option.some.injEq] at ho
  obtain ⟨h, halg, hotp⟩ := hshow
  rw [← ho] at halg hotp
  dsimp only at halg hotp
  obtain ⟨e1, e2, e3, e4⟩ := he
  have hpn : (if c.period = 0 then 30 else c.period.toNat) = tok.period.toNat := by rw [e3]; split <;> rfl
  have hp30 : 30 ≤ tok.period := by have := ha.period; rw [e3]; split <;> omega
  have hdn : (if c.digits = 0 then 6 else c.digits.toNat) = tok.digits.toNat := by rw [e4]; split <;> rfl
  have hd48 : 4 ≤ tok.digits ∧ tok.digits ≤ 8 := by have := ha.digits; rw [e4]; split <;> omega
  rw [hpn, hdn, ← e1] at hotp
  have hn : AlgNamed tok.algorithm h := by
    rcases halg with ⟨e, rfl⟩ | e
    · rw [e2, if_pos e]; exact .inl ⟨rfl, rfl⟩
    · rw [e2]
      split
      · rename_i e'
        rw [e'] at e
        rcases e with ⟨e, _⟩ | ⟨e, _⟩ | ⟨e, _⟩ <;> exact absurd e (by decide)
      · exact e
  refine C67_skew_tolerated hn (by omega) hd48 code (t := t) (by omega) ?_ h0 hmax hlo hhi
  rw [otp_trim hotp]
  have : ((t : Int) / tok.period).toNat = t / tok.period.toNat := by
    have h1 : (((t / tok.period.toNat : Nat)) : Int) = (t : Int) / tok.period := by
      rw [Int.natCast_ediv, Int.toNat_of_nonneg (by omega)]
    have h2 : (0 : Int) ≤ (t : Int) / tok.period := Int.ediv_nonneg (by omega) (by omega)
    omega
  rw [this]
  exact hotp

/-- C80: all together.  A user scans the QR code and sends the code shown to `AddMfaToken`.  If the user exists, has no token
with this secret or comment, and the file can be written, the call succeeds, and until the token is deleted the user has a token
that accepts every code the application will show, provided its clock is within a period of the server's. -/
theorem C80_scan_enrol_login [Ext] {db : Database} (hr : Reach Opened db) {c c' : QrCode} (hb : c.build = .ok c') {plus : Bool}
    {o : Uri.Otp} (ho : Uri.read plus c'.text = some o) {nd : Nondet} {fs : FS} {req : Request} (hf : c.For req.mfaToken)
    {t : Nat} (hshow : o.Shows t req.mfaToken.passcode) (h0 : 600 ≤ nd.unix) (hmax : nd.unix < 2 ^ 63)
    (hlo : t ≤ nd.unix) (hhi : nd.unix ≤ t + 2 * req.mfaToken.period) {u : User} (hu : Addressed db req u)
    (hnew : ∀ x ∈ u.mfaTokens, x.secret ≠ req.mfaToken.secret ∧ x.comment ≠ req.mfaToken.comment)
    (hw : CanWrite nd fs db.path) :
    (exec .addMfaToken nd db fs req).Succeeded ∧
    ∃ tok : MfaToken, ∀ ops : List Op,
      (∀ o ∈ ops, o.call = .deleteMfaToken → toLower o.req.user.username = toLower u.username → o.req.mfaToken.id ≠ tok.id) →
      ∃ v ∈ (run (exec .addMfaToken nd db fs req).db (exec .addMfaToken nd db fs req).fs ops).1.users,
        v.id = u.id ∧ tok ∈ v.mfaTokens ∧
        ∀ (t' : Nat) (code : GoString) (now : Int), o.Shows t' code → tok.period ≤ now → now < 2 ^ 63 →
          (t' : Int) - tok.period ≤ now → now ≤ t' + tok.period → validateCodeWithTime tok code now = .ok () := by
  obtain ⟨tok, htok, hfrom, hcom⟩ := C80_scanned_code_enrols hb ho hf hshow h0 hmax hlo hhi
  have hs : (exec .addMfaToken nd db fs req).Succeeded :=
    (C68_add_mfa_token hr nd fs req).2 ⟨⟨u, tok, hu, htok, fun x hx => by
      rw [hfrom.1, hf.secret, hcom]; exact hnew x hx⟩, hw⟩
  refine ⟨hs, tok, fun ops hops => ?_⟩
  obtain ⟨i, u0, u', tok', hi, hname, husers, hmfa, htok', _, _⟩ := C28_add_appends_one hr hs
  rw [htok] at htok'
  cases htok'
  have huu : u0 = u := by
    obtain ⟨j, hj⟩ := List.getElem?_of_mem hu.1
    have e1 := (getUserByUsername_iff (reach_inv hr)).2 ⟨hj, hu.2.1⟩
    have e2 := (getUserByUsername_iff (reach_inv hr)).2 ⟨hi, hname⟩
    rw [e1] at e2
    simp only [Option.some.injEq, Prod.mk.injEq] at e2
    exact e2.2.symm
  subst huu
  have hlt := (List.getElem?_eq_some_iff.1 hi).1
  have hget : (exec .addMfaToken nd db fs req).db.users[i]? = some u' := by rw [husers]; simp [hlt]
  obtain ⟨w, hw', hsame⟩ := exec_same (c := .addMfaToken) (nd := nd) (fs := fs) (req := req) hi
  rw [hget] at hw'
  cases hw'
  have hr' : Reach Opened (exec .addMfaToken nd db fs req).db := .step hr ..
  obtain ⟨v, hv', hR, hsv⟩ := run_user (R := fun a b => tok ∈ a.mfaTokens → tok ∈ b.mfaTokens)
    (Q := fun o => o.call = .deleteMfaToken → toLower o.req.user.username = toLower u0.username → o.req.mfaToken.id ≠ tok.id)
    (fun _ h => h) (fun _ _ _ h1 h2 h3 => h2 (h1 h3)) hr' (fs := (exec .addMfaToken nd db fs req).fs) hops
    (by
      intro o d w w' hq _ _ hsw hn hop hmem
      revert hop hq
      generalize o.call = c
      intro hq hop
      cases hop with
      | addMfaToken => exact List.mem_append_left _ hmem
      | deleteMfaToken hex =>
        have hne := hq rfl (by rw [← hn.2, hsw.username, hsame.username])
        simp only [User.revise, List.mem_filter, hmem, true_and, Bool.not_eq_true', beq_eq_false_iff_ne]
        exact fun hc => hne hc.symm
      | _ => exact hmem) hget
  exact ⟨v, List.mem_of_getElem? hv', by rw [hsv.id, hsame.id], hR (by rw [hmfa]; simp),
    fun t' code now h1 h2 h3 h4 h5 => C80_shown_codes_are_accepted hb ho hfrom h1 h2 h3 h4 h5⟩

/-! ### Example -/

/-- The QR code for Joe's phone. -/
def qrJoe : QrCode := { type := gs! "totp", secret := gs! "secret", algorithm := gs! "SHA256", label := gs! "joe", issuer := gs! "Example" }
/-- The text in the QR code. -/
def qrText : GoString := match qrJoe.build with | .ok c => c.text | _ => []
example : qrText = gs! "otpauth://totp/joe?secret=ONSWG4TFOQ&issuer=Example&algorithm=sha256&digits=6&period=30" := by decide +kernel
/-- Joe's request, with the code of half a minute ago. -/
def reqScan : Request :=
  { user := { username := gs! "joe", email := gs! "joe@example.com" }
    mfaToken := { comment := gs! "phone", type := gs! "totp", secret := gs! "secret", algorithm := gs! "sha256", period := 30
                  passcode := match generateMfaCode (gs! "secret") (gs! "sha256") 6 33333332 with | .ok c => c | _ => [] } }
example : qrJoe.For reqScan.mfaToken := ⟨by decide, rfl, by decide, rfl, rfl⟩
example : (exec .addMfaToken nd db2 fs3 reqScan).Succeeded := by unfold Result.Succeeded; decide +kernel
example : ∃ o, Uri.read true qrText = some o ∧ o.Shows (nd.unix.toNat - 30) reqScan.mfaToken.passcode := by
  refine ⟨⟨gs! "totp", gs! "joe", gs! "secret", gs! "Example", gs! "sha256", 6, 0, 30⟩, by decide +kernel, .sha256,
    .inr (.inr (.inl ⟨rfl, rfl⟩)), [0, 0, 0, 0, 1, 0xfc, 0xa0, 0x54], by decide +kernel⟩

/-! ### Where the two sides disagree -/

/-- C80: not every token has a QR code.  Enrolment allows periods up to 300 seconds and secrets of any length, `Build` only
periods up to 180 seconds and secrets of at least 6 bytes: for such tokens every attempt to build a code fails. -/
theorem C80_tokens_without_qr [Ext] {c : QrCode} {m : ReqMfaToken} (hf : c.For m) (h : 180 < m.period ∨ m.secret.length < 6) :
    ¬ ∃ c', c.build = .ok c' := by
  rw [C57_build_succeeds_iff]
  intro ha
  rcases h with h | h
  · have := ha.period
    have hp := hf.period
    split at hp <;> omega
  · have := ha.secret
    rw [hf.secret] at this
    omega

/-- C80: and such tokens can be enrolled: here one with a period of 300 seconds and a secret of 3 bytes. -/
theorem C80_enrolled_without_qr :
    ∃ tok, (newMfaToken nd { mfaToken := {
        comment := gs! "phone", type := gs! "totp", secret := gs! "abc", period := 300
        passcode := match generateMfaCode (gs! "abc") (gs! "sha1") 6 3333333 with | .ok c => c | _ => [] } }).1 = .ok tok := by
  have h : (match (newMfaToken nd { mfaToken := {
        comment := gs! "phone", type := gs! "totp", secret := gs! "abc", period := 300
        passcode := match generateMfaCode (gs! "abc") (gs! "sha1") 6 3333333 with | .ok c => c | _ => [] } }).1 with
      | .ok _ => true
      | _ => false) = true := by decide +kernel
  revert h
  generalize (newMfaToken _ _).1 = r
  cases r with
  | ok t => exact fun _ => ⟨t, rfl⟩
  | err e => intro h; cases h
  | panic => intro h; cases h

/-- C80: counter-based (hotp) QR codes can be built, but no such token can be enrolled: `NewMfaToken` refuses the type. -/
theorem C80_hotp_never_enrols [Ext] (nd : Nondet) (req : Request) (h : req.mfaToken.type = gs! "hotp") :
    ∃ e, (newMfaToken nd req).1 = .err e := by
  unfold newMfaToken
  dsimp only
  rw [if_neg (by rw [h]; decide), if_neg (by rw [h]; decide), if_neg (by rw [h]; decide)]
  exact ⟨_, rfl⟩

example : ∃ c, (⟨gs! "hotp", gs! "secret", [], gs! "joe", [], 0, 0, 1, [], []⟩ : QrCode).build = .ok c := ⟨_, rfl⟩

end GoIdentity
