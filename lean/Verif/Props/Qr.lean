import Verif.Lemmas.Qr
import Verif.Spec.Toy
/-!
# QR codes: C57
-/
namespace GoIdentity
open Toy

/-- What `Build` asks of a code. -/
structure QrCode.Acceptable [Ext] (c : QrCode) : Prop where
  label : c.label ≠ []
  secret : 6 ≤ c.secret.length
  digits : c.digits = 0 ∨ (4 ≤ c.digits ∧ c.digits ≤ 8)
  period : c.period = 0 ∨ (30 ≤ c.period ∧ c.period ≤ 180)
  type : c.type = gs! "totp" ∨ (c.type = gs! "hotp" ∧ 1 ≤ c.counter)
  algorithm : toLower c.algorithm ∈ [[], gs! "sha1", gs! "sha256", gs! "sha512"]

/-- The code with defaults filled in. -/
def QrCode.filled [Ext] (c : QrCode) : QrCode :=
  { c with
    digits := if c.digits = 0 then 6 else c.digits
    period := if c.period = 0 then 30 else c.period
    algorithm := toLower c.algorithm }

theorem QrCode.validate_ok [Ext] {c : QrCode} (h : c.Acceptable) : c.validate = .ok c.filled := by
  have hs : c.secret ≠ [] := by intro e; have := h.secret; rw [e] at this; simp at this
  have hs' : ¬ c.secret.length < 6 := by have := h.secret; omega
  have hd : ¬ (c.digits ≠ 0 ∧ (c.digits < 4 ∨ 8 < c.digits)) := by have := h.digits; omega
  have hp : ¬ (c.period ≠ 0 ∧ (c.period < 30 ∨ 180 < c.period)) := by have := h.period; omega
  have ht : c.type = gs! "totp" ∨ c.type = gs! "hotp" := by
    rcases h.type with e | ⟨e, _⟩
    · exact .inl e
    · exact .inr e
  have hc : ¬ (c.type = gs! "hotp" ∧ c.counter < 1) := by
    rintro ⟨e1, e2⟩
    rcases h.type with e | ⟨_, e⟩
    · rw [e] at e1; exact absurd e1 (by decide)
    · omega
  have ha : toLower c.algorithm = gs! "sha1" ∨ toLower c.algorithm = gs! "sha256" ∨ toLower c.algorithm = gs! "sha512" ∨
      toLower c.algorithm = [] := by
    have := h.algorithm
    simp only [List.mem_cons, List.not_mem_nil, or_false] at this
    rcases this with e | e | e | e
    · exact .inr (.inr (.inr e))
    · exact .inl e
    · exact .inr (.inl e)
    · exact .inr (.inr (.inl e))
  unfold QrCode.validate
  rw [if_neg h.label, if_neg hs, if_neg hs', if_neg hd]
  dsimp only
  rw [if_neg hp]
  rw [if_neg (not_not_intro ht), if_neg hc, if_pos ha]
  rfl

theorem QrCode.validate_acceptable [Ext] {c c' : QrCode} (h : c.validate = .ok c') : c.Acceptable := by
  unfold QrCode.validate at h
  dsimp only at h
  by_cases h1 : c.label = []
  · rw [if_pos h1] at h; simp at h
  rw [if_neg h1] at h
  by_cases h2 : c.secret = []
  · rw [if_pos h2] at h; simp at h
  rw [if_neg h2] at h
  by_cases h3 : c.secret.length < 6
  · rw [if_pos h3] at h; simp at h
  rw [if_neg h3] at h
  by_cases h4 : c.digits ≠ 0 ∧ (c.digits < 4 ∨ 8 < c.digits)
  · rw [if_pos h4] at h; simp at h
  rw [if_neg h4] at h
  by_cases h5 : c.period ≠ 0 ∧ (c.period < 30 ∨ 180 < c.period)
  · rw [if_pos h5] at h; simp at h
  rw [if_neg h5] at h
  by_cases h6 : c.type = gs! "totp" ∨ c.type = gs! "hotp"
  · rw [if_neg (not_not_intro h6)] at h
    by_cases h7 : c.type = gs! "hotp" ∧ c.counter < 1
    · rw [if_pos h7] at h; simp at h
    rw [if_neg h7] at h
    by_cases h8 : toLower c.algorithm = gs! "sha1" ∨ toLower c.algorithm = gs! "sha256" ∨ toLower c.algorithm = gs! "sha512" ∨
        toLower c.algorithm = []
    · refine ⟨h1, by omega, by omega, by omega, ?_, ?_⟩
      · rcases h6 with e | e
        · exact .inl e
        · exact .inr ⟨e, Int.not_lt.1 fun hc => h7 ⟨e, hc⟩⟩
      · simp only [List.mem_cons, List.not_mem_nil, or_false]
        rcases h8 with e | e | e | e
        · exact .inr (.inl e)
        · exact .inr (.inr (.inl e))
        · exact .inr (.inr (.inr e))
        · exact .inl e
    · rw [if_neg h8] at h; simp at h
  · rw [if_pos h6] at h; simp at h

/-- C57: `Build` succeeds exactly on acceptable codes. -/
theorem C57_build_succeeds_iff [Ext] (c : QrCode) : (∃ c', c.build = .ok c') ↔ c.Acceptable := by
  constructor
  · rintro ⟨c', h⟩
    unfold QrCode.build at h
    cases hv : c.validate with
    | ok d => exact QrCode.validate_acceptable hv
    | err e => rw [hv] at h; simp at h
    | panic => rw [hv] at h; simp at h
  · intro h
    unfold QrCode.build
    rw [QrCode.validate_ok h]
    exact ⟨_, rfl⟩

/-- What `Build` asks of a code, in order, and what it says if that is not met. -/
def QrCode.checks [Ext] (c : QrCode) : List (Prop × GoString) :=
  [(c.label ≠ [], gs! "token label must be set"),
   (c.secret ≠ [], gs! "token secret must be set"),
   (6 ≤ c.secret.length, gs! "token secret must be at least 6 characters long"),
   (c.digits = 0 ∨ 4 ≤ c.digits ∧ c.digits ≤ 8, gs! "digits must be between 4 and 8 numbers long"),
   (c.period = 0 ∨ 30 ≤ c.period ∧ c.period ≤ 180, gs! "token period must be between 30 and 180 seconds"),
   (c.type = gs! "totp" ∨ c.type = gs! "hotp", gs! "token type must be either totp or hotp"),
   (c.type ≠ gs! "hotp" ∨ 1 ≤ c.counter, gs! "hotp token counter must be set"),
   (toLower c.algorithm ∈ [[], gs! "sha1", gs! "sha256", gs! "sha512"], gs! "token algo must be SHA1, SHA256, or SHA512")]

/-- C57: a refusal names the first requirement that is not met. -/
theorem C57_refusal_says_why [Ext] (c : QrCode) (m : GoString) :
    c.build = .err (.ext m) ↔
      ∃ (pre post : List (Prop × GoString)) (p : Prop), c.checks = pre ++ (p, m) :: post ∧ (∀ q ∈ pre, q.1) ∧ ¬ p := by
  unfold QrCode.checks
  simp only [firstFailure_cons, firstFailure_nil]
  unfold QrCode.build QrCode.validate
  dsimp only
  by_cases h1 : c.label = []
  · simp [h1, eq_comm]
  by_cases h2 : c.secret = []
  · simp [h1, h2, eq_comm]
  by_cases h3 : c.secret.length < 6
  · have h3' : ¬ 6 ≤ c.secret.length := by omega
    simp [h1, h2, h3, h3', eq_comm]
  have h3' : 6 ≤ c.secret.length := by omega
  by_cases h4 : c.digits ≠ 0 ∧ (c.digits < 4 ∨ 8 < c.digits)
  · have h4' : ¬ (c.digits = 0 ∨ 4 ≤ c.digits ∧ c.digits ≤ 8) := by omega
    rw [if_neg h1, if_neg h2, if_neg h3, if_pos h4]
    simp only [h1, h2, h3', h4', not_false_eq_true, not_true_eq_false, ne_eq, true_and, false_and, or_false, false_or]
    simp [eq_comm]
  have h4' : c.digits = 0 ∨ 4 ≤ c.digits ∧ c.digits ≤ 8 := by omega
  rw [if_neg h1, if_neg h2, if_neg h3, if_neg h4]
  by_cases h5 : c.period ≠ 0 ∧ (c.period < 30 ∨ 180 < c.period)
  · have h5' : ¬ (c.period = 0 ∨ 30 ≤ c.period ∧ c.period ≤ 180) := by omega
    rw [if_pos h5]
    simp only [h1, h2, h3', h4', h5', not_false_eq_true, not_true_eq_false, ne_eq, true_and, false_and, or_false, false_or]
    simp [eq_comm]
  have h5' : c.period = 0 ∨ 30 ≤ c.period ∧ c.period ≤ 180 := by omega
  rw [if_neg h5]
  by_cases h6 : ¬ (c.type = gs! "totp" ∨ c.type = gs! "hotp")
  · rw [if_pos h6]
    simp only [h1, h2, h3', h4', h5', h6, not_false_eq_true, not_true_eq_false, ne_eq, true_and, false_and, or_false, false_or]
    simp [eq_comm]
  rw [if_neg h6]
  have h6 := Classical.not_not.1 h6
  by_cases h7 : c.type = gs! "hotp" ∧ c.counter < 1
  · have h7' : ¬ (¬ c.type = gs! "hotp" ∨ 1 ≤ c.counter) := by
      rintro (h | h)
      · exact h h7.1
      · have := h7.2; omega
    rw [if_pos h7]
    simp only [h1, h2, h3', h4', h5', h6, h7', not_false_eq_true, not_true_eq_false, ne_eq, true_and, false_and, or_false, false_or]
    simp [eq_comm]
  have h7' : ¬ c.type = gs! "hotp" ∨ 1 ≤ c.counter := by
    rcases Int.lt_or_le c.counter 1 with hc | hc
    · exact .inl fun h => h7 ⟨h, hc⟩
    · exact .inr hc
  rw [if_neg h7]
  by_cases h8 : toLower c.algorithm = gs! "sha1" ∨ toLower c.algorithm = gs! "sha256" ∨ toLower c.algorithm = gs! "sha512" ∨
      toLower c.algorithm = []
  · have h8' : toLower c.algorithm ∈ [[], gs! "sha1", gs! "sha256", gs! "sha512"] := by
      simp only [List.mem_cons, List.not_mem_nil, or_false]
      rcases h8 with e | e | e | e
      · exact .inr (.inl e)
      · exact .inr (.inr (.inl e))
      · exact .inr (.inr (.inr e))
      · exact .inl e
    rw [if_pos h8]
    simp only [h1, h2, h3', h4', h5', h6, h7', h8', not_false_eq_true, not_true_eq_false, ne_eq, false_and, or_false, and_false]
    simp
  · have h8' : toLower c.algorithm ∉ [[], gs! "sha1", gs! "sha256", gs! "sha512"] := by
      simp only [List.mem_cons, List.not_mem_nil, or_false]
      rintro (e | e | e | e)
      · exact h8 (.inr (.inr (.inr e)))
      · exact h8 (.inl e)
      · exact h8 (.inr (.inl e))
      · exact h8 (.inr (.inr (.inl e)))
    rw [if_neg h8]
    simp only [h1, h2, h3', h4', h5', h6, h7', h8', not_false_eq_true, not_true_eq_false, ne_eq, true_and, false_and, or_false,
      false_or, and_false]
    simp [eq_comm]

example : (QrCode.build { type := gs! "totp", label := gs! "a b", secret := gs! "foobar", digits := 3, period := 7 }) =
    .err (.ext (gs! "digits must be between 4 and 8 numbers long")) := by decide +kernel

/-- C57: what `Build` stores: defaults, the text and its base64 form; the given fields are otherwise untouched. -/
theorem C57_build_result [Ext] {c c' : QrCode} (h : c.build = .ok c') :
    c' = { c.filled with text := c'.text, encoded := c'.encoded } ∧ b64Decode c'.encoded = some c'.text := by
  have ha := (C57_build_succeeds_iff c).1 ⟨c', h⟩
  unfold QrCode.build at h
  rw [QrCode.validate_ok ha] at h
  simp only [Res.ok.injEq] at h
  subst h
  exact ⟨rfl, b64_roundtrip _⟩

/-- The parameters of a code, as written. -/
def QrCode.params (c : QrCode) : List (GoString × GoString) :=
  [(gs! "secret", b32Encode c.secret)] ++
  (if c.issuer ≠ [] then [(gs! "issuer", queryEscape c.issuer)] else []) ++
  (if c.algorithm ≠ [] then [(gs! "algorithm", c.algorithm)] else []) ++
  (if c.digits > 0 then [(gs! "digits", intDec c.digits)] else []) ++
  (if c.counter > 0 then [(gs! "counter", intDec c.counter)] else []) ++
  (if c.period > 0 then [(gs! "period", intDec c.period)] else [])

theorem QrCode.uri_eq (c : QrCode) :
    c.uri = gs! "otpauth://" ++ (c.type ++ 47 :: (queryEscape c.label ++ 63 :: queryText c.params)) := by
  unfold QrCode.uri queryText QrCode.params
  by_cases h1 : c.issuer = [] <;> by_cases h2 : c.algorithm = [] <;> by_cases h3 : c.digits > 0 <;> by_cases h4 : c.counter > 0 <;>
    by_cases h5 : c.period > 0 <;> simp [h1, h2, h3, h4, h5, joinWith]

theorem intDec_pos {n : Int} (h : 0 < n) : intDec n = natDec n.toNat := by
  unfold intDec
  rw [if_neg (by omega)]
  congr 1
  omega

/-- C57: the text of a built code, read as an `otpauth` URI, gives back type, label, secret, issuer, algorithm in lower case,
digits, counter and period; a number that is not positive is left out and read as 0.  With `plus = false` the label is read
as URI paths are, where `+` stands for itself: spaces of the label come back as `+`. -/
theorem C57_text_reads_back [Ext] {c c' : QrCode} (h : c.build = .ok c') (plus : Bool) :
    Uri.read plus c'.text = some {
      type := c.type
      label := c.label.map fun b => if !plus && b == 32 then 43 else b
      secret := c.secret
      issuer := c.issuer
      algorithm := toLower c.algorithm
      digits := if c.digits = 0 then 6 else c.digits.toNat
      counter := c.counter.toNat
      period := if c.period = 0 then 30 else c.period.toNat } := by
  have ha := (C57_build_succeeds_iff c).1 ⟨c', h⟩
  unfold QrCode.build at h
  rw [QrCode.validate_ok ha] at h
  simp only [Res.ok.injEq] at h
  subst h
  dsimp only
  have htype : (47 : UInt8) ∉ c.type := by
    rcases ha.type with e | ⟨e, _⟩ <;> rw [e] <;> decide
  have hlab : (63 : UInt8) ∉ queryEscape c.label := fun hx => (queryEscape_clean _ hx).2.2.2 rfl
  have halg : ∀ b ∈ toLower c.algorithm, b ≠ 37 ∧ b ≠ 43 ∧ b ≠ 38 := by
    have := ha.algorithm
    simp only [List.mem_cons, List.not_mem_nil, or_false] at this
    rcases this with e | e | e | e <;> rw [e] <;> decide
  have hd : 0 < c.filled.digits := by
    show 0 < if c.digits = 0 then 6 else c.digits
    have := ha.digits
    split <;> omega
  have hp : 0 < c.filled.period := by
    show 0 < if c.period = 0 then 30 else c.period
    have := ha.period
    split <;> omega
  have hclean : ∀ p ∈ c.filled.params, (38 : UInt8) ∉ p.1 ∧ (61 : UInt8) ∉ p.1 ∧ (38 : UInt8) ∉ p.2 := by
    intro p hpm
    have hnum : ∀ (k : GoString) {n : Int}, (38 : UInt8) ∉ k → (61 : UInt8) ∉ k → 0 < n → p ∈ [(k, intDec n)] →
        (38 : UInt8) ∉ p.1 ∧ (61 : UInt8) ∉ p.1 ∧ (38 : UInt8) ∉ p.2 := by
      intro k n h1 h2 hn hm
      simp only [List.mem_singleton] at hm
      subst hm
      refine ⟨h1, h2, fun hx => ?_⟩
      dsimp only at hx
      rw [intDec_pos hn] at hx
      exact natDec_clean _ _ hx rfl
    unfold QrCode.params at hpm
    simp only [List.mem_append] at hpm
    rcases hpm with ((((hm | hm) | hm) | hm) | hm) | hm
    · simp only [List.mem_singleton] at hm; subst hm
      exact ⟨by dsimp only; decide, by dsimp only; decide, b32Encode_clean _⟩
    · split at hm
      · simp only [List.mem_singleton] at hm; subst hm
        exact ⟨by dsimp only; decide, by dsimp only; decide, fun hx => (queryEscape_clean _ hx).1 rfl⟩
      · simp at hm
    · split at hm
      · simp only [List.mem_singleton] at hm; subst hm
        exact ⟨by dsimp only; decide, by dsimp only; decide, fun hx => (halg _ hx).2.2 rfl⟩
      · simp at hm
    · rw [if_pos hd] at hm
      exact hnum _ (by decide) (by decide) hd hm
    · by_cases hpos : c.filled.counter > 0
      · rw [if_pos hpos] at hm
        exact hnum _ (by decide) (by decide) hpos hm
      · rw [if_neg hpos] at hm; simp at hm
    · rw [if_pos hp] at hm
      exact hnum _ (by decide) (by decide) hp hm
  have hne : c.filled.params ≠ [] := by unfold QrCode.params; simp
  have hpre : (gs! "otpauth://").isPrefixOf (gs! "otpauth://" ++ (c.filled.type ++ 47 ::
      (queryEscape c.filled.label ++ 63 :: queryText c.filled.params))) = true :=
    List.isPrefixOf_iff_prefix.2 (List.prefix_append _ _)
  have hdrop : (gs! "otpauth://" ++ (c.filled.type ++ 47 ::
      (queryEscape c.filled.label ++ 63 :: queryText c.filled.params))).drop 10 =
      c.filled.type ++ 47 :: (queryEscape c.filled.label ++ 63 :: queryText c.filled.params) := rfl
  -- the parameters found by name
  have hsec : c.filled.params.lookup (gs! "secret") = some (b32Encode c.secret) := by
    unfold QrCode.params; simp; rfl
  have hiss : Uri.unescape true ((c.filled.params.lookup (gs! "issuer")).getD []) = some c.issuer := by
    have : (c.filled.params.lookup (gs! "issuer")).getD [] = if c.issuer = [] then [] else queryEscape c.issuer := by
      have e : c.filled.issuer = c.issuer := rfl
      unfold QrCode.params
      rw [e]
      by_cases h1 : c.issuer = [] <;> by_cases h2 : c.filled.algorithm = [] <;> by_cases h4 : c.filled.counter > 0 <;>
        simp [List.lookup, h1, h2, hd, h4, hp]
    rw [this]
    by_cases h1 : c.issuer = []
    · rw [if_pos h1, h1]; rfl
    · rw [if_neg h1, unescape_queryEscape]; simp
  have halgo : Uri.unescape true ((c.filled.params.lookup (gs! "algorithm")).getD []) = some (toLower c.algorithm) := by
    have : (c.filled.params.lookup (gs! "algorithm")).getD [] = toLower c.algorithm := by
      have e : c.filled.algorithm = toLower c.algorithm := rfl
      unfold QrCode.params
      rw [e]
      by_cases h1 : c.filled.issuer = [] <;> by_cases h2 : toLower c.algorithm = [] <;> by_cases h4 : c.filled.counter > 0 <;>
        simp [List.lookup, h1, h2, hd, h4, hp]
    rw [this]
    exact unescape_self _ fun b hb => ⟨(halg b hb).1, (halg b hb).2.1⟩
  have hdig : Uri.number (c.filled.params.lookup (gs! "digits")) = some (if c.digits = 0 then 6 else c.digits.toNat) := by
    have : c.filled.params.lookup (gs! "digits") = some (intDec c.filled.digits) := by
      unfold QrCode.params
      by_cases h1 : c.filled.issuer = [] <;> by_cases h2 : c.filled.algorithm = [] <;> by_cases h4 : c.filled.counter > 0 <;>
        simp [List.lookup, h1, h2, hd, h4, hp]
    rw [this, intDec_pos hd, number_natDec]
    show some (if c.digits = 0 then 6 else c.digits).toNat = _
    split <;> rfl
  have hcnt : Uri.number (c.filled.params.lookup (gs! "counter")) = some c.counter.toNat := by
    have e : c.filled.counter = c.counter := rfl
    have : c.filled.params.lookup (gs! "counter") = if c.counter > 0 then some (intDec c.counter) else none := by
      unfold QrCode.params
      rw [e]
      by_cases h1 : c.filled.issuer = [] <;> by_cases h2 : c.filled.algorithm = [] <;> by_cases h4 : c.counter > 0 <;>
        simp [List.lookup, h1, h2, hd, h4, hp]
    rw [this]
    by_cases h4 : c.counter > 0
    · rw [if_pos h4, intDec_pos h4, number_natDec]
    · rw [if_neg h4]
      have : c.counter.toNat = 0 := by omega
      rw [this]; rfl
  have hper : Uri.number (c.filled.params.lookup (gs! "period")) = some (if c.period = 0 then 30 else c.period.toNat) := by
    have : c.filled.params.lookup (gs! "period") = some (intDec c.filled.period) := by
      unfold QrCode.params
      by_cases h1 : c.filled.issuer = [] <;> by_cases h2 : c.filled.algorithm = [] <;> by_cases h4 : c.filled.counter > 0 <;>
        simp [List.lookup, h1, h2, hd, h4, hp]
    rw [this, intDec_pos hp, number_natDec]
    show some (if c.period = 0 then 30 else c.period).toNat = _
    split <;> rfl
  rw [QrCode.uri_eq]
  unfold Uri.read
  rw [if_pos hpre, hdrop]
  have et : c.filled.type = c.type := rfl
  have el : c.filled.label = c.label := rfl
  rw [et, el]
  simp only [Option.bind_eq_bind, Option.bind_some, cut_append htype, cut_append hlab, unescape_queryEscape,
    rawParams_queryText hne hclean, hsec, b32_roundtrip, hiss, halgo, hdig, hcnt, hper]

/-- C57: two codes with the same text carry the same parameters. -/
theorem C57_text_determines_parameters [Ext] {c d c' d' : QrCode} (hc : c.build = .ok c') (hd : d.build = .ok d')
    (h : c'.text = d'.text) :
    c.type = d.type ∧ c.label = d.label ∧ c.secret = d.secret ∧ c.issuer = d.issuer ∧
      c'.algorithm = d'.algorithm ∧ c'.digits = d'.digits ∧ c.counter.toNat = d.counter.toNat ∧ c'.period = d'.period := by
  have h1 := C57_text_reads_back hc true
  have h2 := C57_text_reads_back hd true
  have a1 := (C57_build_succeeds_iff c).1 ⟨_, hc⟩
  have a2 := (C57_build_succeeds_iff d).1 ⟨_, hd⟩
  have r1 := (C57_build_result hc).1
  have r2 := (C57_build_result hd).1
  rw [h, h2] at h1
  simp only [Bool.not_true, Bool.false_and, Bool.false_eq_true, if_false, List.map_id', Option.some.injEq, Uri.Otp.mk.injEq] at h1
  obtain ⟨e1, e2, e3, e4, e5, e6, e7, e8⟩ := h1
  have p1 := a1.digits
  have p2 := a2.digits
  have q1 := a1.period
  have q2 := a2.period
  refine ⟨e1.symm, e2.symm, e3.symm, e4.symm, ?_, ?_, e7.symm, ?_⟩
  · rw [r1, r2]; exact e5.symm
  · rw [r1, r2]
    show (if c.digits = 0 then 6 else c.digits) = if d.digits = 0 then 6 else d.digits
    by_cases x : c.digits = 0 <;> by_cases y : d.digits = 0 <;> simp only [x, y, if_true, if_false] at e6 ⊢ <;> omega
  · rw [r1, r2]
    show (if c.period = 0 then 30 else c.period) = if d.period = 0 then 30 else d.period
    by_cases x : c.period = 0 <;> by_cases y : d.period = 0 <;> simp only [x, y, if_true, if_false] at e8 ⊢ <;> omega

/-- C57, a defect: the label is escaped as query strings are, but stands in the path.  An application that reads paths as RFC
3986 says gets the label back exactly if it has no space. -/
theorem C57_label_read_as_path_iff [Ext] {c c' : QrCode} (h : c.build = .ok c') :
    (∃ o, Uri.read false c'.text = some o ∧ o.label = c.label) ↔ (32 : UInt8) ∉ c.label := by
  rw [C57_text_reads_back h false]
  simp only [Bool.not_false, Bool.true_and, Option.some.injEq, exists_eq_left']
  constructor
  · intro e hm
    have : ∀ l : GoString, (l.map fun b => if (b == 32) = true then 43 else b) = l → (32 : UInt8) ∉ l := by
      intro l
      induction l with
      | nil => simp
      | cons b l ih =>
        intro e
        simp only [List.map_cons, List.cons.injEq] at e
        simp only [List.mem_cons, not_or]
        refine ⟨?_, ih e.2⟩
        rintro rfl
        exact absurd e.1 (by decide)
    exact this _ e hm
  · intro hm
    conv => rhs; rw [← List.map_id c.label]
    apply List.map_congr_left
    intro b hb
    have : b ≠ 32 := by rintro rfl; exact hm hb
    simp [this]

/-- A hexadecimal digit and its value; letters are capitals. -/
def UpperHex (d : UInt8) (n : Nat) : Prop := (n < 10 ∧ d.toNat = 48 + n) ∨ (10 ≤ n ∧ n < 16 ∧ d.toNat = 55 + n)

/-- The bytes that stand for themselves in a query: letters, digits and `-`, `_`, `.`, `~`. -/
def Unreserved (b : UInt8) : Prop :=
  (48 ≤ b ∧ b ≤ 57) ∨ (65 ≤ b ∧ b ≤ 90) ∨ (97 ≤ b ∧ b ≤ 122) ∨ b = 45 ∨ b = 95 ∨ b = 46 ∨ b = 126

/-- `e` is `s` escaped for a query: a space is `+`, any other byte that does not stand for itself is `%` and two digits. -/
inductive Escaped : GoString → GoString → Prop
  | nil : Escaped [] []
  | plain {b : UInt8} {s e : GoString} : Unreserved b → Escaped s e → Escaped (b :: s) (b :: e)
  | space {s e : GoString} : Escaped s e → Escaped (32 :: s) (43 :: e)
  | percent {b h l : UInt8} {s e : GoString} {n m : Nat} : ¬ Unreserved b → b ≠ 32 → UpperHex h n → UpperHex l m →
      b.toNat = 16 * n + m → Escaped s e → Escaped (b :: s) (37 :: h :: l :: e)

theorem upperHex_spec : ∀ n, n < 16 → UpperHex (upperHex n) n := by
  unfold UpperHex; decide +kernel

theorem unreserved_iff (b : UInt8) :
    (isAlnum b || b == 45 || b == 95 || b == 46 || b == 126) = true ↔ Unreserved b := by
  unfold Unreserved
  have key : ∀ n : Fin 256, (isAlnum (UInt8.ofNat n.val) || UInt8.ofNat n.val == 45 || UInt8.ofNat n.val == 95 ||
      UInt8.ofNat n.val == 46 || UInt8.ofNat n.val == 126) = true ↔
      ((48 ≤ UInt8.ofNat n.val ∧ UInt8.ofNat n.val ≤ 57) ∨ (65 ≤ UInt8.ofNat n.val ∧ UInt8.ofNat n.val ≤ 90) ∨
        (97 ≤ UInt8.ofNat n.val ∧ UInt8.ofNat n.val ≤ 122) ∨ UInt8.ofNat n.val = 45 ∨ UInt8.ofNat n.val = 95 ∨
        UInt8.ofNat n.val = 46 ∨ UInt8.ofNat n.val = 126) := by decide +kernel
  exact forall_bytes (P := fun b => (isAlnum b || b == 45 || b == 95 || b == 46 || b == 126) = true ↔
    ((48 ≤ b ∧ b ≤ 57) ∨ (65 ≤ b ∧ b ≤ 90) ∨ (97 ≤ b ∧ b ≤ 122) ∨ b = 45 ∨ b = 95 ∨ b = 46 ∨ b = 126)) key b

theorem escaped_queryEscape (s : GoString) : Escaped s (queryEscape s) := by
  induction s with
  | nil => exact .nil
  | cons b s ih =>
    show Escaped (b :: s) (escapeByte b ++ queryEscape s)
    unfold escapeByte
    by_cases h : Unreserved b
    · rw [if_pos ((unreserved_iff b).2 h)]
      exact .plain h ih
    rw [if_neg (fun e => h ((unreserved_iff b).1 e))]
    by_cases h2 : b = 32
    · subst h2
      exact .space ih
    rw [if_neg (by simpa using h2)]
    have := b.toNat_lt
    exact .percent h h2 (upperHex_spec _ (by omega)) (upperHex_spec _ (by omega)) (by omega) ih

/-- C57: the text letter by letter: label and issuer are escaped with capital hexadecimal digits, the other parameters follow in a
fixed order, and those without a value are left out. -/
theorem C57_text_exact [Ext] {c c' : QrCode} (h : c.build = .ok c') :
    ∃ l i, Escaped c.label l ∧ Escaped c.issuer i ∧
      c'.text = gs! "otpauth://" ++ c.type ++ gs! "/" ++ l ++ gs! "?secret=" ++ b32Encode c.secret ++
        (if c.issuer = [] then [] else gs! "&issuer=" ++ i) ++
        (if toLower c.algorithm = [] then [] else gs! "&algorithm=" ++ toLower c.algorithm) ++
        gs! "&digits=" ++ intDec (if c.digits = 0 then 6 else c.digits) ++
        (if 0 < c.counter then gs! "&counter=" ++ intDec c.counter else []) ++
        gs! "&period=" ++ intDec (if c.period = 0 then 30 else c.period) := by
  have ha := (C57_build_succeeds_iff c).1 ⟨c', h⟩
  unfold QrCode.build at h
  rw [QrCode.validate_ok ha] at h
  simp only [Res.ok.injEq] at h
  subst h
  refine ⟨_, _, escaped_queryEscape _, escaped_queryEscape _, ?_⟩
  have hd : 0 < (if c.digits = 0 then 6 else c.digits) := by have := ha.digits; split <;> omega
  have hp : 0 < (if c.period = 0 then 30 else c.period) := by have := ha.period; split <;> omega
  show QrCode.uri c.filled = _
  unfold QrCode.uri QrCode.filled
  dsimp only
  rw [if_pos hd, if_pos hp]
  by_cases h1 : c.issuer = [] <;> by_cases h2 : toLower c.algorithm = [] <;> simp [h1, h2]

-- A code with every parameter, and what is read back.
def Toy.qrCode : QrCode :=
  { type := gs! "hotp", label := gs! "ACME & co/joe", secret := gs! "s3cr3t!", issuer := gs! "ACME=1", algorithm := gs! "SHA256",
    digits := 8, counter := 7 }

example : (match qrCode.build with
    | .ok c' => c'.text
    | _ => []) = gs! "otpauth://hotp/ACME+%26+co%2Fjoe?secret=OMZWG4RTOQQQ&issuer=ACME%3D1&algorithm=sha256&digits=8&counter=7&period=30" := by
  decide +kernel

example : (match qrCode.build with
    | .ok c' => (Uri.read true c'.text, Uri.read false c'.text)
    | _ => (none, none)) =
  (some ⟨gs! "hotp", gs! "ACME & co/joe", gs! "s3cr3t!", gs! "ACME=1", gs! "sha256", 8, 7, 30⟩,
   some ⟨gs! "hotp", gs! "ACME+&+co/joe", gs! "s3cr3t!", gs! "ACME=1", gs! "sha256", 8, 7, 30⟩) := by decide +kernel

-- Codes that are refused.
example : ∀ c ∈ [{ qrCode with secret := gs! "short" }, { qrCode with digits := 9 }, { qrCode with period := 29 },
    { qrCode with counter := 0 }, { qrCode with algorithm := gs! "md5" }, { qrCode with label := [] }],
    (match c.build with | .ok _ => true | _ => false) = false := by decide +kernel

end GoIdentity
