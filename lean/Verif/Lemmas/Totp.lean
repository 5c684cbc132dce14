import Verif.Lemmas.Sha
import Verif.Lemmas.Decimal
import Verif.Lemmas.Trim
import Verif.Model.Mfa
import Verif.Spec.Laws
/-!
# One-time passcodes
-/
set_option linter.unusedSectionVars false
namespace GoIdentity

/-- Value of a big-endian byte string. -/
def bytesVal : GoString → Nat
  | [] => 0
  | b :: t => b.toNat * 256 ^ t.length + bytesVal t

theorem bytesVal_lt (s : GoString) : bytesVal s < 256 ^ s.length := by
  induction s with
  | nil => simp [bytesVal]
  | cons b t ih =>
    rw [bytesVal, List.length_cons, Nat.pow_succ]
    have hb : b.toNat ≤ 255 := by have := b.toNat_lt; omega
    have := Nat.mul_le_mul_right (256 ^ t.length) hb
    omega

theorem bytesVal_inj {s t : GoString} (hl : s.length = t.length) (hv : bytesVal s = bytesVal t) : s = t := by
  induction s generalizing t with
  | nil => exact (List.length_eq_zero_iff.1 hl.symm).symm
  | cons b s ih =>
    cases t with
    | nil => simp at hl
    | cons c t =>
      simp only [List.length_cons, Nat.add_right_cancel_iff] at hl
      have h1 := bytesVal_lt s
      have h2 := bytesVal_lt t
      rw [bytesVal, bytesVal, hl] at hv
      rw [hl] at h1
      have hb : b.toNat = c.toNat := by
        have e1 : (b.toNat * 256 ^ t.length + bytesVal s) / 256 ^ t.length = b.toNat := by
          rw [Nat.mul_comm, Nat.mul_add_div (Nat.pow_pos (by omega)), Nat.div_eq_of_lt h1, Nat.add_zero]
        have e2 : (c.toNat * 256 ^ t.length + bytesVal t) / 256 ^ t.length = c.toNat := by
          rw [Nat.mul_comm, Nat.mul_add_div (Nat.pow_pos (by omega)), Nat.div_eq_of_lt h2, Nat.add_zero]
        rw [← e1, hv, e2]
      have hbc := UInt8.toNat_inj.1 hb
      subst hbc
      rw [ih hl (by omega)]

/-- The model's loop computes the big-endian value. -/
theorem beVal_go (s : GoString) (a : Nat) :
    s.foldl (fun n b => n * 256 + b.toNat) a = a * 256 ^ s.length + bytesVal s := by
  induction s generalizing a with
  | nil => simp [bytesVal]
  | cons b t ih =>
    rw [List.foldl_cons, ih, bytesVal, List.length_cons, Nat.pow_succ, Nat.add_mul, Nat.mul_assoc, Nat.mul_comm 256,
      Nat.add_assoc]

theorem beVal_eq (s : GoString) : beVal s = bytesVal s := by rw [beVal, beVal_go]; simp

theorem be64_spec {n : Nat} (h : n < 2 ^ 64) : (be64 n).length = 8 ∧ bytesVal (be64 n) = n := by
  refine ⟨rfl, ?_⟩
  simp only [be64, bytesVal, List.length_cons, List.length_nil, UInt8.toNat_ofNat']
  omega

/-- The 31-bit number that RFC 4226 reads from an HMAC digest. -/
def otpNumber (sum : GoString) : Nat := bytesVal ((sum.drop ((sum.getLastD 0).toNat % 16)).take 4) % 2 ^ 31

theorem or_bytes {a b c d : Nat} (hb : b < 256) (hc : c < 256) (hd : d < 256) :
    (((a <<< 24) ||| (b <<< 16)) ||| (c <<< 8)) ||| d = a * 2 ^ 24 + b * 2 ^ 16 + c * 2 ^ 8 + d := by
  rw [Nat.or_assoc, Nat.or_assoc, ← Nat.shiftLeft_add_eq_or_of_lt (i := 8) (by omega : d < 2 ^ 8) c]
  have h1 : c <<< 8 + d < 2 ^ 16 := by rw [Nat.shiftLeft_eq]; omega
  rw [← Nat.shiftLeft_add_eq_or_of_lt h1 b]
  have h2 : b <<< 16 + (c <<< 8 + d) < 2 ^ 24 := by simp only [Nat.shiftLeft_eq]; omega
  rw [← Nat.shiftLeft_add_eq_or_of_lt h2 a]
  simp only [Nat.shiftLeft_eq]
  omega

theorem truncate_spec {sum : GoString} (h : 20 ≤ sum.length) : truncate sum = some (otpNumber sum) := by
  have hne : sum ≠ [] := by rintro rfl; simp at h
  have hlast : sum.getLast? = some (sum.getLastD 0) := by
    rw [List.getLastD_eq_getLast?, List.getLast?_eq_some_getLast hne]; rfl
  have hoff : ((sum.getLastD 0) &&& 0xf).toNat = (sum.getLastD 0).toNat % 16 := by
    rw [UInt8.toNat_and]
    exact Nat.and_two_pow_sub_one_eq_mod _ 4
  unfold truncate otpNumber
  rw [hlast]
  simp only [hoff]
  generalize hk : (sum.getLastD 0).toNat % 16 = k
  have hk16 : k < 16 := by omega
  rw [List.getElem?_eq_getElem (by omega : k < sum.length), List.getElem?_eq_getElem (by omega : k + 1 < sum.length),
    List.getElem?_eq_getElem (by omega : k + 2 < sum.length), List.getElem?_eq_getElem (by omega : k + 3 < sum.length)]
  have htake : (sum.drop k).take 4 = [sum[k], sum[k + 1], sum[k + 2], sum[k + 3]] := by
    apply List.ext_getElem
    · simp; omega
    · intro i h1 h2
      simp only [List.length_cons, List.length_nil] at h2
      rcases i with _ | _ | _ | _ | i
      · simp
      · simp
      · simp
      · simp
      · omega
  have h7f : ∀ n : Nat, n &&& 0x7f = n % 128 := fun n => Nat.and_two_pow_sub_one_eq_mod n 7
  have hff : ∀ b : UInt8, b.toNat &&& 0xff = b.toNat := fun b => by
    have := Nat.and_two_pow_sub_one_eq_mod b.toNat 8
    have hb := b.toNat_lt
    rw [show (2 : Nat) ^ 8 - 1 = 0xff from rfl] at this
    rw [this]; omega
  have hff' : ∀ b : UInt8, (b &&& 0xff).toNat = b.toNat := fun b => by
    rw [UInt8.toNat_and]; exact hff b
  rw [htake]
  simp only [h7f, hff, hff', bytesVal, List.length_cons, List.length_nil]
  rw [or_bytes (UInt8.toNat_lt _) (UInt8.toNat_lt _) (UInt8.toNat_lt _)]
  have a0 := (sum[k]).toNat_lt
  have a1 := (sum[k + 1]).toNat_lt
  have a2 := (sum[k + 2]).toNat_lt
  have a3 := (sum[k + 3]).toNat_lt
  congr 1
  omega

/-- The algorithm a token names. -/
def AlgNamed (s : GoString) (h : HashAlg) : Prop :=
  (s = gs! "sha1" ∧ h = .sha1) ∨ (s = gs! "sha256" ∧ h = .sha256) ∨ (s = gs! "sha512" ∧ h = .sha512)

variable [Ext]

/-- `code` is the one-time passcode of RFC 4226 for a secret and a counter: `digits` decimal digits whose value is the
31-bit number read from the HMAC of the 8-byte counter, modulo 10^digits. -/
def IsOtp (h : HashAlg) (secret : GoString) (digits counter : Nat) (code : GoString) : Prop :=
  ∃ msg : GoString, msg.length = 8 ∧ bytesVal msg = counter ∧ code.length = digits ∧ (∀ b ∈ code, IsDigit b) ∧
    decVal code = otpNumber (Sha.hmac h secret msg) % 10 ^ digits

theorem IsOtp.unique {h : HashAlg} {secret : GoString} {digits counter : Nat} {c c' : GoString}
    (h1 : IsOtp h secret digits counter c) (h2 : IsOtp h secret digits counter c') : c = c' := by
  obtain ⟨m, a1, a2, a3, a4, a5⟩ := h1
  obtain ⟨m', b1, b2, b3, b4, b5⟩ := h2
  have : m = m' := bytesVal_inj (by rw [a1, b1]) (by rw [a2, b2])
  subst this
  exact decVal_inj a4 b4 (by rw [a3, b3]) (by rw [a5, b5])

theorem hashAlg_ok {s : GoString} {h : HashAlg} (hn : AlgNamed s h) : hashAlg s = .ok h := by
  rcases hn with ⟨rfl, rfl⟩ | ⟨rfl, rfl⟩ | ⟨rfl, rfl⟩ <;> rfl

theorem hashAlg_iff {s : GoString} {h : HashAlg} : hashAlg s = .ok h ↔ AlgNamed s h := by
  constructor
  · intro hh
    unfold hashAlg at hh
    unfold AlgNamed
    repeat' split at hh
    all_goals simp_all
  · exact hashAlg_ok

theorem generate_spec {secret algo : GoString} {h : HashAlg} (ha : AlgNamed algo h) {digits ts : Nat}
    (hd : 0 < digits) (hts : ts < 2 ^ 64) :
    ∃ code, generateMfaCode secret algo digits ts = .ok code ∧ IsOtp h secret digits ts code := by
  have h20 : 20 ≤ (Sha.hmac h secret (be64 ts)).length := by
    rw [Sha.hmac_length]; cases h <;> simp [HashAlg.size]
  have hneg : ¬ ((digits : Int) < 0) := by omega
  unfold generateMfaCode
  simp only [hashAlg_ok ha, truncate_spec h20, hneg, if_false, Int.toNat_natCast]
  refine ⟨_, rfl, be64 ts, (be64_spec hts).1, (be64_spec hts).2, ?_⟩
  exact padDec_spec hd (Nat.mod_lt _ (Nat.pow_pos (by omega)))

theorem tryCodes_spec {secret algo code : GoString} {h : HashAlg} (ha : AlgNamed algo h) {digits : Nat}
    (hd : 0 < digits) {l : List Nat} (hts : ∀ s ∈ l, s < 2 ^ 64) :
    (tryCodes secret algo digits code l = .ok () ↔ ∃ s ∈ l, IsOtp h secret digits s code) ∧
    tryCodes secret algo digits code l ≠ .panic := by
  induction l with
  | nil => simp [tryCodes]
  | cons t ts ih =>
    obtain ⟨c, hc, ho⟩ := generate_spec (secret := secret) ha hd (hts t (by simp))
    have ih := ih fun s hs => hts s (by simp [hs])
    unfold tryCodes
    rw [hc]
    dsimp only
    split
    · rename_i hcc
      subst hcc
      simp only [true_iff]
      exact ⟨⟨t, by simp, ho⟩, by simp⟩
    · rename_i hcc
      refine ⟨?_, ih.2⟩
      rw [ih.1]
      simp only [List.mem_cons, exists_eq_or_imp]
      constructor
      · exact .inr
      · rintro (h1 | h1)
        · exact absurd (ho.unique h1) hcc
        · exact h1

theorem validate_spec {p : MfaToken} {h : HashAlg} (ha : AlgNamed p.algorithm h) (code : GoString)
    (unix : Int) :
    let tp := timeStep unix p.period % 2 ^ 64
    (validateCodeWithTime p code unix = .ok () ↔ 4 ≤ p.digits ∧ p.digits ≤ 8 ∧
      ∃ s ∈ [tp, (tp + 1) % 2 ^ 64, (tp + (2 ^ 64 - 1)) % 2 ^ 64], IsOtp h p.secret p.digits.toNat s (trimSpace code)) ∧
    validateCodeWithTime p code unix ≠ .panic := by
  intro tp
  unfold validateCodeWithTime
  dsimp only
  have hlen : ∀ {s : Nat}, IsOtp h p.secret p.digits.toNat s (trimSpace code) → (trimSpace code).length = p.digits.toNat := by
    rintro s ⟨_, _, _, h3, _⟩; exact h3
  split
  · rename_i h0
    refine ⟨?_, by simp⟩
    constructor
    · simp
    · rintro ⟨h1, h2, s, _, hs⟩
      have := hlen hs
      rw [h0] at this
      simp at this
      omega
  · split
    · rename_i h0
      refine ⟨?_, by simp⟩
      constructor
      · simp
      · rintro ⟨h1, h2, s, _, hs⟩
        have := hlen hs
        omega
    · split
      · rename_i h0
        refine ⟨?_, by simp⟩
        constructor
        · simp
        · rintro ⟨h1, h2, s, _, hs⟩
          have := hlen hs
          omega
      · rename_i h1 h2 h3
        have hdig : p.digits = ((trimSpace code).length : Int) := by omega
        have hd4 : 4 ≤ p.digits ∧ p.digits ≤ 8 := by omega
        have hnat : p.digits = (p.digits.toNat : Int) := by omega
        have key := tryCodes_spec (secret := p.secret) (code := trimSpace code) ha (digits := p.digits.toNat) (by omega)
          (l := [tp, (tp + 1) % 2 ^ 64, (tp + (2 ^ 64 - 1)) % 2 ^ 64]) (by
            intro s hs
            simp only [List.mem_cons, List.not_mem_nil, or_false] at hs
            rcases hs with h4 | h4 | h4 <;> (rw [h4]; exact Nat.mod_lt _ (Nat.two_pow_pos 64)))
        rw [← hnat] at key
        refine ⟨?_, key.2⟩
        rw [key.1]
        exact ⟨fun h => ⟨hd4.1, hd4.2, h⟩, fun h => h.2.2⟩

/-- The wrapping neighbours of a step, away from the ends. -/
theorem steps_mid {n : Nat} (h1 : 1 ≤ n) (h2 : n + 1 < 2 ^ 64) :
    [n % 2 ^ 64, (n % 2 ^ 64 + 1) % 2 ^ 64, (n % 2 ^ 64 + (2 ^ 64 - 1)) % 2 ^ 64] = [n, n + 1, n - 1] := by
  have e1 : n % 2 ^ 64 = n := Nat.mod_eq_of_lt (by omega)
  have e2 : (n + 1) % 2 ^ 64 = n + 1 := Nat.mod_eq_of_lt h2
  have e3 : (n + (2 ^ 64 - 1)) % 2 ^ 64 = n - 1 := by omega
  rw [e1, e2, e3]

theorem timeStep_eq {unix period : Int} (h0 : 0 ≤ unix) (hp : 0 < period) : timeStep unix period = (unix / period).toNat := by
  unfold timeStep; rw [if_pos ⟨h0, hp⟩]

end GoIdentity
