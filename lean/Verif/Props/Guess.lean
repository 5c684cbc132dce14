import Verif.Lemmas.Guess
import Verif.Props.Totp
import Verif.Props.Keys
import Mathlib.Tactic.Ring
/-!
# Guessing one-time passcodes: C104
-/
namespace GoIdentity
open Toy

/-- All codes of `n` digits in order: 000…0, 000…1, …, 999…9. -/
def allCodes (n : Nat) : List GoString := (List.range (10 ^ n)).map (padDec n)

theorem mem_allCodes {n : Nat} (hn : 0 < n) {c : GoString} : c ∈ allCodes n ↔ c.length = n ∧ ∀ b ∈ c, IsDigit b := by
  unfold allCodes
  rw [List.mem_map]
  constructor
  · rintro ⟨k, hk, rfl⟩
    have := padDec_spec hn (List.mem_range.1 hk)
    exact ⟨this.1, this.2.1⟩
  · rintro ⟨h1, h2⟩
    have hlt : decVal c < 10 ^ n := h1 ▸ decVal_lt h2
    obtain ⟨a, b, d⟩ := padDec_spec hn hlt
    exact ⟨decVal c, List.mem_range.2 hlt, decVal_inj b h2 (by rw [a, h1]) d⟩

theorem nodup_allCodes {n : Nat} (hn : 0 < n) : (allCodes n).Nodup := by
  refine List.Nodup.map_on (fun a ha b hb h => ?_) List.nodup_range
  have h1 := (padDec_spec hn (List.mem_range.1 ha)).2.2
  have h2 := (padDec_spec hn (List.mem_range.1 hb)).2.2
  rw [← h1, ← h2, h]

/-- C104: of the 10^digits codes at least one and at most three are accepted at any moment, and nothing else is accepted:
so whoever tries them all at one moment gets in. -/
theorem C104_at_most_three [Ext] {p : MfaToken} {h : HashAlg} (ha : AlgNamed p.algorithm h) (hd : 4 ≤ p.digits ∧ p.digits ≤ 8)
    (unix : Int) :
    1 ≤ ((allCodes p.digits.toNat).filter fun c => validateCodeWithTime p c unix = .ok ()).length ∧
    ((allCodes p.digits.toNat).filter fun c => validateCodeWithTime p c unix = .ok ()).length ≤ 3 ∧
    (allCodes p.digits.toNat).length = 10 ^ p.digits.toNat ∧
    ∀ c, validateCodeWithTime p c unix = .ok () → trimSpace c ∈ allCodes p.digits.toNat := by
  have hn : 0 < p.digits.toNat := by omega
  have htrim : ∀ c : GoString, (∀ b ∈ c, IsDigit b) → trimSpace c = c := fun c hc =>
    trimSpace_of_graph fun b hb => by have := hc b hb; unfold IsDigit at this; omega
  have hotp : ∀ s < 2 ^ 64, ∃ c, IsOtp h p.secret p.digits.toNat s c := fun s hs => by
    obtain ⟨c, _, hc⟩ := generate_spec (secret := p.secret) ha hn hs
    exact ⟨c, hc⟩
  have key := fun c => (validate_spec ha c unix).1
  generalize htp : timeStep unix p.period % 2 ^ 64 = tp at key
  have htp2 : tp < 2 ^ 64 := htp ▸ Nat.mod_lt _ (Nat.two_pow_pos 64)
  obtain ⟨c1, h1⟩ := hotp tp htp2
  obtain ⟨c2, h2⟩ := hotp ((tp + 1) % 2 ^ 64) (Nat.mod_lt _ (Nat.two_pow_pos 64))
  obtain ⟨c3, h3⟩ := hotp ((tp + (2 ^ 64 - 1)) % 2 ^ 64) (Nat.mod_lt _ (Nat.two_pow_pos 64))
  have hall : ∀ c, validateCodeWithTime p c unix = .ok () → trimSpace c ∈ [c1, c2, c3] := by
    intro c hc
    obtain ⟨_, _, s, hs, ho⟩ := (key c).1 hc
    simp only [List.mem_cons, List.not_mem_nil, or_false] at hs ⊢
    rcases hs with hs | hs | hs
    · rw [hs] at ho; exact .inl (ho.unique h1)
    · rw [hs] at ho; exact .inr (.inl (ho.unique h2))
    · rw [hs] at ho; exact .inr (.inr (ho.unique h3))
  have hmem : ∀ {s c}, IsOtp h p.secret p.digits.toNat s c → c ∈ allCodes p.digits.toNat := by
    rintro s c ⟨_, _, _, h3, h4, _⟩
    exact (mem_allCodes hn).2 ⟨h3, h4⟩
  refine ⟨?_, ?_, by simp [allCodes], ?_⟩
  · apply List.length_pos_of_mem (a := c1)
    rw [List.mem_filter]
    refine ⟨hmem h1, decide_eq_true ((key c1).2 ⟨hd.1, hd.2, tp, by simp, ?_⟩)⟩
    rw [htrim c1 ((mem_allCodes hn).1 (hmem h1)).2]
    exact h1
  · have hsub : ((allCodes p.digits.toNat).filter fun c => validateCodeWithTime p c unix = .ok ()) ⊆ [c1, c2, c3] := by
      intro c hc
      rw [List.mem_filter] at hc
      have := hall c (of_decide_eq_true hc.2)
      rwa [htrim c ((mem_allCodes hn).1 hc.1).2] at this
    exact (((nodup_allCodes hn).filter _).subperm hsub).length_le
  · intro c hc
    obtain ⟨_, _, s, _, ho⟩ := (key c).1 hc
    exact hmem ho

/-- A token that an authenticator application or a security key answers for. -/
def MfaToken.Known (t : MfaToken) : Prop :=
  (t.type = gs! "totp" ∧ (∃ h, AlgNamed t.algorithm h) ∧ 30 ≤ t.period ∧ t.period ≤ 300 ∧ 4 ≤ t.digits ∧ t.digits ≤ 8) ∨
    t.type = gs! "u2f"

theorem newMfaToken_known [Ext] {nd : Nondet} {req req' : Request} {t : MfaToken} (h : newMfaToken nd req = (.ok t, req')) :
    t.Known := by
  unfold newMfaToken at h
  dsimp only at h
  split at h
  · rename_i ht
    injection h with h _
    obtain ⟨alg, ha, digits, _, hn, h1, h2, _, h4, h5, rfl, _⟩ := newTotp_ok.1 h
    exact .inl ⟨ht, ⟨ha, hn⟩, h1, h2, h4, h5⟩
  · split at h
    · rename_i ht
      injection h with h _
      right
      unfold newU2F u2fFromRegister at h
      revert h
      repeat' split
      all_goals first | (intro h; simp at h; done) | (intro h; injection h with h; subst h; exact ht)
    · split at h <;> simp at h

/-- C104: in every history of a database created empty (or opened with the property) every stored token is a TOTP token with
one of the three algorithms, a period of 30 to 300 seconds and 4 to 8 digits, or a U2F token. -/
theorem C104_stored_tokens [Ext] {db : Database}
    (h : Reach (fun d => Created d ∨ Opened d ∧ ∀ u ∈ d.users, ∀ t ∈ u.mfaTokens, t.Known) db) :
    ∀ u ∈ db.users, ∀ t ∈ u.mfaTokens, t.Known := by
  refine reach_forall_users (P := fun u => ∀ t ∈ u.mfaTokens, t.Known) ?_ ?_ ?_ h
  · rintro d (hd | hd)
    · rw [created_users hd]; simp
    · exact hd.2
  · intro nd req db p e roles name _ _
    simp [newUserOf, User.zero]
  · intro nd req db c u u' _ hu hop
    cases hop with
    | addMfaToken t req' ht hnew =>
      intro x hx
      simp only [User.revise, List.mem_append, List.mem_cons, List.not_mem_nil, or_false] at hx
      rcases hx with hx | rfl
      · exact hu x hx
      · exact newMfaToken_known ht
    | deleteMfaToken => exact fun x hx => hu x (List.mem_filter.1 hx).1
    | _ => exact hu

/-- C104: so for every stored TOTP token one of the at most 10^8 codes of its length is accepted, whatever the moment. -/
theorem C104_brute_force [Ext] {db : Database} (h : Reach Created db) {u : User} (hu : u ∈ db.users) {t : MfaToken}
    (ht : t ∈ u.mfaTokens) (htotp : t.type = gs! "totp") (unix : Int) :
    (allCodes t.digits.toNat).length ≤ 10 ^ 8 ∧ ∃ c ∈ allCodes t.digits.toNat, validateCode t c unix = .ok () := by
  have hr := h.mono (Q := fun d => Created d ∨ Opened d ∧ ∀ u ∈ d.users, ∀ t ∈ u.mfaTokens, t.Known) fun _ hd => .inl hd
  rcases C104_stored_tokens hr u hu t ht with ⟨_, ⟨a, ha⟩, _, _, hd⟩ | h2
  · obtain ⟨h1, _, h3, _⟩ := C104_at_most_three ha hd unix
    refine ⟨?_, ?_⟩
    · rw [h3]; exact Nat.pow_le_pow_right (by omega) (by omega)
    · obtain ⟨c, hc⟩ := List.exists_mem_of_length_pos h1
      rw [List.mem_filter] at hc
      exact ⟨c, hc.1, by rw [(C30_validate_code t c unix).1 htotp]; exact of_decide_eq_true hc.2⟩
  · rw [h2] at htotp; exact absurd htotp (by decide)

/-- C104: the 31-bit number is unbiased: each of the 2^31 numbers is read from the same number of digests, for the digest
sizes 20, 32 and 64 of the three algorithms (and every other from 20 on). -/
theorem C104_truncation_unbiased {n v : Nat} (hn : 20 ≤ n) (hv : v < 2 ^ 31) :
    (Finset.univ.filter fun d : Guess.Digest n => truncate d.bytes = some v).card * 2 ^ 31 = 256 ^ n := by
  rw [← Guess.fiber_card hn hv]
  congr 2
  apply Finset.filter_congr
  intro d _
  rw [truncate_spec (by rw [Guess.bytes_length]; exact hn), Option.some.injEq]

/-- C104: so the share of the digests that lead to a code is that of the 31-bit numbers that do: 2^31 / 10^digits, rounded
down, and one more for the codes below 2^31 mod 10^digits. -/
theorem C104_code_odds {n digits : Nat} (hn : 20 ≤ n) (hd : 0 < digits) {code : GoString} (hc : code ∈ allCodes digits) :
    (Finset.univ.filter fun d : Guess.Digest n => ∃ v, truncate d.bytes = some v ∧ padDec digits (v % 10 ^ digits) = code).card *
      2 ^ 31 = 256 ^ n * (2 ^ 31 / 10 ^ digits + if decVal code < 2 ^ 31 % 10 ^ digits then 1 else 0) := by
  obtain ⟨h1, h2⟩ := (mem_allCodes hd).1 hc
  rw [← Guess.residue_card hn (h1 ▸ decVal_lt h2 : decVal code < 10 ^ digits)]
  congr 2
  apply Finset.filter_congr
  intro d _
  rw [truncate_spec (by rw [Guess.bytes_length]; exact hn)]
  have hp := padDec_spec hd (Nat.mod_lt (otpNumber d.bytes) (Nat.pow_pos (by omega : 0 < 10)))
  constructor
  · rintro ⟨v, hv, he⟩
    cases hv
    rw [← he, hp.2.2]
  · intro he
    exact ⟨_, rfl, decVal_inj hp.2.1 h2 (by rw [hp.1, h1]) (by rw [hp.2.2, he])⟩

/-- C104: hence no code of 4 to 8 digits has more than its share of the digests by over five percent: `1 / 10^digits` times
`22 / 21` at most. -/
theorem C104_nearly_uniform {n digits : Nat} (hn : 20 ≤ n) (hd : 4 ≤ digits ∧ digits ≤ 8) {code : GoString}
    (hc : code ∈ allCodes digits) :
    (Finset.univ.filter fun d : Guess.Digest n => ∃ v, truncate d.bytes = some v ∧ padDec digits (v % 10 ^ digits) = code).card *
      10 ^ digits * 21 ≤ 256 ^ n * 22 := by
  have h := C104_code_odds hn (by omega) hc
  generalize (Finset.univ.filter fun d : Guess.Digest n => ∃ v, truncate d.bytes = some v ∧
    padDec digits (v % 10 ^ digits) = code).card = k at h ⊢
  generalize 256 ^ n = N at h ⊢
  have hq : (2 ^ 31 / 10 ^ digits + if decVal code < 2 ^ 31 % 10 ^ digits then 1 else 0) * 10 ^ digits * 21 ≤ 2 ^ 31 * 22 := by
    obtain ⟨hd1, hd2⟩ := hd
    have : digits = 4 ∨ digits = 5 ∨ digits = 6 ∨ digits = 7 ∨ digits = 8 := by omega
    rcases this with rfl | rfl | rfl | rfl | rfl <;> split <;> decide
  generalize (2 ^ 31 / 10 ^ digits + if decVal code < 2 ^ 31 % 10 ^ digits then 1 else 0) = q at h hq
  have h2 : k * 10 ^ digits * 21 * 2 ^ 31 ≤ N * 22 * 2 ^ 31 := by
    calc k * 10 ^ digits * 21 * 2 ^ 31 = (k * 2 ^ 31) * (10 ^ digits * 21) := by ring
      _ = N * (q * 10 ^ digits * 21) := by rw [h]; ring
      _ ≤ N * (2 ^ 31 * 22) := Nat.mul_le_mul_left _ hq
      _ = N * 22 * 2 ^ 31 := by ring
  exact Nat.le_of_mul_le_mul_right h2 (Nat.two_pow_pos 31)

-- A token of four digits: ten thousand tries suffice; here the accepted codes are those of the three steps.
def toyToken4 : MfaToken := { toyToken with digits := 4 }
example : ∃ c ∈ allCodes 4, validateCodeWithTime toyToken4 c 1000000000 = .ok () := by
  have h := C104_at_most_three (p := toyToken4) (.inl ⟨rfl, rfl⟩) (by decide) 1000000000
  obtain ⟨c, hc⟩ := List.exists_mem_of_length_pos h.1
  rw [List.mem_filter] at hc
  exact ⟨c, hc.1, of_decide_eq_true hc.2⟩
example : allCodes 1 = [gs! "0", gs! "1", gs! "2", gs! "3", gs! "4", gs! "5", gs! "6", gs! "7", gs! "8", gs! "9"] := by
  decide +kernel
example : gs! "0042" ∈ allCodes 4 := (mem_allCodes (by decide)).2 (by decide)
-- With eight digits a code below 47483648 has 22 of the 2^31 numbers behind it, another 21.
example : 2 ^ 31 / 10 ^ 8 = 21 ∧ 2 ^ 31 % 10 ^ 8 = 47483648 := by decide
example : (Finset.univ.filter fun d : Guess.Digest 20 => truncate d.bytes = some 1284755224).card * 2 ^ 31 = 256 ^ 20 :=
  C104_truncation_unbiased (by decide) (by decide)

-- Joe's token of `dbTok`.
example : Reach Created dbTok := .step (.step (.step (.init db0_created) ..) ..) ..
example : (dbTok.users.map fun u => u.mfaTokens.map fun t => (t.type, t.digits)) = [[(gs! "totp", 6)], []] := by decide +kernel

end GoIdentity
