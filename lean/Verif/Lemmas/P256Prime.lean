import Verif.Model.P256
import Mathlib.NumberTheory.LucasPrimality
import Mathlib.Tactic.NormNum.Prime
/-!
# The field and the group order of P-256 are primes

By Pratt certificates: `p` is prime if some number has order exactly `p - 1`, which is checked on the prime factors of `p - 1`.
-/
namespace GoIdentity.P256

theorem powMod_cast (m a : Nat) : ∀ k e, e < 2 ^ k → ((powMod m a k e : Nat) : ZMod m) = (a : ZMod m) ^ e := by
  intro k
  induction k with
  | zero =>
    intro e he
    have : e = 0 := by simpa using he
    subst this
    simp [powMod]
  | succ k ih =>
    intro e he
    have h2 : e / 2 < 2 ^ k := by rw [pow_succ] at he; omega
    have hd : e = e / 2 + e / 2 + e % 2 := by omega
    rw [powMod]
    split
    case isTrue h =>
      rw [ZMod.natCast_mod, Nat.cast_mul, ih _ h2, ← pow_add]
      congr 1; omega
    case isFalse h =>
      rw [ZMod.natCast_mod, Nat.cast_mul, ZMod.natCast_mod, Nat.cast_mul, ih _ h2, ← pow_add, ← pow_succ]
      congr 1; omega

theorem powMod_lt (m a : Nat) (hm : 1 < m) : ∀ k e, powMod m a k e < m := by
  intro k
  cases k with
  | zero => intro e; exact Nat.mod_lt _ (by omega)
  | succ k =>
    intro e
    rw [powMod]
    split <;> exact Nat.mod_lt _ (by omega)

/-- One step of a Pratt certificate. -/
theorem pratt (q a : Nat) (fs : List Nat) (hq : 1 < q) (hq2 : q < 2 ^ 256) (hfs : ∀ f ∈ fs, f.Prime) (hprod : fs.prod = q - 1)
    (h1 : powMod q a 256 (q - 1) = 1) (h2 : (fs.all fun f => powMod q a 256 ((q - 1) / f) != 1) = true) : q.Prime := by
  apply lucas_primality q (a : ZMod q)
  · rw [← powMod_cast q a 256 (q - 1) (by omega), h1, Nat.cast_one]
  · intro f hf hd
    rw [← hprod] at hd
    obtain ⟨g, hg, hfg⟩ := (hf.prime.dvd_prod_iff).1 hd
    have : f = g := (Nat.prime_dvd_prime_iff_eq hf (hfs g hg)).1 hfg
    subst this
    have h3 := List.all_eq_true.1 h2 f hg
    have h4 : (q - 1) / f < 2 ^ 256 := lt_of_le_of_lt (Nat.div_le_self _ _) (by omega)
    rw [← powMod_cast q a 256 _ h4]
    intro h5
    have h6 : ((powMod q a 256 ((q - 1) / f) : Nat) : ZMod q) = ((1 : Nat) : ZMod q) := by rw [h5, Nat.cast_one]
    rw [ZMod.natCast_eq_natCast_iff'] at h6
    rw [Nat.mod_eq_of_lt (powMod_lt q a hq _ _), Nat.mod_eq_of_lt hq] at h6
    simp [h6] at h3

theorem prime_1 : Nat.Prime 6700417 := by
  refine pratt 6700417 5 [2, 2, 2, 2, 2, 2, 2, 3, 17449] (by decide +kernel) (by decide +kernel) ?_ (by decide +kernel) (by decide +kernel) (by decide +kernel)
  simp only [List.forall_mem_cons, List.not_mem_nil, false_imp_iff, implies_true, and_true]
  exact ⟨by norm_num, by norm_num, by norm_num, by norm_num, by norm_num, by norm_num, by norm_num, by norm_num, by norm_num⟩

theorem prime_2 : Nat.Prime 66417393611 := by
  refine pratt 66417393611 6 [2, 5, 53, 173, 197, 3677] (by decide +kernel) (by decide +kernel) ?_ (by decide +kernel) (by decide +kernel) (by decide +kernel)
  simp only [List.forall_mem_cons, List.not_mem_nil, false_imp_iff, implies_true, and_true]
  exact ⟨by norm_num, by norm_num, by norm_num, by norm_num, by norm_num, by norm_num⟩

theorem prime_3 : Nat.Prime 11290956913871 := by
  refine pratt 11290956913871 13 [2, 5, 17, 66417393611] (by decide +kernel) (by decide +kernel) ?_ (by decide +kernel) (by decide +kernel) (by decide +kernel)
  simp only [List.forall_mem_cons, List.not_mem_nil, false_imp_iff, implies_true, and_true]
  exact ⟨by norm_num, by norm_num, by norm_num, prime_2⟩

theorem prime_4 : Nat.Prime 46076956964474543 := by
  refine pratt 46076956964474543 5 [2, 23, 18169, 78283, 704251] (by decide +kernel) (by decide +kernel) ?_ (by decide +kernel) (by decide +kernel) (by decide +kernel)
  simp only [List.forall_mem_cons, List.not_mem_nil, false_imp_iff, implies_true, and_true]
  exact ⟨by norm_num, by norm_num, by norm_num, by norm_num, by norm_num⟩

theorem prime_5 : Nat.Prime 204061199 := by
  refine pratt 204061199 11 [2, 11, 23, 107, 3769] (by decide +kernel) (by decide +kernel) ?_ (by decide +kernel) (by decide +kernel) (by decide +kernel)
  simp only [List.forall_mem_cons, List.not_mem_nil, false_imp_iff, implies_true, and_true]
  exact ⟨by norm_num, by norm_num, by norm_num, by norm_num, by norm_num⟩

theorem prime_6 : Nat.Prime 34282281433 := by
  refine pratt 34282281433 17 [2, 2, 2, 3, 7, 204061199] (by decide +kernel) (by decide +kernel) ?_ (by decide +kernel) (by decide +kernel) (by decide +kernel)
  simp only [List.forall_mem_cons, List.not_mem_nil, false_imp_iff, implies_true, and_true]
  exact ⟨by norm_num, by norm_num, by norm_num, by norm_num, by norm_num, prime_5⟩

theorem prime_7 : Nat.Prime 774023187263532362759620327192479577272145303 := by
  refine pratt 774023187263532362759620327192479577272145303 3 [2, 3, 3, 2411, 34282281433, 11290956913871, 46076956964474543] (by decide +kernel) (by decide +kernel) ?_ (by decide +kernel) (by decide +kernel) (by decide +kernel)
  simp only [List.forall_mem_cons, List.not_mem_nil, false_imp_iff, implies_true, and_true]
  exact ⟨by norm_num, by norm_num, by norm_num, by norm_num, prime_6, prime_3, prime_4⟩

theorem prime_8 : Nat.Prime 835945042244614951780389953367877943453916927241 := by
  refine pratt 835945042244614951780389953367877943453916927241 11 [2, 2, 2, 3, 3, 3, 5, 774023187263532362759620327192479577272145303] (by decide +kernel) (by decide +kernel) ?_ (by decide +kernel) (by decide +kernel) (by decide +kernel)
  simp only [List.forall_mem_cons, List.not_mem_nil, false_imp_iff, implies_true, and_true]
  exact ⟨by norm_num, by norm_num, by norm_num, by norm_num, by norm_num, by norm_num, by norm_num, prime_7⟩

theorem p_prime : Nat.Prime p := by
  refine pratt p 6 [2, 3, 5, 5, 17, 257, 641, 1531, 65537, 490463, 6700417, 835945042244614951780389953367877943453916927241] (by decide +kernel) (by decide +kernel) ?_ (by decide +kernel) (by decide +kernel) (by decide +kernel)
  simp only [List.forall_mem_cons, List.not_mem_nil, false_imp_iff, implies_true, and_true]
  exact ⟨by norm_num, by norm_num, by norm_num, by norm_num, by norm_num, by norm_num, by norm_num, by norm_num, by norm_num, by norm_num, prime_1, prime_8⟩

theorem prime_10 : Nat.Prime 3969899 := by
  refine pratt 3969899 2 [2, 19, 104471] (by decide +kernel) (by decide +kernel) ?_ (by decide +kernel) (by decide +kernel) (by decide +kernel)
  simp only [List.forall_mem_cons, List.not_mem_nil, false_imp_iff, implies_true, and_true]
  exact ⟨by norm_num, by norm_num, by norm_num⟩

theorem prime_11 : Nat.Prime 1002328039319 := by
  refine pratt 1002328039319 19 [2, 126241, 3969899] (by decide +kernel) (by decide +kernel) ?_ (by decide +kernel) (by decide +kernel) (by decide +kernel)
  simp only [List.forall_mem_cons, List.not_mem_nil, false_imp_iff, implies_true, and_true]
  exact ⟨by norm_num, by norm_num, prime_10⟩

theorem prime_12 : Nat.Prime 191039911 := by
  refine pratt 191039911 3 [2, 3, 5, 41, 155317] (by decide +kernel) (by decide +kernel) ?_ (by decide +kernel) (by decide +kernel) (by decide +kernel)
  simp only [List.forall_mem_cons, List.not_mem_nil, false_imp_iff, implies_true, and_true]
  exact ⟨by norm_num, by norm_num, by norm_num, by norm_num, by norm_num⟩

theorem prime_13 : Nat.Prime 208150935158385979 := by
  refine pratt 208150935158385979 2 [2, 3, 11, 43, 127, 3023, 191039911] (by decide +kernel) (by decide +kernel) ?_ (by decide +kernel) (by decide +kernel) (by decide +kernel)
  simp only [List.forall_mem_cons, List.not_mem_nil, false_imp_iff, implies_true, and_true]
  exact ⟨by norm_num, by norm_num, by norm_num, by norm_num, by norm_num, by norm_num, prime_12⟩

theorem prime_14 : Nat.Prime 2624747550333869278416773953 := by
  refine pratt 2624747550333869278416773953 7 [2, 2, 2, 2, 2, 2, 3, 3, 1297, 16879, 208150935158385979] (by decide +kernel) (by decide +kernel) ?_ (by decide +kernel) (by decide +kernel) (by decide +kernel)
  simp only [List.forall_mem_cons, List.not_mem_nil, false_imp_iff, implies_true, and_true]
  exact ⟨by norm_num, by norm_num, by norm_num, by norm_num, by norm_num, by norm_num, by norm_num, by norm_num, by norm_num, by norm_num, prime_13⟩

theorem prime_15 : Nat.Prime 311245691 := by
  refine pratt 311245691 2 [2, 5, 7, 17, 29, 29, 311] (by decide +kernel) (by decide +kernel) ?_ (by decide +kernel) (by decide +kernel) (by decide +kernel)
  simp only [List.forall_mem_cons, List.not_mem_nil, false_imp_iff, implies_true, and_true]
  exact ⟨by norm_num, by norm_num, by norm_num, by norm_num, by norm_num, by norm_num, by norm_num⟩

theorem prime_16 : Nat.Prime 622491383 := by
  refine pratt 622491383 5 [2, 311245691] (by decide +kernel) (by decide +kernel) ?_ (by decide +kernel) (by decide +kernel) (by decide +kernel)
  simp only [List.forall_mem_cons, List.not_mem_nil, false_imp_iff, implies_true, and_true]
  exact ⟨by norm_num, prime_15⟩

theorem prime_17 : Nat.Prime 9350987 := by
  refine pratt 9350987 2 [2, 17, 229, 1201] (by decide +kernel) (by decide +kernel) ?_ (by decide +kernel) (by decide +kernel) (by decide +kernel)
  simp only [List.forall_mem_cons, List.not_mem_nil, false_imp_iff, implies_true, and_true]
  exact ⟨by norm_num, by norm_num, by norm_num, by norm_num⟩

theorem prime_18 : Nat.Prime 187019741 := by
  refine pratt 187019741 2 [2, 2, 5, 9350987] (by decide +kernel) (by decide +kernel) ?_ (by decide +kernel) (by decide +kernel) (by decide +kernel)
  simp only [List.forall_mem_cons, List.not_mem_nil, false_imp_iff, implies_true, and_true]
  exact ⟨by norm_num, by norm_num, by norm_num, prime_17⟩

theorem n_prime : Nat.Prime n := by
  refine pratt n 7 [2, 2, 2, 2, 3, 71, 131, 373, 3407, 17449, 38189, 187019741, 622491383, 1002328039319, 2624747550333869278416773953] (by decide +kernel) (by decide +kernel) ?_ (by decide +kernel) (by decide +kernel) (by decide +kernel)
  simp only [List.forall_mem_cons, List.not_mem_nil, false_imp_iff, implies_true, and_true]
  exact ⟨by norm_num, by norm_num, by norm_num, by norm_num, by norm_num, by norm_num, by norm_num, by norm_num, by norm_num, by norm_num, by norm_num, prime_18, prime_16, prime_11, prime_14⟩

instance : Fact (Nat.Prime p) := ⟨p_prime⟩

instance : Fact (Nat.Prime n) := ⟨n_prime⟩

end GoIdentity.P256
