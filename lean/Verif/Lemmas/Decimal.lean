import Verif.Model.Bytes
/-!
# Decimal digit strings
-/
namespace GoIdentity

/-- A decimal digit. -/
def IsDigit (b : UInt8) : Prop := 48 ≤ b.toNat ∧ b.toNat ≤ 57

instance (b : UInt8) : Decidable (IsDigit b) := by unfold IsDigit; infer_instance

theorem digit_ofNat {k : Nat} (h : k < 10) : IsDigit (UInt8.ofNat (48 + k)) ∧ digitVal (UInt8.ofNat (48 + k)) = k := by
  have : (UInt8.ofNat (48 + k)).toNat = 48 + k := by
    rw [UInt8.toNat_ofNat']; omega
  unfold IsDigit digitVal
  omega

theorem decVal_go (s : GoString) (a : Nat) :
    s.foldl (fun acc b => acc * 10 + digitVal b) a = a * 10 ^ s.length + decVal s := by
  unfold decVal
  induction s generalizing a with
  | nil => simp
  | cons b s ih =>
    rw [List.foldl_cons, ih, List.foldl_cons, ih (0 * 10 + digitVal b), List.length_cons, Nat.pow_succ]
    rw [Nat.add_mul, Nat.mul_assoc, Nat.mul_comm 10, Nat.zero_mul, Nat.zero_add, Nat.add_assoc]

theorem decVal_cons (b : UInt8) (s : GoString) : decVal (b :: s) = digitVal b * 10 ^ s.length + decVal s := by
  rw [decVal, List.foldl_cons, decVal_go]; simp

theorem decVal_append (s t : GoString) : decVal (s ++ t) = decVal s * 10 ^ t.length + decVal t := by
  rw [decVal, List.foldl_append, decVal_go]; rfl

theorem decVal_lt {s : GoString} (h : ∀ b ∈ s, IsDigit b) : decVal s < 10 ^ s.length := by
  induction s with
  | nil => simp [decVal]
  | cons b s ih =>
    rw [decVal_cons, List.length_cons, Nat.pow_succ]
    have h1 := ih fun x hx => h x (by simp [hx])
    have h2 : digitVal b ≤ 9 := by
      have := h b (by simp)
      unfold IsDigit at this; unfold digitVal; omega
    have h3 : digitVal b * 10 ^ s.length ≤ 9 * 10 ^ s.length := Nat.mul_le_mul_right _ h2
    omega

/-- Digit strings of one length are determined by their value. -/
theorem decVal_inj {s t : GoString} (hs : ∀ b ∈ s, IsDigit b) (ht : ∀ b ∈ t, IsDigit b) (hl : s.length = t.length)
    (hv : decVal s = decVal t) : s = t := by
  induction s generalizing t with
  | nil => exact (List.length_eq_zero_iff.1 hl.symm).symm
  | cons b s ih =>
    cases t with
    | nil => simp at hl
    | cons c t =>
      simp only [List.length_cons, Nat.add_right_cancel_iff] at hl
      have h1 := decVal_lt fun x hx => hs x (List.mem_cons_of_mem _ hx)
      have h2 := decVal_lt fun x hx => ht x (List.mem_cons_of_mem _ hx)
      rw [decVal_cons, decVal_cons, hl] at hv
      rw [hl] at h1
      have hb : digitVal b = digitVal c := by
        have e1 : (digitVal b * 10 ^ t.length + decVal s) / 10 ^ t.length = digitVal b := by
          rw [Nat.mul_comm, Nat.mul_add_div (Nat.pow_pos (by omega)), Nat.div_eq_of_lt h1, Nat.add_zero]
        have e2 : (digitVal c * 10 ^ t.length + decVal t) / 10 ^ t.length = digitVal c := by
          rw [Nat.mul_comm, Nat.mul_add_div (Nat.pow_pos (by omega)), Nat.div_eq_of_lt h2, Nat.add_zero]
        rw [← e1, hv, e2]
      have hbc : b = c := by
        have h3 := hs b (by simp)
        have h4 := ht c (by simp)
        unfold IsDigit at h3 h4
        unfold digitVal at hb
        apply UInt8.toNat_inj.1
        omega
      subst hbc
      rw [ih (fun x hx => hs x (List.mem_cons_of_mem _ hx)) (fun x hx => ht x (List.mem_cons_of_mem _ hx)) hl (by omega)]

theorem natDigitsAux_spec (fuel n : Nat) (acc : GoString) (hf : n < fuel) :
    ∃ ds, natDigitsAux fuel n acc = ds ++ acc ∧ (∀ b ∈ ds, IsDigit b) ∧ decVal ds = n ∧ ds ≠ [] ∧
      (∀ w, 0 < w → n < 10 ^ w → ds.length ≤ w) ∧ (n ≠ 0 → ds.head? ≠ some 48) ∧ (n = 0 → ds = [48]) := by
  induction fuel generalizing n acc with
  | zero => omega
  | succ fuel ih =>
    unfold natDigitsAux
    have hd := digit_ofNat (k := n % 10) (by omega)
    dsimp only
    split
    · rename_i h0
      refine ⟨[UInt8.ofNat (48 + n % 10)], rfl, ?_, ?_, by simp, ?_, ?_, ?_⟩
      · intro b hb; simp only [List.mem_cons, List.not_mem_nil, or_false] at hb; subst hb; exact hd.1
      · simp only [decVal, List.foldl_cons, List.foldl_nil, hd.2]; omega
      · intro w hw _; simp; omega
      · intro hn h
        simp only [List.head?_cons, Option.some.injEq] at h
        have := hd.2
        rw [h] at this
        simp [digitVal] at this
        omega
      · rintro rfl; rfl
    · rename_i h0
      obtain ⟨ds, h1, h2, h3, h4, h5, h6, _⟩ := ih (n / 10) (UInt8.ofNat (48 + n % 10) :: acc) (by omega)
      refine ⟨ds ++ [UInt8.ofNat (48 + n % 10)], by rw [h1]; simp, ?_, ?_, by simp, ?_, ?_, by omega⟩
      · intro b hb
        rcases List.mem_append.1 hb with hb | hb
        · exact h2 b hb
        · simp only [List.mem_cons, List.not_mem_nil, or_false] at hb; subst hb; exact hd.1
      · rw [decVal_append, h3]
        simp only [decVal, List.foldl_cons, List.foldl_nil, hd.2, List.length_cons, List.length_nil]
        omega
      · intro w hw hlt
        obtain ⟨w, rfl⟩ : ∃ v, w = v + 1 := ⟨w - 1, by omega⟩
        rw [Nat.pow_succ] at hlt
        have hw0 : 0 < w := by
          apply Nat.pos_of_ne_zero
          rintro rfl
          simp at hlt
          omega
        have := h5 w hw0 (by omega)
        simp; omega
      · intro _ h
        have : (ds ++ [UInt8.ofNat (48 + n % 10)]).head? = ds.head? := by
          cases ds with
          | nil => exact absurd rfl h4
          | cons => rfl
        rw [this] at h
        exact h6 (by omega) h

theorem natDec_spec (n : Nat) : (∀ b ∈ natDec n, IsDigit b) ∧ decVal (natDec n) = n ∧ natDec n ≠ [] ∧
    (∀ w, 0 < w → n < 10 ^ w → (natDec n).length ≤ w) ∧ (n ≠ 0 → (natDec n).head? ≠ some 48) ∧
    (n = 0 → natDec n = [48]) := by
  obtain ⟨ds, h1, h2⟩ := natDigitsAux_spec (n + 1) n [] (by omega)
  rw [List.append_nil] at h1
  rw [natDec, h1]
  exact h2

theorem decVal_zeros (k : Nat) (s : GoString) : decVal (List.replicate k 48 ++ s) = decVal s := by
  induction k with
  | zero => rfl
  | succ k ih => rw [List.replicate_succ, List.cons_append, decVal_cons, ih]; simp [digitVal]

theorem padDec_spec {w n : Nat} (hw : 0 < w) (h : n < 10 ^ w) :
    (padDec w n).length = w ∧ (∀ b ∈ padDec w n, IsDigit b) ∧ decVal (padDec w n) = n := by
  obtain ⟨h1, h2, _, h4, _⟩ := natDec_spec n
  have hl := h4 w hw h
  refine ⟨by unfold padDec; simp; omega, ?_, by unfold padDec; rw [decVal_zeros, h2]⟩
  intro b hb
  unfold padDec at hb
  rcases List.mem_append.1 hb with hb | hb
  · rw [List.mem_replicate] at hb; rw [hb.2]; decide
  · exact h1 b hb

end GoIdentity
