import Verif.Model.Der
import Verif.Lemmas.Sha
/-!
# Integers as bytes
-/
namespace GoIdentity
open Sha (beNat natBE)

theorem beNat_foldl (l : GoString) (a : Nat) :
    l.foldl (fun a b => a * 256 + b.toNat) a = a * 256 ^ l.length + beNat l := by
  induction l generalizing a with
  | nil => simp [beNat]
  | cons b t ih =>
    simp only [List.foldl_cons, List.length_cons, beNat]
    rw [ih, ih (0 * 256 + b.toNat)]
    rw [Nat.pow_succ]
    simp only [beNat]
    grind

theorem beNat_nil : beNat [] = 0 := rfl

theorem beNat_cons (b : UInt8) (t : GoString) : beNat (b :: t) = b.toNat * 256 ^ t.length + beNat t := by
  show List.foldl _ _ _ = _
  rw [List.foldl_cons, beNat_foldl]; simp

theorem beNat_lt (l : GoString) : beNat l < 256 ^ l.length := by
  induction l with
  | nil => simp [beNat_nil]
  | cons b t ih =>
    rw [beNat_cons, List.length_cons, Nat.pow_succ]
    have : b.toNat < 256 := b.toNat_lt
    have h := Nat.mul_le_mul_right (256 ^ t.length) (show b.toNat ≤ 255 by omega)
    omega

theorem beNat_natBE (k n : Nat) : beNat (natBE k n) = n % 256 ^ k := by
  induction k with
  | zero => simp [natBE, beNat_nil, Nat.mod_one]
  | succ k ih =>
    rw [natBE, beNat_cons, ih, Sha.natBE_length, UInt8.toNat_ofNat']
    rw [Nat.pow_succ 256 k, Nat.mod_mul (a := 256 ^ k) (b := 256), Nat.mul_comm, Nat.add_comm]

theorem natBE_beNat (l : GoString) : natBE l.length (beNat l) = l := by
  have key : ∀ (l : GoString) (m : Nat), natBE l.length (m * 256 ^ l.length + beNat l) = l := by
    intro l
    induction l with
    | nil => intro m; rfl
    | cons b t ih =>
      intro m
      rw [List.length_cons, natBE, beNat_cons]
      have hlt := beNat_lt t
      have e : m * 256 ^ (t.length + 1) + (b.toNat * 256 ^ t.length + beNat t)
          = (m * 256 + b.toNat) * 256 ^ t.length + beNat t := by rw [Nat.pow_succ]; grind
      rw [e]
      congr 1
      · rw [Nat.mul_comm, Nat.mul_add_div (Nat.pow_pos (by decide)), Nat.div_eq_of_lt hlt, Nat.add_zero]
        apply UInt8.toNat_inj.1
        rw [UInt8.toNat_ofNat']
        have := b.toNat_lt
        simp only [Nat.reducePow]; omega
      · exact ih _
  have := key l 0
  simpa using this

theorem natBytes_length_le {n k : Nat} (h : n < 256 ^ k) : (natBytes n).length ≤ k := by
  unfold natBytes
  split
  · simp
  rename_i h0
  rw [Sha.natBE_length]
  have h2 : 2 ^ Nat.log2 n ≤ n := Nat.log2_self_le h0
  have h3 : 2 ^ Nat.log2 n < 2 ^ (8 * k) := by
    rw [Nat.pow_mul]; exact Nat.lt_of_le_of_lt h2 h
  have h4 := (Nat.pow_lt_pow_iff_right (by decide : 1 < 2)).1 h3
  omega

theorem lt_natBytes (n : Nat) : n < 256 ^ (natBytes n).length := by
  unfold natBytes
  split
  · rename_i h; subst h; simp
  rw [Sha.natBE_length]
  have h1 : n < 2 ^ (Nat.log2 n + 1) := Nat.lt_log2_self
  have h2 : 2 ^ (Nat.log2 n + 1) ≤ 2 ^ (8 * (Nat.log2 n / 8 + 1)) :=
    Nat.pow_le_pow_right (by decide) (by omega)
  rw [Nat.pow_mul] at h2
  exact Nat.lt_of_lt_of_le h1 h2

theorem beNat_natBytes (n : Nat) : beNat (natBytes n) = n := by
  have h := lt_natBytes n
  unfold natBytes at h ⊢
  split
  · rename_i h0; rw [h0]; rfl
  · rename_i h0
    rw [if_neg h0, Sha.natBE_length] at h
    rw [beNat_natBE, Nat.mod_eq_of_lt h]

theorem natBytes_ne_nil {n : Nat} (h : n ≠ 0) : natBytes n ≠ [] := by
  intro h0
  have := beNat_natBytes n
  rw [h0] at this
  exact h this.symm

/-- No leading zero byte. -/
theorem natBytes_head {n : Nat} {b : UInt8} {t : GoString} (h : natBytes n = b :: t) : b.toNat ≠ 0 := by
  intro h0
  have h1 := beNat_natBytes n
  rw [h, beNat_cons, h0] at h1
  have h2 := beNat_lt t
  have h3 := natBytes_length_le (n := n) (k := t.length) (by omega)
  rw [h] at h3
  simp at h3
  omega

theorem notBytes_length (l : GoString) : (notBytes l).length = l.length := List.length_map ..

theorem notBytes_notBytes (l : GoString) : notBytes (notBytes l) = l := by
  unfold notBytes
  rw [List.map_map]
  conv => rhs; rw [← List.map_id l]
  refine List.map_congr_left fun b _ => ?_
  apply UInt8.toNat_inj.1
  have := b.toNat_lt
  simp only [Function.comp_apply, UInt8.toNat_ofNat', id_eq, Nat.reducePow]
  omega

theorem highBit_notBytes (b : UInt8) (t : GoString) : highBit (notBytes (b :: t)) = !highBit (b :: t) := by
  have := b.toNat_lt
  simp only [notBytes, List.map_cons, highBit, UInt8.toNat_ofNat', Nat.reducePow]
  rw [← decide_not]
  congr 1
  rw [eq_iff_iff]
  omega

theorem bytesInt_intBytes (n : Int) : bytesInt (intBytes n) = n := by
  cases n with
  | ofNat n =>
    simp only [intBytes]
    split
    · have h0 : highBit (0 :: natBytes n) = false := rfl
      rw [bytesInt, h0, beNat_cons, beNat_natBytes]
      simp
    · rename_i h
      rw [bytesInt, if_neg h, beNat_natBytes]; rfl
  | negSucc n =>
    simp only [intBytes]
    split
    · rename_i h
      rw [bytesInt, if_pos h, notBytes_notBytes, beNat_natBytes]
      omega
    · have h0 : highBit (255 :: notBytes (natBytes n)) = true := rfl
      have h1 : notBytes (255 :: notBytes (natBytes n)) = 0 :: natBytes n := by
        have := notBytes_notBytes (natBytes n)
        unfold notBytes at this ⊢
        rw [List.map_cons, this]; rfl
      rw [bytesInt, if_pos h0, h1, beNat_cons, beNat_natBytes]
      simp
      omega

/-- Re-encoding never makes a number longer. -/
theorem intBytes_bytesInt_length (l : GoString) : (intBytes (bytesInt l)).length ≤ l.length := by
  cases l with
  | nil => decide
  | cons b t =>
    have hb := b.toNat_lt
    have ht := beNat_lt t
    unfold bytesInt
    split
    · rename_i h
      have hn := beNat_lt (notBytes (b :: t))
      rw [notBytes_length] at hn
      have e : (-((beNat (notBytes (b :: t)) : Int) + 1)) = Int.negSucc (beNat (notBytes (b :: t))) := by omega
      rw [e]
      have hle := natBytes_length_le hn
      simp only [intBytes]
      split
      · rw [notBytes_length]; exact hle
      · rename_i h2
        rw [List.length_cons, notBytes_length]
        rcases Nat.lt_or_ge (natBytes (beNat (notBytes (b :: t)))).length (b :: t).length with h3 | h3
        · omega
        · -- full length: the first byte of the complement is below 128, and re-encoding finds it again
          exfalso
          have h4 : natBytes (beNat (notBytes (b :: t))) = notBytes (b :: t) := by
            have e1 : natBE (b :: t).length (beNat (notBytes (b :: t))) = notBytes (b :: t) := by
              rw [← notBytes_length]; exact natBE_beNat _
            have e2 : natBE (natBytes (beNat (notBytes (b :: t)))).length (beNat (natBytes (beNat (notBytes (b :: t)))))
                = natBytes (beNat (notBytes (b :: t))) := natBE_beNat _
            rw [beNat_natBytes, Nat.le_antisymm hle h3, e1] at e2
            exact e2.symm
          rw [h4, notBytes_notBytes] at h2
          exact h2 h
    · rename_i h
      have hle := natBytes_length_le (beNat_lt (b :: t))
      show (intBytes (Int.ofNat (beNat (b :: t)))).length ≤ _
      simp only [intBytes]
      split
      · rename_i h2
        rw [List.length_cons]
        rcases Nat.lt_or_ge (natBytes (beNat (b :: t))).length (b :: t).length with h3 | h3
        · omega
        · exfalso
          have h4 : natBytes (beNat (b :: t)) = b :: t := by
            have e1 := natBE_beNat (b :: t)
            have e2 := natBE_beNat (natBytes (beNat (b :: t)))
            rw [beNat_natBytes, Nat.le_antisymm hle h3, e1] at e2
            exact e2.symm
          rw [h4] at h2
          exact h h2
      · exact hle

theorem intBytes_nat_length (n : Nat) : (intBytes n).length ≤ Nat.log2 n / 8 + 2 := by
  show (intBytes (Int.ofNat n)).length ≤ _
  simp only [intBytes]
  have : (natBytes n).length ≤ Nat.log2 n / 8 + 1 := by
    unfold natBytes
    split
    · simp
    · rw [Sha.natBE_length]; omega
  split
  · simp; omega
  · omega

theorem intBytes_eq_nil {n : Int} (h : intBytes n = []) : n = 0 := by
  have := bytesInt_intBytes n
  rw [h] at this
  exact this.symm

end GoIdentity
