import Verif.Lemmas.KeySpec
import Verif.Lemmas.P256Order
import Mathlib.Tactic.LinearCombination
/-!
# Reading DER: what is accepted is what would be written
-/
namespace GoIdentity
open Sha (beNat natBE)
set_option linter.unusedSectionVars false
variable [Ext]

theorem derLongLen_inv : ∀ {k acc : Nat} {l : GoString} {m : Nat} {r : GoString}, derLongLen k acc l = some (m, r) →
    ∃ bs : GoString, bs.length = k ∧ l = bs ++ r ∧ m = acc * 256 ^ k + beNat bs ∧ (acc = 0 → bs.head? ≠ some 0)
  | 0, acc, l, m, r, h => by
    simp only [derLongLen, Option.some.injEq, Prod.mk.injEq] at h
    obtain ⟨rfl, rfl⟩ := h
    exact ⟨[], rfl, rfl, by simp [beNat_nil], by simp⟩
  | k + 1, acc, [], m, r, h => by simp [derLongLen] at h
  | k + 1, acc, b :: t, m, r, h => by
    rw [derLongLen] at h
    split at h
    · simp at h
    split at h
    · simp at h
    obtain ⟨bs, h1, rfl, h3, h4⟩ := derLongLen_inv h
    refine ⟨b :: bs, by simp [h1], rfl, ?_, ?_⟩
    · rw [h3, beNat_cons, h1, Nat.pow_succ]
      rw [Nat.add_mul, Nat.mul_assoc, Nat.mul_comm 256, Nat.add_assoc]
    · rintro rfl
      intro hc
      simp only [List.head?_cons, Option.some.injEq] at hc
      subst hc
      rename_i hne
      simp at hne

theorem derLongLen_lt : ∀ {k acc : Nat} {l : GoString} {m : Nat} {r : GoString}, acc < 2 ^ 31 →
    derLongLen k acc l = some (m, r) → m < 2 ^ 31
  | 0, acc, l, m, r, ha, h => by
    simp only [derLongLen, Option.some.injEq, Prod.mk.injEq] at h
    omega
  | k + 1, acc, [], m, r, _, h => by simp [derLongLen] at h
  | k + 1, acc, b :: t, m, r, _, h => by
    rw [derLongLen] at h
    split at h
    · simp at h
    split at h
    · simp at h
    have hb := b.toNat_lt
    exact derLongLen_lt (by omega) h

theorem derLen_inv {l : GoString} {m : Nat} {r : GoString} (h : derLen l = some (m, r)) : l = derLenBytes m ++ r ∧ m < 2 ^ 31 := by
  cases l with
  | nil => simp [derLen] at h
  | cons b t =>
    rw [derLen] at h
    split at h
    · rename_i hb
      simp only [Option.some.injEq, Prod.mk.injEq] at h
      obtain ⟨rfl, rfl⟩ := h
      refine ⟨?_, by omega⟩
      rw [derLenBytes, if_pos hb]
      simp
    · rename_i hb
      split at h
      · simp at h
      rename_i hb'
      cases hl : derLongLen (b.toNat - 128) 0 t with
      | none => rw [hl] at h; simp at h
      | some p =>
        obtain ⟨m', t'⟩ := p
        rw [hl] at h
        dsimp only at h
        split at h
        · simp at h
        · rename_i hm
          simp only [Option.some.injEq, Prod.mk.injEq] at h
          obtain ⟨rfl, rfl⟩ := h
          have hlt := derLongLen_lt (by omega) hl
          obtain ⟨bs, h1, rfl, h3, h4⟩ := derLongLen_inv hl
          refine ⟨?_, hlt⟩
          have hn : natBytes m' = bs := by
            rw [h3, Nat.zero_mul, Nat.zero_add]; exact natBytes_unique (h4 rfl)
          rw [derLenBytes, if_neg hm, hn, h1]
          have : 128 + (b.toNat - 128) = b.toNat := by omega
          rw [this]
          simp

theorem derTake_inv {tag : UInt8} {l c r : GoString} (h : derTake tag l = some (c, r)) :
    l = derElem tag c ++ r ∧ c.length < 2 ^ 31 := by
  cases l with
  | nil => simp [derTake] at h
  | cons b t =>
    rw [derTake] at h
    split at h
    · rename_i hb
      subst hb
      cases hl : derLen t with
      | none => rw [hl] at h; simp at h
      | some p =>
        obtain ⟨m, t'⟩ := p
        rw [hl] at h
        dsimp only at h
        split at h
        · simp at h
        · rename_i hm
          simp only [Option.some.injEq, Prod.mk.injEq] at h
          obtain ⟨rfl, rfl⟩ := h
          obtain ⟨rfl, hlt⟩ := derLen_inv hl
          have hc : (t'.take m).length = m := by simp; omega
          refine ⟨?_, by omega⟩
          rw [derElem, hc]
          simp
    · simp at h

theorem beNat_cons2 (a b : UInt8) (t : GoString) :
    beNat (a :: b :: t) = a.toNat * 256 ^ (t.length + 1) + (b.toNat * 256 ^ t.length + beNat t) := by
  rw [beNat_cons, beNat_cons, List.length_cons]

/-- The range of a number in two's complement. -/
theorem signedBE_range {c : GoString} (h : c ≠ []) : -(128 * 256 ^ (c.length - 1) : Int) ≤ signedBE c ∧ signedBE c < 128 * 256 ^ (c.length - 1) := by
  cases c with
  | nil => exact absurd rfl h
  | cons a t =>
    have h1 := beNat_lt t
    have h2 := beNat_cons a t
    have ha := a.toNat_lt
    simp only [signedBE, unsignedBE_eq, List.length_cons, Nat.add_sub_cancel]
    rw [h2]
    have h3 : (256 : Int) ^ (t.length + 1) = 256 * 256 ^ t.length := by rw [Int.pow_succ, Int.mul_comm]
    rw [h3]
    have h4 : (beNat t : Int) < 256 ^ t.length := by
      have := Int.ofNat_lt.2 h1; rwa [Int.natCast_pow] at this
    have h5 : (0 : Int) ≤ beNat t := Int.natCast_nonneg _
    have h6 : (0 : Int) < 256 ^ t.length := Int.pow_pos (by decide)
    rw [Int.natCast_add, Int.natCast_mul, Int.natCast_pow]
    simp only [Int.cast_ofNat_Int]
    generalize (256 : Int) ^ t.length = X at *
    generalize (beNat t : Int) = Y at *
    split
    · rename_i hs
      have hA : (a.toNat : Int) ≤ 127 := by omega
      have hA0 : (0 : Int) ≤ a.toNat := by omega
      generalize (a.toNat : Int) = A at *
      have : A * X ≤ 127 * X := Int.mul_le_mul_of_nonneg_right hA (by omega)
      have : 0 ≤ A * X := Int.mul_nonneg hA0 (by omega)
      omega
    · rename_i hs
      have hA : (a.toNat : Int) ≤ 255 := by omega
      have hA0 : (128 : Int) ≤ a.toNat := by omega
      generalize (a.toNat : Int) = A at *
      have : A * X ≤ 255 * X := Int.mul_le_mul_of_nonneg_right hA (by omega)
      have : 128 * X ≤ A * X := Int.mul_le_mul_of_nonneg_right hA0 (by omega)
      omega

/-- The check of the library: the number is in its fewest bytes. -/
theorem derInteger_of_ok {c : GoString} (h : derIntOk c = true) : DerInteger c (bytesInt c) := by
  refine ⟨by rintro rfl; simp [derIntOk] at h, signedBE_eq c, ?_⟩
  intro c' hne hv
  cases c with
  | nil => simp [derIntOk] at h
  | cons a t =>
    cases t with
    | nil => cases c' with
      | nil => exact absurd rfl hne
      | cons _ _ => simp
    | cons b t =>
      apply Nat.le_of_not_lt
      intro hlt
      have hr := signedBE_range hne
      rw [hv, ← signedBE_eq] at hr
      have hlen : c'.length - 1 ≤ t.length := by simp only [List.length_cons] at hlt; omega
      have hpow : (256 : Int) ^ (c'.length - 1) ≤ 256 ^ t.length := by
        have := Int.ofNat_le.2 (Nat.pow_le_pow_right (n := 256) (by decide) hlen)
        rwa [Int.natCast_pow, Int.natCast_pow] at this
      have h1 := beNat_lt t
      have h2 := beNat_cons2 a b t
      have ha := a.toNat_lt
      have hb := b.toNat_lt
      simp only [signedBE, unsignedBE_eq, List.length_cons] at hr
      rw [h2] at hr
      have h3 : (256 : Int) ^ (t.length + 1 + 1) = 65536 * 256 ^ t.length := by
        rw [Int.pow_succ, Int.pow_succ, Int.mul_assoc, Int.mul_comm]; rfl
      have h3' : (256 : Int) ^ (t.length + 1) = 256 * 256 ^ t.length := by rw [Int.pow_succ, Int.mul_comm]
      rw [h3] at hr
      rw [Int.natCast_add, Int.natCast_add, Int.natCast_mul, Int.natCast_mul, Int.natCast_pow, Int.natCast_pow] at hr
      simp only [Int.cast_ofNat_Int] at hr
      rw [h3'] at hr
      have h4 : (beNat t : Int) < 256 ^ t.length := by
        have := Int.ofNat_lt.2 h1; rwa [Int.natCast_pow] at this
      have h5 : (0 : Int) ≤ beNat t := Int.natCast_nonneg _
      have h6 : (0 : Int) < 256 ^ t.length := Int.pow_pos (by decide)
      simp only [derIntOk, Bool.not_eq_true', Bool.or_eq_false_iff, Bool.and_eq_false_iff, decide_eq_false_iff_not] at h
      generalize (256 : Int) ^ t.length = X at *
      generalize (256 : Int) ^ (c'.length - 1) = Z at *
      generalize (beNat t : Int) = Y at *
      have e1 : (a.toNat : Int) * (256 * X) = 256 * ((a.toNat : Int) * X) := by
        rw [Int.mul_left_comm]
      rw [e1] at hr
      have hb0 : 0 ≤ (b.toNat : Int) * X := Int.mul_nonneg (by omega) (by omega)
      have hb1 : (b.toNat : Int) * X ≤ 255 * X := Int.mul_le_mul_of_nonneg_right (by omega) (by omega)
      split at hr
      · rename_i hs
        rcases h.1 with h0 | h0
        · have hA : (1 : Int) ≤ a.toNat := by omega
          have : 1 * X ≤ (a.toNat : Int) * X := Int.mul_le_mul_of_nonneg_right hA (by omega)
          omega
        · have hB : (128 : Int) ≤ b.toNat := by omega
          have : 128 * X ≤ (b.toNat : Int) * X := Int.mul_le_mul_of_nonneg_right hB (by omega)
          have : 0 ≤ (a.toNat : Int) * X := Int.mul_nonneg (by omega) (by omega)
          omega
      · rename_i hs
        rcases h.2 with h0 | h0
        · have hA : (a.toNat : Int) ≤ 254 := by omega
          have : (a.toNat : Int) * X ≤ 254 * X := Int.mul_le_mul_of_nonneg_right hA (by omega)
          omega
        · have hB : (b.toNat : Int) ≤ 127 := by omega
          have : (b.toNat : Int) * X ≤ 127 * X := Int.mul_le_mul_of_nonneg_right hB (by omega)
          have hA : (a.toNat : Int) ≤ 255 := by omega
          have : (a.toNat : Int) * X ≤ 255 * X := Int.mul_le_mul_of_nonneg_right hA (by omega)
          omega

theorem derTakeInt_inv {l c r : GoString} {v : Int} (h : derTakeInt l = some (v, c, r)) :
    l = derElem 0x02 c ++ r ∧ DerInteger c v ∧ c.length < 2 ^ 31 := by
  rw [derTakeInt] at h
  cases ht : derTake 0x02 l with
  | none => rw [ht] at h; simp at h
  | some p =>
    obtain ⟨c', r'⟩ := p
    rw [ht] at h
    dsimp only at h
    split at h
    · rename_i hok
      simp only [Option.some.injEq, Prod.mk.injEq] at h
      obtain ⟨rfl, rfl, rfl⟩ := h
      obtain ⟨h1, h2⟩ := derTake_inv ht
      exact ⟨h1, derInteger_of_ok hok, h2⟩
    · simp at h

theorem sigShape_of_parse {sig : GoString} {r s : Int} {m : Bool} (h : P256.parseSig sig = some (r, s, m)) :
    ∃ rest, P256.SigShape sig r s rest ∧ (m = false ↔ rest = []) := by
  rw [P256.parseSig] at h
  split at h
  · rename_i c hc
    obtain ⟨h1, hl⟩ := derTake_inv hc
    split at h
    · simp at h
    · rename_i r' rc c2 hr
      obtain ⟨h2, hd2, hl2⟩ := derTakeInt_inv hr
      split at h
      · simp at h
      · rename_i s' sc c3 hs
        obtain ⟨h3, hd3, hl3⟩ := derTakeInt_inv hs
        simp only [Option.some.injEq, Prod.mk.injEq] at h
        obtain ⟨rfl, rfl, rfl⟩ := h
        refine ⟨c3, ⟨_, _, rc, sc, ?_, (isElement_iff hl2).2 rfl, (isElement_iff hl3).2 rfl, hd2, hd3⟩, by simp⟩
        rw [List.append_assoc, ← h3, ← h2]
        rw [List.append_nil] at h1
        exact (isElement_iff hl).2 h1
  · simp at h

theorem parse_of_sigShape {sig : GoString} {r s : Int} {rest : GoString} (hr : (intBytes r).length < 2 ^ 29)
    (hs : (intBytes s).length < 2 ^ 29) (hrest : rest.length < 2 ^ 29) (h : P256.SigShape sig r s rest) :
    sig = derElem 0x30 (derInt r ++ derInt s ++ rest) ∧ P256.parseSig sig = some (r, s, decide (rest ≠ [])) := by
  obtain ⟨ri, si, rc, sc, h1, h2, h3, h4, h5⟩ := h
  rw [derInteger_iff] at h4 h5
  have hrc : rc.length < 2 ^ 30 := by rw [h4]; split <;> (simp; try omega)
  have hsc : sc.length < 2 ^ 30 := by rw [h5]; split <;> (simp; try omega)
  rw [isElement_iff (by omega)] at h2 h3
  have hri : ri = derInt r := by rw [h2, h4, derInt]
  have hsi : si = derInt s := by rw [h3, h5, derInt]
  rw [hri, hsi] at h1
  have l1 := derInt_length (n := r) (by omega)
  have l2 := derInt_length (n := s) (by omega)
  have hl : (derInt r ++ derInt s ++ rest).length < 2 ^ 31 := by
    simp only [List.length_append]; omega
  rw [isElement_iff hl] at h1
  refine ⟨h1, ?_⟩
  have e := derTake_elem (tag := 0x30) hl []
  rw [List.append_nil, ← h1] at e
  unfold P256.parseSig
  rw [e]
  dsimp only
  rw [List.append_assoc, derTakeInt_append (by omega)]
  dsimp only
  rw [derTakeInt_append (by omega)]

theorem parse_of_short {sig : GoString} (hl : sig.length < 2 ^ 29) {r s : Int} {rest : GoString} (h : P256.SigShape sig r s rest) :
    P256.parseSig sig = some (r, s, decide (rest ≠ [])) := by
  have h' := h
  obtain ⟨ri, si, rc, sc, h1, h2, h3, h4, h5⟩ := h
  have l1 := isElement_length h1
  have l2 := isElement_length h2
  have l3 := isElement_length h3
  simp only [List.length_append] at l1
  rw [derInteger_iff] at h4 h5
  have k1 : (intBytes r).length ≤ rc.length := by
    rw [h4]; split
    · rename_i h0; rw [h0]; exact Nat.zero_le _
    · exact Nat.le_refl _
  have k2 : (intBytes s).length ≤ sc.length := by
    rw [h5]; split
    · rename_i h0; rw [h0]; exact Nat.zero_le _
    · exact Nat.le_refl _
  exact (parse_of_sigShape (by omega) (by omega) (by omega) h').2

/-- Short bytes are read in one way only. -/
theorem sigShape_det {sig : GoString} (hl : sig.length < 2 ^ 29) {r s r' s' : Int} {rest' : GoString}
    (h : P256.SigShape sig r s []) (h' : P256.SigShape sig r' s' rest') : r' = r ∧ s' = s ∧ rest' = [] := by
  have e := parse_of_short hl h
  rw [parse_of_short hl h'] at e
  simp only [Option.some.injEq, Prod.mk.injEq] at e
  simpa using e

/-- One byte string for one pair of numbers. -/
theorem sigShape_bytes {a b : GoString} {r s : Nat} (hr : r < 2 ^ 256) (hs : s < 2 ^ 256) (h1 : P256.SigShape a r s [])
    (h2 : P256.SigShape b r s []) : a = b := by
  have l1 := intBytes_length_of_lt (n := r) (k := 32) (by omega)
  have l2 := intBytes_length_of_lt (n := s) (k := 32) (by omega)
  rw [(parse_of_sigShape (by omega) (by omega) (by simp) h1).1, (parse_of_sigShape (by omega) (by omega) (by simp) h2).1]

theorem sigShape_length {a : GoString} {r s : Nat} (hr : r < 2 ^ 256) (hs : s < 2 ^ 256) (h : P256.SigShape a r s []) :
    a.length < 2 ^ 29 := by
  have l1 := intBytes_length_of_lt (n := r) (k := 32) (by omega)
  have l2 := intBytes_length_of_lt (n := s) (k := 32) (by omega)
  have g1 := derInt_length (n := r) (by omega)
  have g2 := derInt_length (n := s) (by omega)
  have hl : (derInt r ++ derInt s ++ []).length < 100 := by simp only [List.length_append, List.length_nil]; omega
  have := derElem_length (tag := 0x30) (c := derInt r ++ derInt s ++ []) (by omega)
  rw [(parse_of_sigShape (by omega) (by omega) (by simp) h).1]
  omega

theorem sigShape_exists {r s : Nat} (hr : r < 2 ^ 256) (hs : s < 2 ^ 256) : ∃ a, P256.SigShape a r s [] := by
  have l1 := intBytes_length_of_lt (n := r) (k := 32) (by omega)
  have l2 := intBytes_length_of_lt (n := s) (k := 32) (by omega)
  have g1 := derInt_length (n := r) (by omega)
  have g2 := derInt_length (n := s) (by omega)
  refine ⟨derElem 0x30 (derInt r ++ derInt s), _, _, _, _, (isElement_iff ?_).2 (by rw [List.append_nil]; rfl), (isElement_iff ?_).2 rfl,
    (isElement_iff ?_).2 rfl, derInteger_iff.2 rfl, derInteger_iff.2 rfl⟩
  · simp only [List.length_append, List.length_nil]; unfold derInt at *; omega
  · split <;> (simp; try omega)
  · split <;> (simp; try omega)

end GoIdentity

namespace GoIdentity.P256
open WeierstrassCurve.Affine
variable [Ext]
open Sha (beNat)

/-- What the library accepts, for a key on the curve and a signature with nothing after the two integers. -/
theorem ecdsaVerify_iff {G Q : curve.Point} {x y : Nat} (hG : IsPoint G gx gy) (hQ : IsPoint Q x y) {data sig : GoString}
    (hm : ∀ r s rest, SigShape sig r s rest → rest = []) :
    ecdsaVerify x y data sig = true ↔ ∃ r s : Nat, SigShape sig r s [] ∧ Valid G Q (beNat (Sha.sha256 data)) r s := by
  have hc := (onCurve_iff x y).2 ⟨Q, hQ⟩
  constructor
  · intro h
    rw [ecdsaVerify] at h
    split at h
    · simp at h
    · rename_i r s m hp
      obtain ⟨rest, hs, hmr⟩ := sigShape_of_parse hp
      have hrest := hm _ _ _ hs
      have hmf := hmr.2 hrest
      split at h
      · simp at h
      · rename_i hpos
        rw [if_neg (by simp [hmf, hc]), verify_iff hG hQ (order_all Q)] at h
        refine ⟨r.toNat, s.toNat, ?_, h⟩
        rw [Int.toNat_of_nonneg (by omega), Int.toNat_of_nonneg (by omega), ← hrest]
        exact hs
  · rintro ⟨r, s, hs, hv⟩
    have hn : n < 2 ^ 256 := by decide +kernel
    have l1 := intBytes_length_of_lt (n := r) (k := 32) (by have := hv.2.1; omega)
    have l2 := intBytes_length_of_lt (n := s) (k := 32) (by have := hv.2.2.2.1; omega)
    have hp := (parse_of_sigShape (by omega) (by omega) (by simp) hs).2
    rw [ecdsaVerify, hp]
    dsimp only
    have := hv.1
    have := hv.2.2.1
    rw [if_neg (by omega), if_neg (by simp [hc])]
    rw [verify_iff hG hQ (order_all Q)]
    exact hv

/-- Whatever the key, there have to be two positive integers. -/
theorem ecdsaVerify_shape {x y : Nat} {data sig : GoString} (h : ecdsaVerify x y data sig = true) :
    ∃ r s rest, 0 < r ∧ 0 < s ∧ SigShape sig r s rest := by
  rw [ecdsaVerify] at h
  split at h
  · simp at h
  · rename_i r s m hp
    obtain ⟨rest, hs, _⟩ := sigShape_of_parse hp
    split at h
    · simp at h
    · exact ⟨r, s, rest, by omega, by omega, hs⟩

omit [Ext] in
/-- A signature is valid exactly if the holder of the private key could have made it. -/
theorem valid_iff_signs {G : curve.Point} (hG : IsPoint G gx gy) {d e r s : Nat} :
    Valid G (d • G) e r s ↔ ∃ k, Signs G d e k r s := by
  refine ⟨?_, fun ⟨k, h⟩ => valid_of_signs hG h⟩
  rintro ⟨h1, h2, h3, h4, u1, u2, x, y, f1, f2, hp, hx⟩
  refine ⟨u1 + u2 * d, x, y, ?_, hx, h1, h3, h4, ?_⟩
  · rw [add_nsmul, mul_nsmul']; exact hp
  · have g1 : ((u1 * s : Nat) : ZMod n) = (e : Nat) := cast_of_mod f1
    have g2 : ((u2 * s : Nat) : ZMod n) = (r : Nat) := cast_of_mod (by rw [f2, Nat.mod_eq_of_lt h2])
    apply mod_of_cast
    push_cast at g1 g2 ⊢
    linear_combination g1 + (d : ZMod n) * g2

omit [Ext] in
theorem same_x {P Q : curve.Point} {x y y' : Nat} (hP : IsPoint P x y) (hQ : IsPoint Q x y') : P = Q ∨ P = -Q := by
  obtain ⟨-, -, hp, rfl⟩ := hP
  obtain ⟨-, -, hq, rfl⟩ := hQ
  rcases Y_eq_of_X_eq hp.1 hq.1 rfl with h | h
  · left; rw [Point.some.injEq]; exact ⟨rfl, h⟩
  · right; rw [Point.neg_some, Point.some.injEq]; exact ⟨rfl, h⟩

omit [Ext] in
theorem multiples_of_x {G : curve.Point} (hG : IsPoint G gx gy) (x : Nat) :
    ∃ L : List Nat, L.length ≤ 2 ∧ ∀ k y : Nat, IsPoint (k • G) x y → k % n ∈ L := by
  by_cases h : ∃ k y : Nat, IsPoint (k • G) x y
  · obtain ⟨k0, y0, h0⟩ := h
    refine ⟨[k0 % n, (n - k0 % n) % n], by simp, ?_⟩
    intro k y hk
    rcases same_x hk h0 with h | h
    · have := (nsmul_inj_mod (x := G)).1 h
      rw [base_addOrder hG] at this
      rw [this]; simp
    · have h' : (k + k0) • G = 0 • G := by rw [add_nsmul, h, zero_nsmul, neg_add_cancel]
      have := (nsmul_inj_mod (x := G)).1 h'
      rw [base_addOrder hG] at this
      have hn : 0 < n := by decide +kernel
      have e : k % n = (n - k0 % n) % n := by
        apply mod_of_cast
        have h1 := cast_of_mod this
        rw [Nat.cast_sub (Nat.mod_lt _ hn).le, ZMod.natCast_mod, ZMod.natCast_self]
        push_cast at h1
        linear_combination h1
      rw [e]; simp
  · exact ⟨[], by simp, fun k y hk => absurd ⟨k, y, hk⟩ h⟩

omit [Ext] in
/-- One signature is valid under one key for at most four digests. -/
theorem digests_le_four {G : curve.Point} (hG : IsPoint G gx gy) (Q : curve.Point) (r s : Nat) :
    ∃ L : List Nat, L.length ≤ 4 ∧ ∀ e, Valid G Q e r s → e % n ∈ L := by
  obtain ⟨d, _, rfl⟩ := exists_dlog hG Q
  obtain ⟨L1, hl1, h1⟩ := multiples_of_x hG r
  obtain ⟨L2, hl2, h2⟩ := multiples_of_x hG (r + n)
  refine ⟨(L1 ++ L2).map fun k => (k * s + (n - r * d % n)) % n, by simp; omega, ?_⟩
  intro e hv
  obtain ⟨k, x, y, hp, hx, hr, hs, hsn, he⟩ := (valid_iff_signs hG).1 hv
  have hn : 0 < n := by decide +kernel
  have hpn : p < 2 * n := by decide +kernel
  have hxp : x < p := hp.1
  have hx2 : x = r ∨ x = r + n := by
    have h3 := Nat.div_add_mod x n
    have h4 : x / n < 2 := Nat.div_lt_of_lt_mul (by omega)
    generalize x / n = q at h3 h4
    match q, h4 with
    | 0, _ => left; omega
    | 1, _ => right; omega
  refine List.mem_map.2 ⟨k % n, ?_, ?_⟩
  · rcases hx2 with rfl | rfl
    · exact List.mem_append_left _ (h1 k y hp)
    · exact List.mem_append_right _ (h2 k y hp)
  · apply mod_of_cast
    have h5 := cast_of_mod he
    have h6 : ((n - r * d % n : Nat) : ZMod n) = -((r : ZMod n) * d) := by
      rw [Nat.cast_sub (Nat.mod_lt _ hn).le, ZMod.natCast_mod, ZMod.natCast_self]; push_cast; ring
    rw [Nat.cast_add, h6, Nat.cast_mul, ZMod.natCast_mod]
    push_cast at h5
    linear_combination h5

omit [Ext] in
/-- Reading off the affine coordinates. -/
theorem isPoint_of_rep {a : Jac} {P : curve.Point} (h : Rep a P) {x y : Nat} (hx : x < p) (hy : y < p) (hz : a.z ≠ 0)
    (h1 : x * (a.z * a.z) % p = a.x % p) (h2 : y * (a.z * a.z * a.z) % p = a.y % p) : IsPoint P x y := by
  obtain ⟨hzp, ⟨-, h0⟩ | ⟨u, v, hn, rfl, -, hu, hv⟩⟩ := h
  · exact absurd h0 hz
  · have hzF : (a.z : F) ≠ 0 := fun h => hz ((cast_eq_zero hzp).1 h)
    have g1 := (ZMod.natCast_eq_natCast_iff' _ _ _).2 h1
    have g2 := (ZMod.natCast_eq_natCast_iff' _ _ _).2 h2
    push_cast at g1 g2
    have e1 : (x : F) = u := by
      have : (x : F) * (a.z : F) ^ 2 = u * (a.z : F) ^ 2 := by rw [← hu, ← g1]; ring
      exact mul_right_cancel₀ (pow_ne_zero 2 hzF) this
    have e2 : (y : F) = v := by
      have : (y : F) * (a.z : F) ^ 3 = v * (a.z : F) ^ 3 := by rw [← hv, ← g2]; ring
      exact mul_right_cancel₀ (pow_ne_zero 3 hzF) this
    subst e1 e2
    exact ⟨hx, hy, hn, rfl⟩

omit [Ext] in
/-- A multiple of the base point, by computation. -/
theorem isPoint_mul {G : curve.Point} (hG : IsPoint G gx gy) {k x y : Nat} (hk : k < 2 ^ 256) (hx : x < p) (hy : y < p)
    (h : (mul2 gx gy 256 k 0).z ≠ 0 ∧ x * ((mul2 gx gy 256 k 0).z * (mul2 gx gy 256 k 0).z) % p = (mul2 gx gy 256 k 0).x % p ∧
      y * ((mul2 gx gy 256 k 0).z * (mul2 gx gy 256 k 0).z * (mul2 gx gy 256 k 0).z) % p = (mul2 gx gy 256 k 0).y % p) :
    IsPoint (k • G) x y := by
  have hr := rep_mul2 hG hG 256 k 0 hk (by decide +kernel)
  rw [zero_nsmul, add_zero] at hr
  exact isPoint_of_rep hr hx hy h.1 h.2.1 h.2.2

end GoIdentity.P256
