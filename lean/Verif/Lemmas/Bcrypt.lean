import Verif.Model.Bcrypt
import Verif.Lemmas.Qr
/-!
# bcrypt texts read back
-/
namespace GoIdentity
set_option linter.unusedSectionVars false
variable [Ext]

theorem buffer_length (n : Nat) (s : GoString) : (buffer n s).length = n := by
  simp [buffer]

theorem buffer_eq {n : Nat} {s : GoString} (h : s.length = n) : buffer n s = s := by
  rw [buffer, List.take_append_of_le_length (by omega), List.take_of_length_le (by omega)]

theorem bcryptDigest_length (c : Nat) (s k : GoString) : (bcryptDigest c s k).length = 23 := buffer_length ..

/-- Base64 text is its code characters and then the padding. -/
theorem b64Encode_split (s : GoString) :
    b64Encode s = (b64Encode s).filter (· != 61) ++ List.replicate ((3 - s.length % 3) % 3) 61 ∧
      (∀ b ∈ (b64Encode s).filter (· != 61), ∃ n < 64, b = b64Char n) ∧
      ((b64Encode s).filter (· != 61)).length = (4 * s.length + 2) / 3 := by
  have hc : ∀ (n : Nat) (l : GoString), n < 64 → (b64Char n :: l).filter (· != 61) = b64Char n :: l.filter (· != 61) := fun n l h =>
    List.filter_cons_of_pos (by simpa using (b64Val_char h).2.1)
  have h61 : ∀ l : GoString, ((61 : UInt8) :: l).filter (· != 61) = l.filter (· != 61) := fun l => List.filter_cons_of_neg (by simp)
  induction s using b64Encode.induct with
  | case1 => simp [b64Encode]
  | case2 a =>
    have ha := a.toNat_lt
    simp only [b64Encode]
    rw [hc _ _ (by omega), hc _ _ (by omega),
      h61, h61, List.filter_nil]
    refine ⟨by simp, ?_, by simp⟩
    intro b hb
    simp only [List.mem_cons, List.not_mem_nil, or_false] at hb
    rcases hb with rfl | rfl
    · exact ⟨_, by omega, rfl⟩
    · exact ⟨_, by omega, rfl⟩
  | case3 a b =>
    have ha := a.toNat_lt
    have hb := b.toNat_lt
    simp only [b64Encode]
    rw [hc _ _ (by omega), hc _ _ (by omega),
      hc _ _ (by omega), h61, List.filter_nil]
    refine ⟨by simp, ?_, by simp⟩
    intro b hb
    simp only [List.mem_cons, List.not_mem_nil, or_false] at hb
    rcases hb with rfl | rfl | rfl
    · exact ⟨_, by omega, rfl⟩
    · exact ⟨_, by omega, rfl⟩
    · exact ⟨_, by omega, rfl⟩
  | case4 a b c t ih =>
    have ha := a.toNat_lt
    have hb := b.toNat_lt
    have hcc := c.toNat_lt
    obtain ⟨i1, i2, i3⟩ := ih
    simp only [b64Encode]
    rw [hc _ _ (by omega), hc _ _ (by omega),
      hc _ _ (by omega), hc _ _ (by omega)]
    refine ⟨?_, ?_, ?_⟩
    · have e : (3 - (a :: b :: c :: t).length % 3) % 3 = (3 - t.length % 3) % 3 := by simp only [List.length_cons]; omega
      rw [e]
      conv => lhs; rw [i1]
      rfl
    · intro x hx
      simp only [List.mem_cons] at hx
      rcases hx with rfl | rfl | rfl | rfl | hx
      · exact ⟨_, by omega, rfl⟩
      · exact ⟨_, by omega, rfl⟩
      · exact ⟨_, by omega, rfl⟩
      · exact ⟨_, by omega, rfl⟩
      · exact i2 x hx
    · simp only [List.length_cons, i3]; omega

theorem bcEncode_length (s : GoString) : (bcEncode s).length = (4 * s.length + 2) / 3 := by
  rw [bcEncode, List.length_map]
  exact (b64Encode_split s).2.2

theorem bcToStd_alphabet : ∀ n < 64, bcToStd (bcAlphabet.getD n 0) = b64Char n := by decide +kernel

/-- The bcrypt characters turn back into the standard ones. -/
theorem bcToStd_encode (s : GoString) : (bcEncode s).map bcToStd = (b64Encode s).filter (· != 61) := by
  rw [bcEncode, List.map_map]
  conv => rhs; rw [← List.map_id ((b64Encode s).filter (· != 61))]
  apply List.map_congr_left
  intro b hb
  obtain ⟨n, hn, rfl⟩ := (b64Encode_split s).2.1 b hb
  simp only [Function.comp, (b64Val_char hn).1, Option.getD_some, bcToStd_alphabet n hn, id]

theorem bcDecodeSalt_encode {s : GoString} (h : s.length % 3 = 1) : bcDecodeSalt (bcEncode s) = some s := by
  have e : (bcEncode s ++ [61, 61]).map bcToStd = b64Encode s := by
    rw [List.map_append, bcToStd_encode]
    conv => rhs; rw [(b64Encode_split s).1, h]
    rfl
  rw [bcDecodeSalt, e, b64_roundtrip]

theorem bcEncode_inj {s t : GoString} (hl : s.length = t.length) (h : bcEncode s = bcEncode t) : s = t := by
  have e := congrArg (List.map bcToStd) h
  rw [bcToStd_encode, bcToStd_encode] at e
  have e2 : b64Encode s = b64Encode t := by rw [(b64Encode_split s).1, (b64Encode_split t).1, e, hl]
  have := congrArg b64Decode e2
  rw [b64_roundtrip, b64_roundtrip] at this
  exact Option.some.inj this

theorem costOf_twoDigits : ∀ c, 4 ≤ c → c ≤ 31 →
    costOf (UInt8.ofNat (48 + c / 10 % 10)) (UInt8.ofNat (48 + c % 10)) = some c := by
  have : ∀ c < 32, 4 ≤ c → costOf (UInt8.ofNat (48 + c / 10 % 10)) (UInt8.ofNat (48 + c % 10)) = some c := by decide +kernel
  exact fun c h1 h2 => this c (by omega) h1

theorem bcryptText_length (c : Nat) (s pw : GoString) : (bcryptText c s pw).length = 60 := by
  simp only [bcryptText, twoDigits, List.length_append, bcEncode_length, buffer_length, bcryptDigest_length]
  rfl

/-- A hash text reads back as its cost, salt and digest. -/
theorem bcryptParse_text {c : Nat} (h1 : 4 ≤ c) (h2 : c ≤ 31) (s pw junk : GoString) :
    bcryptParse (bcryptText c s pw ++ junk) =
      some (c, bcEncode (buffer 16 s), bcEncode (bcryptDigest c (buffer 16 s) (bcryptKey pw)) ++ junk) := by
  have hl : (bcEncode (buffer 16 s)).length = 22 := by rw [bcEncode_length, buffer_length]
  have hlen : ¬ (bcryptText c s pw ++ junk).length < 59 := by rw [List.length_append, bcryptText_length]; omega
  unfold bcryptParse
  rw [if_neg hlen]
  unfold bcryptText twoDigits
  simp only [List.append_assoc, List.cons_append, List.nil_append]
  rw [if_neg (by decide), if_neg (by decide)]
  simp only [show ((97 : UInt8) = 36) = False by simp, if_false, List.drop_succ_cons, List.drop_zero]
  rw [costOf_twoDigits c h1 h2]
  dsimp only
  rw [List.take_left' hl, List.drop_left' hl]

/-- What a hash text accepts: the passwords with the same digest.  Anything that follows the 60 characters is ignored. -/
theorem bcryptMatch_text {c : Nat} (h1 : 4 ≤ c) (h2 : c ≤ 31) (s p junk q : GoString) :
    bcryptMatch (bcryptText c s p ++ junk) q = true ↔
      bcryptDigest c (buffer 16 s) (bcryptKey p) = bcryptDigest c (buffer 16 s) (bcryptKey q) := by
  unfold bcryptMatch
  rw [bcryptParse_text h1 h2]
  dsimp only
  rw [bcDecodeSalt_encode (by rw [buffer_length])]
  dsimp only
  have hl : (bcEncode (bcryptDigest c (buffer 16 s) (bcryptKey p))).length = 31 := by rw [bcEncode_length, bcryptDigest_length]
  have e : buffer 31 (bcEncode (bcryptDigest c (buffer 16 s) (bcryptKey p)) ++ junk) =
      bcEncode (bcryptDigest c (buffer 16 s) (bcryptKey p)) := by
    rw [buffer, List.append_assoc, List.take_left' hl]
  rw [e, beq_iff_eq]
  constructor
  · exact fun h => bcEncode_inj (by rw [bcryptDigest_length, bcryptDigest_length]) h
  · exact fun h => by rw [h]

/-- A hash text consists of ASCII characters. -/
theorem bcryptText_ascii (c : Nat) (s pw : GoString) : ∀ b ∈ bcryptText c s pw, b.toNat < 128 := by
  have henc : ∀ x : GoString, ∀ b ∈ bcEncode x, b.toNat < 128 := by
    intro x b hb
    rw [bcEncode, List.mem_map] at hb
    obtain ⟨y, hy, rfl⟩ := hb
    obtain ⟨n, hn, rfl⟩ := (b64Encode_split x).2.1 y hy
    rw [(b64Val_char hn).1]
    have : ∀ n < 64, (bcAlphabet.getD n 0).toNat < 128 := by decide +kernel
    exact this n hn
  intro b hb
  simp only [bcryptText, List.mem_append] at hb
  rcases hb with (((hb | hb) | hb) | hb) | hb
  · have : ∀ b ∈ gs! "$2a$", b.toNat < 128 := by decide
    exact this b hb
  · simp only [twoDigits, List.mem_cons, List.not_mem_nil, or_false] at hb
    rcases hb with rfl | rfl
    · rw [UInt8.toNat_ofNat']; omega
    · rw [UInt8.toNat_ofNat']; omega
  · have : ∀ b ∈ gs! "$", b.toNat < 128 := by decide
    exact this b hb
  · exact henc _ b hb
  · exact henc _ b hb

theorem bcEncode_nonzero (x : GoString) : (0 : UInt8) ∉ bcEncode x := by
  unfold bcEncode
  intro h
  obtain ⟨b, _, hb⟩ := List.mem_map.1 h
  have hv : (b64Val b).getD 0 < 64 := by
    revert b
    intro b _ _
    have : ∀ n < 256, (b64Val (UInt8.ofNat n)).getD 0 < 64 := by decide +kernel
    have := this b.toNat b.toNat_lt
    rwa [UInt8.ofNat_toNat] at this
  revert hb
  generalize (b64Val b).getD 0 = n at hv
  have : ∀ n < 64, bcAlphabet.getD n 0 ≠ 0 := by decide +kernel
  exact this n hv

/-- The two characters of a cost: two digits, or a plus sign and a digit. -/
def CostChars (a b : UInt8) (cost : Nat) : Prop :=
  ∃ x y : Nat, x < 10 ∧ y < 10 ∧ (a = UInt8.ofNat (48 + x) ∨ a = 43 ∧ x = 0) ∧ b = UInt8.ofNat (48 + y) ∧
    cost = 10 * x + y ∧ 4 ≤ cost ∧ cost ≤ 31

theorem digit_val (c : UInt8) (h : isDigit c = true) : ∃ x, x < 10 ∧ c = UInt8.ofNat (48 + x) ∧ c.toNat - 48 = x := by
  have : ∀ n < 256, isDigit (UInt8.ofNat n) = true → n - 48 < 10 ∧ UInt8.ofNat n = UInt8.ofNat (48 + (n - 48)) := by decide +kernel
  have := this c.toNat c.toNat_lt (by rwa [UInt8.ofNat_toNat])
  rw [UInt8.ofNat_toNat] at this
  exact ⟨_, this.1, this.2, rfl⟩

theorem costOf_iff {a b : UInt8} {c : Nat} : costOf a b = some c ↔ CostChars a b c := by
  unfold CostChars
  constructor
  · intro h
    unfold costOf at h
    dsimp only at h
    split at h
    · rename_i x y hx hy
      split at h
      · rename_i hr
        simp only [Option.some.injEq] at h
        subst h
        split at hy
        rotate_left
        · simp at hy
        rename_i hb
        obtain ⟨y', hy', hb', e⟩ := digit_val b hb
        simp only [Option.some.injEq] at hy
        split at hx
        · rename_i ha
          simp only [Option.some.injEq] at hx
          exact ⟨x, y, by omega, by omega, Or.inr ⟨ha, hx.symm⟩, by rw [hb', ← hy, e], rfl, hr⟩
        · split at hx
          rotate_left
          · simp at hx
          rename_i ha
          obtain ⟨x', hx', ha', e'⟩ := digit_val a ha
          simp only [Option.some.injEq] at hx
          exact ⟨x, y, by omega, by omega, Or.inl (by rw [ha', ← hx, e']), by rw [hb', ← hy, e], rfl, hr⟩
      · simp at h
    · simp at h
  · rintro ⟨x, y, hx, hy, ha, rfl, rfl, h4, h31⟩
    have key : ∀ x < 10, ∀ y < 10, 4 ≤ 10 * x + y → 10 * x + y ≤ 31 →
        costOf (UInt8.ofNat (48 + x)) (UInt8.ofNat (48 + y)) = some (10 * x + y) := by decide +kernel
    have key' : ∀ y < 10, 4 ≤ y → costOf 43 (UInt8.ofNat (48 + y)) = some y := by decide +kernel
    rcases ha with rfl | ⟨rfl, rfl⟩
    · exact key x hx y hy h4 h31
    · have := key' y hy (by omega)
      rw [this]; simp

theorem bcryptParse_iff {h : GoString} {c : Nat} {salt rest : GoString} :
    bcryptParse h = some (c, salt, rest) ↔
      59 ≤ h.length ∧ ∃ (v a b sep : UInt8) (ver : GoString), v.toNat ≤ 50 ∧ (ver = [36] ∨ ∃ m x, m ≠ 36 ∧ ver = [m, x]) ∧
        CostChars a b c ∧ salt.length = 22 ∧ h = 36 :: v :: ver ++ a :: b :: sep :: salt ++ rest := by
  constructor
  · intro hp
    unfold bcryptParse at hp
    split at hp
    · simp at hp
    rename_i hlen
    refine ⟨by omega, ?_⟩
    split at hp
    rotate_left
    · simp at hp
    rename_i c0 c1 c2 t
    split at hp
    · simp at hp
    rename_i h0
    split at hp
    · simp at hp
    rename_i h1
    split at hp
    rotate_left
    · simp at hp
    rename_i a b sep t' ht
    split at hp
    · simp at hp
    rename_i c' hc
    simp only [Option.some.injEq, Prod.mk.injEq] at hp
    obtain ⟨rfl, rfl, rfl⟩ := hp
    have h0' : c0 = 36 := by simpa using h0
    subst h0'
    by_cases h2 : c2 = 36
    · subst h2
      rw [if_pos rfl] at ht
      subst ht
      refine ⟨c1, a, b, sep, [36], by omega, Or.inl rfl, costOf_iff.1 hc, ?_, by simp⟩
      simp at hlen ⊢; omega
    · rw [if_neg h2] at ht
      cases t with
      | nil => simp at ht
      | cons x t =>
        simp only [List.drop_succ_cons, List.drop_zero] at ht
        subst ht
        refine ⟨c1, a, b, sep, [c2, x], by omega, Or.inr ⟨_, _, h2, rfl⟩, costOf_iff.1 hc, ?_, by simp⟩
        simp at hlen ⊢; omega
  · rintro ⟨hl, v, a, b, sep, ver, hv, hver, hc, hs, rfl⟩
    unfold bcryptParse
    rw [if_neg (by omega)]
    rcases hver with rfl | ⟨m, x, hm, rfl⟩
    · simp only [List.cons_append, List.nil_append]
      rw [if_neg (by simp), if_neg (by omega)]
      simp only [if_true]
      rw [costOf_iff.2 hc]
      dsimp only
      rw [List.take_left' hs, List.drop_left' hs]
    · simp only [List.cons_append, List.nil_append]
      rw [if_neg (by simp), if_neg (by omega)]
      simp only [hm, if_false, List.drop_succ_cons, List.drop_zero]
      rw [costOf_iff.2 hc]
      dsimp only
      rw [List.take_left' hs, List.drop_left' hs]

end GoIdentity
