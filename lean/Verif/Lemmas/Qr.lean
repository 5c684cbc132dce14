import Verif.Model.Qr
import Verif.Spec.Uri
import Verif.Lemmas.Split
import Verif.Lemmas.Decimal
/-!
# Base64, base32, percent encoding and the QR text
-/
namespace GoIdentity
open Uri

theorem forall_bytes {P : UInt8 → Prop} (h : ∀ n : Fin 256, P (UInt8.ofNat n.val)) (b : UInt8) : P b := by
  have := h ⟨b.toNat, b.toNat_lt⟩
  simpa using this

theorem ofNat_eq {b : UInt8} {n : Nat} (h : n = b.toNat) : UInt8.ofNat n = b := by rw [h]; simp

/-! ## Base64 -/

theorem b64Val_char {n : Nat} (h : n < 64) : b64Val (b64Char n) = some n ∧ b64Char n ≠ 61 ∧ b64Char n ≠ 10 ∧ b64Char n ≠ 13 := by
  have : ∀ n : Fin 64, b64Val (b64Char n.val) = some n.val ∧ b64Char n.val ≠ 61 ∧ b64Char n.val ≠ 10 ∧ b64Char n.val ≠ 13 := by decide
  exact this ⟨n, h⟩

theorem b64_groups (s : GoString) : b64DecodeGroups (b64Encode s) = some s := by
  induction s using b64Encode.induct with
  | case1 => rfl
  | case2 a =>
    have ha := a.toNat_lt
    rw [b64Encode, b64DecodeGroups, (b64Val_char (n := a.toNat / 4) (by omega)).1,
      (b64Val_char (n := a.toNat % 4 * 16) (by omega)).1]
    simp only [if_true, and_self]
    rw [ofNat_eq (b := a) (by omega)]
  | case3 a b =>
    have ha := a.toNat_lt
    have hb := b.toNat_lt
    have h3 := b64Val_char (n := b.toNat % 16 * 4) (by omega)
    rw [b64Encode, b64DecodeGroups, (b64Val_char (n := a.toNat / 4) (by omega)).1,
      (b64Val_char (n := a.toNat % 4 * 16 + b.toNat / 16) (by omega)).1]
    simp only [if_neg h3.2.1, h3.1, if_true]
    rw [ofNat_eq (b := a) (by omega), ofNat_eq (b := b) (by omega)]
  | case4 a b c t ih =>
    have ha := a.toNat_lt
    have hb := b.toNat_lt
    have hc := c.toNat_lt
    have h3 := b64Val_char (n := b.toNat % 16 * 4 + c.toNat / 64) (by omega)
    have h4 := b64Val_char (n := c.toNat % 64) (by omega)
    rw [b64Encode, b64DecodeGroups, (b64Val_char (n := a.toNat / 4) (by omega)).1,
      (b64Val_char (n := a.toNat % 4 * 16 + b.toNat / 16) (by omega)).1]
    simp only [if_neg h3.2.1, h3.1, if_neg h4.2.1, h4.1, ih]
    rw [ofNat_eq (b := a) (by omega), ofNat_eq (b := b) (by omega), ofNat_eq (b := c) (by omega)]

theorem b64Encode_chars (s : GoString) : ∀ x ∈ b64Encode s, x ≠ 10 ∧ x ≠ 13 := by
  have hc : ∀ {n}, n < 64 → b64Char n ≠ 10 ∧ b64Char n ≠ 13 := fun h => (b64Val_char h).2.2
  induction s using b64Encode.induct with
  | case1 => simp [b64Encode]
  | case2 a =>
    have ha := a.toNat_lt
    intro x hx
    simp only [b64Encode, List.mem_cons, List.not_mem_nil, or_false] at hx
    rcases hx with rfl | rfl | rfl | rfl
    · exact hc (by omega)
    · exact hc (by omega)
    · decide
    · decide
  | case3 a b =>
    have ha := a.toNat_lt
    have hb := b.toNat_lt
    intro x hx
    simp only [b64Encode, List.mem_cons, List.not_mem_nil, or_false] at hx
    rcases hx with rfl | rfl | rfl | rfl
    · exact hc (by omega)
    · exact hc (by omega)
    · exact hc (by omega)
    · decide
  | case4 a b c t ih =>
    have ha := a.toNat_lt
    have hb := b.toNat_lt
    have hcl := c.toNat_lt
    intro x hx
    simp only [b64Encode, List.mem_cons] at hx
    rcases hx with rfl | rfl | rfl | rfl | hx
    · exact hc (by omega)
    · exact hc (by omega)
    · exact hc (by omega)
    · exact hc (by omega)
    · exact ih x hx

/-- Base64 decoding inverts encoding. -/
theorem b64_roundtrip (s : GoString) : b64Decode (b64Encode s) = some s := by
  unfold b64Decode
  rw [List.filter_eq_self.2, b64_groups]
  intro x hx
  have := b64Encode_chars s x hx
  simp [this.1, this.2]

/-! ## Base32 -/

theorem b32Val_char {n : Nat} (h : n < 32) : b32Val (b32Char n) = some n := by
  have : ∀ n : Fin 32, b32Val (b32Char n.val) = some n.val := by decide
  exact this ⟨n, h⟩

theorem b32Char_clean {n : Nat} (h : n < 32) : b32Char n ≠ 38 := by
  have : ∀ n : Fin 32, b32Char n.val ≠ 38 := by decide
  exact this ⟨n, h⟩

/-- The 5-bit values behind the base32 characters. -/
def b32Vals : GoString → List Nat
  | [] => []
  | [a] => [a.toNat / 8, a.toNat % 8 * 4]
  | [a, b] => [a.toNat / 8, a.toNat % 8 * 4 + b.toNat / 64, b.toNat / 2 % 32, b.toNat % 2 * 16]
  | [a, b, c] =>
    [a.toNat / 8, a.toNat % 8 * 4 + b.toNat / 64, b.toNat / 2 % 32, b.toNat % 2 * 16 + c.toNat / 16, c.toNat % 16 * 2]
  | [a, b, c, d] =>
    [a.toNat / 8, a.toNat % 8 * 4 + b.toNat / 64, b.toNat / 2 % 32, b.toNat % 2 * 16 + c.toNat / 16,
     c.toNat % 16 * 2 + d.toNat / 128, d.toNat / 4 % 32, d.toNat % 4 * 8]
  | a :: b :: c :: d :: e :: t =>
    (a.toNat / 8) :: (a.toNat % 8 * 4 + b.toNat / 64) :: (b.toNat / 2 % 32) :: (b.toNat % 2 * 16 + c.toNat / 16) ::
      (c.toNat % 16 * 2 + d.toNat / 128) :: (d.toNat / 4 % 32) :: (d.toNat % 4 * 8 + e.toNat / 32) :: (e.toNat % 32) ::
      b32Vals t

theorem b32Encode_vals (s : GoString) : b32Encode s = (b32Vals s).map b32Char := by
  induction s using b32Encode.induct <;> simp_all [b32Encode, b32Vals]

theorem b32Vals_lt (s : GoString) : ∀ n ∈ b32Vals s, n < 32 := by
  induction s using b32Vals.induct with
  | case1 => simp [b32Vals]
  | case2 a =>
    have := a.toNat_lt
    simp only [b32Vals, List.mem_cons, List.not_mem_nil, or_false]; omega
  | case3 a b =>
    have := a.toNat_lt; have := b.toNat_lt
    simp only [b32Vals, List.mem_cons, List.not_mem_nil, or_false]; omega
  | case4 a b c =>
    have := a.toNat_lt; have := b.toNat_lt; have := c.toNat_lt
    simp only [b32Vals, List.mem_cons, List.not_mem_nil, or_false]; omega
  | case5 a b c d =>
    have := a.toNat_lt; have := b.toNat_lt; have := c.toNat_lt; have := d.toNat_lt
    simp only [b32Vals, List.mem_cons, List.not_mem_nil, or_false]; omega
  | case6 a b c d e t ih =>
    have := a.toNat_lt; have := b.toNat_lt; have := c.toNat_lt; have := d.toNat_lt; have := e.toNat_lt
    intro n hn
    simp only [b32Vals, List.mem_cons] at hn
    rcases hn with h | h | h | h | h | h | h | h | h
    any_goals omega
    exact ih n h

theorem mapM_b32 {ns : List Nat} (h : ∀ n ∈ ns, n < 32) : (ns.map b32Char).mapM b32Val = some ns := by
  induction ns with
  | nil => rfl
  | cons n ns ih =>
    rw [List.map_cons, List.mapM_cons, b32Val_char (h n (by simp)), ih fun m hm => h m (by simp [hm])]
    rfl

theorem bit_toNat (n i : Nat) : (n.testBit i).toNat = n / 2 ^ i % 2 := by
  rw [Nat.testBit_eq_decide_div_mod_eq]
  rcases Nat.mod_two_eq_zero_or_one (n / 2 ^ i) with h | h <;> simp [h]

theorem bits5 (u : Nat) :
    u / 2 ^ 4 % 2 * 16 + u / 2 ^ 3 % 2 * 8 + u / 2 ^ 2 % 2 * 4 + u / 2 ^ 1 % 2 * 2 + u / 2 ^ 0 % 2 = u % 32 := by omega

theorem byte1 (u v : Nat) :
    128 * (u / 2 ^ 4 % 2) + 64 * (u / 2 ^ 3 % 2) + 32 * (u / 2 ^ 2 % 2) + 16 * (u / 2 ^ 1 % 2) + 8 * (u / 2 ^ 0 % 2) +
      4 * (v / 2 ^ 4 % 2) + 2 * (v / 2 ^ 3 % 2) + v / 2 ^ 2 % 2 = u % 32 * 8 + v % 32 / 4 := by
  have := bits5 u
  have : 4 * (v / 2 ^ 4 % 2) + 2 * (v / 2 ^ 3 % 2) + v / 2 ^ 2 % 2 = v % 32 / 4 := by omega
  omega

theorem byte2 (u v w : Nat) :
    128 * (u / 2 ^ 1 % 2) + 64 * (u / 2 ^ 0 % 2) + 32 * (v / 2 ^ 4 % 2) + 16 * (v / 2 ^ 3 % 2) + 8 * (v / 2 ^ 2 % 2) +
      4 * (v / 2 ^ 1 % 2) + 2 * (v / 2 ^ 0 % 2) + w / 2 ^ 4 % 2 = u % 4 * 64 + v % 32 * 2 + w % 32 / 16 := by
  have := bits5 v
  have : 128 * (u / 2 ^ 1 % 2) + 64 * (u / 2 ^ 0 % 2) = u % 4 * 64 := by omega
  have : w / 2 ^ 4 % 2 = w % 32 / 16 := by omega
  omega

theorem byte3 (u v : Nat) :
    128 * (u / 2 ^ 3 % 2) + 64 * (u / 2 ^ 2 % 2) + 32 * (u / 2 ^ 1 % 2) + 16 * (u / 2 ^ 0 % 2) + 8 * (v / 2 ^ 4 % 2) +
      4 * (v / 2 ^ 3 % 2) + 2 * (v / 2 ^ 2 % 2) + v / 2 ^ 1 % 2 = u % 16 * 16 + v % 32 / 2 := by
  have : 128 * (u / 2 ^ 3 % 2) + 64 * (u / 2 ^ 2 % 2) + 32 * (u / 2 ^ 1 % 2) + 16 * (u / 2 ^ 0 % 2) = u % 16 * 16 := by omega
  have : 8 * (v / 2 ^ 4 % 2) + 4 * (v / 2 ^ 3 % 2) + 2 * (v / 2 ^ 2 % 2) + v / 2 ^ 1 % 2 = v % 32 / 2 := by omega
  omega

theorem byte4 (u v w : Nat) :
    128 * (u / 2 ^ 0 % 2) + 64 * (v / 2 ^ 4 % 2) + 32 * (v / 2 ^ 3 % 2) + 16 * (v / 2 ^ 2 % 2) + 8 * (v / 2 ^ 1 % 2) +
      4 * (v / 2 ^ 0 % 2) + 2 * (w / 2 ^ 4 % 2) + w / 2 ^ 3 % 2 = u % 2 * 128 + v % 32 * 4 + w % 32 / 8 := by
  have := bits5 v
  have : 2 * (w / 2 ^ 4 % 2) + w / 2 ^ 3 % 2 = w % 32 / 8 := by omega
  have : u / 2 ^ 0 % 2 = u % 2 := by omega
  omega

theorem byte5 (u v : Nat) :
    128 * (u / 2 ^ 2 % 2) + 64 * (u / 2 ^ 1 % 2) + 32 * (u / 2 ^ 0 % 2) + 16 * (v / 2 ^ 4 % 2) + 8 * (v / 2 ^ 3 % 2) +
      4 * (v / 2 ^ 2 % 2) + 2 * (v / 2 ^ 1 % 2) + v / 2 ^ 0 % 2 = u % 8 * 32 + v % 32 := by
  have := bits5 v
  have : 128 * (u / 2 ^ 2 % 2) + 64 * (u / 2 ^ 1 % 2) + 32 * (u / 2 ^ 0 % 2) = u % 8 * 32 := by omega
  omega

theorem bytesOf_vals (s : GoString) : bytesOf (bitsOf5 (b32Vals s)) = s := by
  induction s using b32Vals.induct with
  | case1 => rfl
  | case2 a =>
    have := a.toNat_lt
    simp only [b32Vals, bitsOf5, List.flatMap_cons, List.flatMap_nil, List.cons_append, List.nil_append, List.append_nil, bytesOf,
      bit_toNat, byte1]
    rw [ofNat_eq (b := a) (by omega)]
  | case3 a b =>
    have := a.toNat_lt; have := b.toNat_lt
    simp only [b32Vals, bitsOf5, List.flatMap_cons, List.flatMap_nil, List.cons_append, List.nil_append, List.append_nil, bytesOf,
      bit_toNat, byte1, byte2]
    rw [ofNat_eq (b := a) (by omega), ofNat_eq (b := b) (by omega)]
  | case4 a b c =>
    have := a.toNat_lt; have := b.toNat_lt; have := c.toNat_lt
    simp only [b32Vals, bitsOf5, List.flatMap_cons, List.flatMap_nil, List.cons_append, List.nil_append, List.append_nil, bytesOf,
      bit_toNat, byte1, byte2, byte3]
    rw [ofNat_eq (b := a) (by omega), ofNat_eq (b := b) (by omega), ofNat_eq (b := c) (by omega)]
  | case5 a b c d =>
    have := a.toNat_lt; have := b.toNat_lt; have := c.toNat_lt; have := d.toNat_lt
    simp only [b32Vals, bitsOf5, List.flatMap_cons, List.flatMap_nil, List.cons_append, List.nil_append, List.append_nil, bytesOf,
      bit_toNat, byte1, byte2, byte3, byte4]
    rw [ofNat_eq (b := a) (by omega), ofNat_eq (b := b) (by omega), ofNat_eq (b := c) (by omega), ofNat_eq (b := d) (by omega)]
  | case6 a b c d e t ih =>
    have := a.toNat_lt; have := b.toNat_lt; have := c.toNat_lt; have := d.toNat_lt; have := e.toNat_lt
    unfold bitsOf5 at ih
    simp only [b32Vals, bitsOf5, List.flatMap_cons, List.cons_append, List.nil_append, bytesOf, bit_toNat, ih, byte1, byte2, byte3,
      byte4, byte5]
    rw [ofNat_eq (b := a) (by omega), ofNat_eq (b := b) (by omega), ofNat_eq (b := c) (by omega), ofNat_eq (b := d) (by omega),
      ofNat_eq (b := e) (by omega)]

/-- Base32 decoding inverts encoding. -/
theorem b32_roundtrip (s : GoString) : b32Decode (b32Encode s) = some s := by
  unfold b32Decode
  rw [b32Encode_vals, mapM_b32 (b32Vals_lt s)]
  simp [bytesOf_vals]

theorem b32Encode_clean (s : GoString) : (38 : UInt8) ∉ b32Encode s := by
  rw [b32Encode_vals, List.mem_map]
  rintro ⟨n, hn, h⟩
  exact b32Char_clean (b32Vals_lt s n hn) h

/-! ## Percent encoding -/

theorem hexVal_upper {n : Nat} (h : n < 16) : hexVal (upperHex n) = some n := by
  have : ∀ n : Fin 16, hexVal (upperHex n.val) = some n.val := by decide
  exact this ⟨n, h⟩

theorem unescape_plain (plus : Bool) {b : UInt8} (hb : b ≠ 37) (s : GoString) :
    unescape plus (b :: s) = (unescape plus s).map fun r => (if plus && b == 43 then 32 else b) :: r := by
  match s with
  | [] => simp [unescape, hb]
  | [c] =>
    by_cases hc : c = 37
    · simp [unescape, hc]
    · simp [unescape, hb, hc]
  | c :: d :: t => rw [unescape, if_neg hb]

theorem unescape_escape (plus : Bool) (b : UInt8) (s : GoString) :
    unescape plus (escapeByte b ++ s) = (unescape plus s).map fun r => (if !plus && b == 32 then 43 else b) :: r := by
  unfold escapeByte
  by_cases h1 : (isAlnum b || b == 45 || b == 95 || b == 46 || b == 126) = true
  · rw [if_pos h1]
    have hne : b ≠ 37 ∧ b ≠ 43 ∧ b ≠ 32 := by
      have key : ∀ n : Fin 256, (isAlnum (UInt8.ofNat n.val) || UInt8.ofNat n.val == 45 || UInt8.ofNat n.val == 95 ||
          UInt8.ofNat n.val == 46 || UInt8.ofNat n.val == 126) = true →
          UInt8.ofNat n.val ≠ 37 ∧ UInt8.ofNat n.val ≠ 43 ∧ UInt8.ofNat n.val ≠ 32 := by decide +kernel
      exact forall_bytes (P := fun b => (isAlnum b || b == 45 || b == 95 || b == 46 || b == 126) = true →
        b ≠ 37 ∧ b ≠ 43 ∧ b ≠ 32) key b h1
    rw [List.singleton_append, unescape_plain plus hne.1]
    simp [hne.2.1, hne.2.2]
  · rw [if_neg h1]
    by_cases h2 : (b == 32) = true
    · rw [if_pos h2, List.singleton_append, unescape_plain plus (by decide)]
      have : b = 32 := by simpa using h2
      subst this
      cases plus <;> simp
    · rw [if_neg h2]
      have hb := b.toNat_lt
      simp only [List.cons_append, List.nil_append, unescape, if_true]
      rw [hexVal_upper (by omega), hexVal_upper (by omega)]
      cases unescape plus s with
      | none => rfl
      | some r =>
        simp only [Option.map_some, h2, Bool.and_false]
        rw [ofNat_eq (b := b) (by omega)]
        simp

/-- Percent decoding inverts encoding; where `+` stands for itself, spaces come back as `+`. -/
theorem unescape_queryEscape (plus : Bool) (s : GoString) :
    unescape plus (queryEscape s) = some (s.map fun b => if !plus && b == 32 then 43 else b) := by
  unfold queryEscape
  induction s with
  | nil => rfl
  | cons b s ih => rw [List.flatMap_cons, unescape_escape, ih]; rfl

/-- Separators are escaped. -/
theorem queryEscape_clean (s : GoString) {x : UInt8} (hx : x ∈ queryEscape s) : x ≠ 38 ∧ x ≠ 61 ∧ x ≠ 47 ∧ x ≠ 63 := by
  unfold queryEscape at hx
  rw [List.mem_flatMap] at hx
  obtain ⟨b, _, hb⟩ := hx
  revert x
  revert b
  have key : ∀ n : Fin 256, ∀ x ∈ escapeByte (UInt8.ofNat n.val), x ≠ 38 ∧ x ≠ 61 ∧ x ≠ 47 ∧ x ≠ 63 := by decide +kernel
  intro b _
  exact forall_bytes (P := fun b => ∀ {x}, x ∈ escapeByte b → x ≠ 38 ∧ x ≠ 61 ∧ x ≠ 47 ∧ x ≠ 63)
    (fun n x hx => key n x hx) b

/-! ## Putting the text together -/

theorem cut_append {sep : UInt8} {a : GoString} (h : sep ∉ a) (t : GoString) : cut sep (a ++ sep :: t) = some (a, t) := by
  induction a with
  | nil => simp [cut]
  | cons b a ih =>
    simp only [List.mem_cons, not_or] at h
    rw [List.cons_append, cut, if_neg (Ne.symm h.1), ih h.2]
    rfl

theorem unescape_self (s : GoString) (h : ∀ b ∈ s, b ≠ 37 ∧ b ≠ 43) : unescape true s = some s := by
  induction s with
  | nil => rfl
  | cons b s ih =>
    rw [unescape_plain true (h b (by simp)).1, ih fun c hc => h c (by simp [hc])]
    simp [(h b (by simp)).2]

/-- A query string of key and value pairs. -/
def queryText (ps : List (GoString × GoString)) : GoString := joinWith [38] (ps.map fun p => p.1 ++ 61 :: p.2)

theorem rawParams_queryText {ps : List (GoString × GoString)} (hne : ps ≠ [])
    (h : ∀ p ∈ ps, (38 : UInt8) ∉ p.1 ∧ (61 : UInt8) ∉ p.1 ∧ (38 : UInt8) ∉ p.2) : rawParams (queryText ps) = ps := by
  unfold rawParams queryText
  have key : ∀ ps : List (GoString × GoString), ps ≠ [] → (∀ p ∈ ps, (38 : UInt8) ∉ p.1 ∧ (61 : UInt8) ∉ p.1 ∧ (38 : UInt8) ∉ p.2) →
      splitByte 38 (joinWith [38] (ps.map fun p => p.1 ++ 61 :: p.2)) = ps.map fun p => p.1 ++ 61 :: p.2 := by
    intro ps
    induction ps with
    | nil => intro h; exact absurd rfl h
    | cons p ps ih =>
      intro _ hp
      have hp1 := hp p (by simp)
      have hclean : (38 : UInt8) ∉ p.1 ++ 61 :: p.2 := by
        simp only [List.mem_append, List.mem_cons, not_or]
        exact ⟨hp1.1, by decide, hp1.2.2⟩
      cases ps with
      | nil => exact splitByte_no_sep hclean
      | cons q qs =>
        rw [List.map_cons, joinWith_cons (by simp), List.append_assoc, List.singleton_append, splitByte_append hclean,
          ih (by simp) fun p hp' => hp p (by simp [hp'])]
  rw [key ps hne h, List.map_map]
  conv => rhs; rw [← List.map_id ps]
  apply List.map_congr_left
  intro p hp
  simp only [Function.comp]
  rw [cut_append (h p hp).2.1]
  rfl

theorem natDec_clean (n : Nat) (x : UInt8) (hx : x ∈ natDec n) : x ≠ 38 := by
  rintro rfl
  exact absurd ((natDec_spec n).1 _ hx) (by unfold IsDigit; decide)

theorem number_natDec (n : Nat) : number (some (natDec n)) = some n := by
  obtain ⟨h1, h2, h3, _⟩ := natDec_spec n
  show (if _ then _ else _) = _
  rw [if_pos ⟨h3, h1⟩, h2]

theorem firstFailure_nil (m : GoString) :
    (∃ (pre post : List (Prop × GoString)) (p : Prop), [] = pre ++ (p, m) :: post ∧ (∀ q ∈ pre, q.1) ∧ ¬ p) ↔ False := by
  simp

theorem firstFailure_cons (r : Prop) (s m : GoString) (l : List (Prop × GoString)) :
    (∃ (pre post : List (Prop × GoString)) (p : Prop), (r, s) :: l = pre ++ (p, m) :: post ∧ (∀ q ∈ pre, q.1) ∧ ¬ p) ↔
      (¬ r ∧ m = s) ∨ (r ∧ ∃ (pre post : List (Prop × GoString)) (p : Prop),
        l = pre ++ (p, m) :: post ∧ (∀ q ∈ pre, q.1) ∧ ¬ p) := by
  constructor
  · rintro ⟨pre, post, p, he, hq, hp⟩
    cases pre with
    | nil =>
      simp only [List.nil_append, List.cons.injEq, Prod.mk.injEq] at he
      obtain ⟨⟨rfl, rfl⟩, -⟩ := he
      exact .inl ⟨hp, rfl⟩
    | cons a pre =>
      simp only [List.cons_append, List.cons.injEq] at he
      obtain ⟨rfl, he⟩ := he
      exact .inr ⟨hq (r, s) (by simp), pre, post, p, he, fun q h => hq q (by simp [h]), hp⟩
  · rintro (⟨hr, rfl⟩ | ⟨hr, pre, post, p, rfl, hq, hp⟩)
    · exact ⟨[], l, r, rfl, by simp, hr⟩
    · refine ⟨(r, s) :: pre, post, p, rfl, ?_, hp⟩
      intro q h
      rcases List.mem_cons.1 h with rfl | h
      · exact hr
      · exact hq q h

end GoIdentity
