import Verif.Model.Blowfish
import Verif.Lemmas.Bcrypt
/-!
# Blowfish: the cipher is a permutation, and the key schedule reads 72 bytes
-/
namespace GoIdentity.Blowfish

theorem xor_cancel (a b : UInt32) : a ^^^ b ^^^ b = a := by rw [UInt32.xor_assoc, UInt32.xor_self, UInt32.xor_zero]

theorem xor_right_inj {a b c : UInt32} (h : a ^^^ c = b ^^^ c) : a = b := by
  rw [← xor_cancel a c, h, xor_cancel]

theorem rounds_inj (f : Nat → UInt32 → UInt32) (l : List Nat) {x y : UInt32 × UInt32}
    (h : l.foldl (fun x i => (x.2 ^^^ f i x.1, x.1)) x = l.foldl (fun x i => (x.2 ^^^ f i x.1, x.1)) y) : x = y := by
  induction l generalizing x y with
  | nil => exact h
  | cons i l ih =>
    have := ih h
    simp only [Prod.mk.injEq] at this
    obtain ⟨h1, h2⟩ := this
    rw [h2] at h1
    exact Prod.ext h2 (xor_right_inj h1)

theorem encryptBlock_inj (c : Cipher) {l r l' r' : UInt32} (h : encryptBlock c l r = encryptBlock c l' r') : l = l' ∧ r = r' := by
  unfold encryptBlock at h
  simp only [Prod.mk.injEq] at h
  obtain ⟨h1, h2⟩ := h
  have := rounds_inj (fun i x => c.mix x ^^^ c.at (i + 1)) (List.range 16) (Prod.ext h2 (xor_right_inj h1))
  simp only [Prod.mk.injEq] at this
  exact ⟨xor_right_inj this.1, this.2⟩

theorem repeated_inj {α : Type} {f : α → α} (hf : ∀ x y, f x = f y → x = y) (n : Nat) {x y : α} (h : repeated f n x = repeated f n y) :
    x = y := by
  induction n generalizing x y with
  | zero => exact h
  | succ n ih => exact hf _ _ (ih h)

theorem wordBytes_inj {v w : UInt32} (h : wordBytes v = wordBytes w) : v = w := by
  simp only [wordBytes, List.cons.injEq, and_true] at h
  obtain ⟨h1, h2, h3, h4⟩ := h
  have e1 := congrArg UInt8.toNat h1
  have e2 := congrArg UInt8.toNat h2
  have e3 := congrArg UInt8.toNat h3
  have e4 := congrArg UInt8.toNat h4
  have lv := v.toNat_lt
  have lw := w.toNat_lt
  simp [UInt32.toNat_shiftRight, Nat.shiftRight_eq_div_pow] at e1 e2 e3 e4
  apply UInt32.toNat_inj.1
  omega

theorem wordBytes_length (w : UInt32) : (wordBytes w).length = 4 := rfl

theorem magicBlock_length (c : Cipher) (b : UInt32 × UInt32) : (magicBlock c b).length = 8 := by
  unfold magicBlock
  rw [List.length_append, wordBytes_length, wordBytes_length]

theorem magicBlock_inj (c : Cipher) {a b : UInt32 × UInt32} (h : magicBlock c a = magicBlock c b) : a = b := by
  unfold magicBlock at h
  obtain ⟨h1, h2⟩ := List.append_inj h (by rw [wordBytes_length, wordBytes_length])
  refine repeated_inj (f := fun x => encryptBlock c x.1 x.2) ?_ 64 (Prod.ext (wordBytes_inj h1) (wordBytes_inj h2))
  intro x y hxy
  obtain ⟨a, b⟩ := encryptBlock_inj c hxy
  exact Prod.ext a b

theorem magic_eq (c : Cipher) :
    ∃ x y z : GoString, x.length = 8 ∧ y.length = 8 ∧ z.length = 8 ∧ magic.flatMap (magicBlock c) = x ++ y ++ z ∧ x ≠ y ∧ x ≠ z ∧ y ≠ z := by
  refine ⟨magicBlock c (0x4F727068, 0x65616E42), magicBlock c (0x65686F6C, 0x64657253), magicBlock c (0x63727944, 0x6F756274),
    magicBlock_length _ _, magicBlock_length _ _, magicBlock_length _ _, ?_, fun h => ?_, fun h => ?_, fun h => ?_⟩
  rotate_left
  · exact absurd (magicBlock_inj c h) (by decide)
  · exact absurd (magicBlock_inj c h) (by decide)
  · exact absurd (magicBlock_inj c h) (by decide)
  · unfold magic
    simp only [List.flatMap_cons, List.flatMap_nil, List.append_nil, List.append_assoc]

theorem raw_length (cost : Nat) (salt key : GoString) : (raw cost salt key).length = 24 := by
  unfold raw
  obtain ⟨x, y, z, h1, h2, h3, h, _⟩ := magic_eq (setup cost salt key)
  rw [h, List.length_append, List.length_append, h1, h2, h3]

/-! ## The key schedule -/

/-- The byte at a position, going round. -/
def cyclic (b : GoString) (i : Nat) : UInt8 := b.getD (i % b.length) 0

theorem nextByte_at {b : GoString} (hb : b ≠ []) (i : Nat) : nextByte b (i % b.length) = (cyclic b i, (i + 1) % b.length) := by
  have hl : 0 < b.length := List.length_pos_iff.2 hb
  have hm := Nat.mod_lt i hl
  unfold nextByte cyclic
  refine Prod.ext rfl ?_
  show (if _ then _ else _) = _
  rw [Nat.add_mod i 1]
  split
  · rename_i h
    have e : i % b.length + 1 = b.length := by omega
    by_cases h1 : b.length = 1
    · rw [h1]; omega
    · rw [Nat.mod_eq_of_lt (a := 1) (by omega), e, Nat.mod_self]
  · rename_i h
    rw [Nat.mod_eq_of_lt (a := 1) (by omega), Nat.mod_eq_of_lt (a := i % b.length + 1) (by omega)]

/-- Four bytes as a word. -/
def wordOf (a b c d : UInt8) : UInt32 :=
  ((((0 : UInt32) <<< 8 ||| a.toUInt32) <<< 8 ||| b.toUInt32) <<< 8 ||| c.toUInt32) <<< 8 ||| d.toUInt32

theorem nextWord_at {b : GoString} (hb : b ≠ []) (i : Nat) :
    nextWord b (i % b.length) = (wordOf (cyclic b i) (cyclic b (i + 1)) (cyclic b (i + 2)) (cyclic b (i + 3)), (i + 4) % b.length) := by
  unfold nextWord
  rw [show List.range 4 = [0, 1, 2, 3] by decide]
  simp only [List.foldl_cons, List.foldl_nil, nextByte_at hb]
  rfl

/-- The key schedule with the words given. -/
theorem addKey_at {key : GoString} (hk : key ≠ []) (c : Cipher) (n : Nat) :
    (List.range n).foldl (fun (x : Cipher × Nat) i => (x.1.setIfInBounds i (Cipher.at x.1 i ^^^ (nextWord key x.2).1), (nextWord key x.2).2)) (c, 0) =
      ((List.range n).foldl (fun (x : Cipher) i => x.setIfInBounds i (Cipher.at x i ^^^
        wordOf (cyclic key (4 * i)) (cyclic key (4 * i + 1)) (cyclic key (4 * i + 2)) (cyclic key (4 * i + 3)))) c, (4 * n) % key.length) := by
  induction n with
  | zero => simp
  | succ n ih =>
    rw [List.range_succ, List.foldl_append, List.foldl_append, ih]
    simp only [List.foldl_cons, List.foldl_nil, nextWord_at hk]
    rfl

theorem addWords_congr {k k' : GoString} (n : Nat) (h : ∀ i < 4 * n, cyclic k i = cyclic k' i) (c : Cipher) :
    (List.range n).foldl (fun (x : Cipher) i => x.setIfInBounds i (Cipher.at x i ^^^
        wordOf (cyclic k (4 * i)) (cyclic k (4 * i + 1)) (cyclic k (4 * i + 2)) (cyclic k (4 * i + 3)))) c =
      (List.range n).foldl (fun (x : Cipher) i => x.setIfInBounds i (Cipher.at x i ^^^
        wordOf (cyclic k' (4 * i)) (cyclic k' (4 * i + 1)) (cyclic k' (4 * i + 2)) (cyclic k' (4 * i + 3)))) c := by
  induction n with
  | zero => rfl
  | succ n ih =>
    rw [List.range_succ, List.foldl_append, List.foldl_append, ih fun i hi => h i (by omega)]
    simp only [List.foldl_cons, List.foldl_nil]
    rw [h (4 * n) (by omega), h (4 * n + 1) (by omega), h (4 * n + 2) (by omega), h (4 * n + 3) (by omega)]

theorem addKey_congr {k k' : GoString} (hk : k ≠ []) (hk' : k' ≠ []) (h : ∀ i < 72, cyclic k i = cyclic k' i) (c : Cipher) :
    addKey k c = addKey k' c := by
  unfold addKey
  rw [addKey_at hk, addKey_at hk', addWords_congr 18 h]

theorem raw_congr (cost : Nat) (salt : GoString) {k k' : GoString} (hk : k ≠ []) (hk' : k' ≠ []) (h : ∀ i < 72, cyclic k i = cyclic k' i) :
    raw cost salt k = raw cost salt k' := by
  have e : addKey k = addKey k' := funext (addKey_congr hk hk' h)
  unfold raw setup expandKey
  rw [e]

theorem cyclic_append_zero (pw : GoString) (i : Nat) : cyclic (pw ++ [0]) i = (pw ++ [0]).getD (i % (pw.length + 1)) 0 := by
  unfold cyclic
  rw [List.length_append]; rfl

theorem cyclic_bcryptKey (pw : GoString) {i : Nat} (hi : i < 72) : cyclic (bcryptKey pw) i = cyclic (pw ++ [0]) i := by
  rw [cyclic_append_zero]
  unfold cyclic bcryptKey
  rw [List.length_map, List.length_range, Nat.mod_eq_of_lt hi, List.getD_eq_getElem?_getD, List.getElem?_map, List.getElem?_range hi]
  rfl

theorem word_toNat (x : UInt32) (b : UInt8) (h : x.toNat < 2 ^ 24) : (x <<< 8 ||| b.toUInt32).toNat = x.toNat * 256 + b.toNat := by
  have hb := b.toNat_lt
  have e : (x <<< 8).toNat = x.toNat * 256 := by
    rw [UInt32.toNat_shiftLeft]
    show x.toNat <<< 8 % 2 ^ 32 = _
    rw [Nat.shiftLeft_eq]; omega
  rw [UInt32.toNat_or, e, UInt8.toNat_toUInt32, show x.toNat * 256 = 2 ^ 8 * x.toNat by omega, ← Nat.two_pow_add_eq_or_of_lt hb]

theorem wordOf_toNat (a b c d : UInt8) :
    (wordOf a b c d).toNat = ((a.toNat * 256 + b.toNat) * 256 + c.toNat) * 256 + d.toNat := by
  have ha := a.toNat_lt
  have hb := b.toNat_lt
  have hc := c.toNat_lt
  have e1 := word_toNat 0 a (by decide)
  rw [show (0 : UInt32).toNat = 0 from rfl] at e1
  have e2 := word_toNat ((0 : UInt32) <<< 8 ||| a.toUInt32) b (by omega)
  have e3 := word_toNat (((0 : UInt32) <<< 8 ||| a.toUInt32) <<< 8 ||| b.toUInt32) c (by omega)
  unfold wordOf
  rw [word_toNat _ d (by omega), e3, e2, e1]
  omega

theorem wordOf_inj {a b c d a' b' c' d' : UInt8} (h : wordOf a b c d = wordOf a' b' c' d') : a = a' ∧ b = b' ∧ c = c' ∧ d = d' := by
  have e := congrArg UInt32.toNat h
  rw [wordOf_toNat, wordOf_toNat] at e
  have := a.toNat_lt
  have := a'.toNat_lt
  have := b.toNat_lt
  have := b'.toNat_lt
  have := c.toNat_lt
  have := c'.toNat_lt
  have := d.toNat_lt
  have := d'.toNat_lt
  refine ⟨UInt8.toNat_inj.1 ?_, UInt8.toNat_inj.1 ?_, UInt8.toNat_inj.1 ?_, UInt8.toNat_inj.1 ?_⟩ <;> omega

theorem at_set (c : Cipher) (i j : Nat) (v : UInt32) :
    Cipher.at (c.setIfInBounds i v) j = if i = j ∧ i < c.size then v else Cipher.at c j := by
  unfold Cipher.at
  rw [Array.getD_eq_getD_getElem?, Array.getD_eq_getD_getElem?, Array.getElem?_setIfInBounds]
  by_cases h : i = j
  · subst h
    by_cases h2 : i < c.size
    · simp [h2]
    · simp [h2]
  · simp [h]

theorem addWords_at (w : Nat → UInt32) (c : Cipher) (n : Nat) (hn : n ≤ c.size) (j : Nat) :
    Cipher.at ((List.range n).foldl (fun (x : Cipher) i => x.setIfInBounds i (Cipher.at x i ^^^ w i)) c) j =
      (if j < n then Cipher.at c j ^^^ w j else Cipher.at c j) ∧
    ((List.range n).foldl (fun (x : Cipher) i => x.setIfInBounds i (Cipher.at x i ^^^ w i)) c).size = c.size := by
  induction n generalizing j with
  | zero => exact ⟨by simp, rfl⟩
  | succ n ih =>
    have hs := (ih (by omega) 0).2
    rw [List.range_succ, List.foldl_append]
    simp only [List.foldl_cons, List.foldl_nil]
    refine ⟨?_, by rw [Array.size_setIfInBounds, hs]⟩
    rw [at_set, hs, (ih (by omega) n).1, (ih (by omega) j).1, if_neg (Nat.lt_irrefl n)]
    by_cases h : n = j
    · subst h
      rw [if_pos ⟨rfl, by omega⟩, if_pos (by omega)]
    · rw [if_neg (fun e => h e.1)]
      by_cases h2 : j < n
      · rw [if_pos h2, if_pos (by omega)]
      · rw [if_neg h2, if_neg (by omega)]

theorem addKey_inj {k k' : GoString} (hk : k ≠ []) (hk' : k' ≠ []) {c : Cipher} (hc : 18 ≤ c.size) (h : addKey k c = addKey k' c) :
    ∀ i < 72, cyclic k i = cyclic k' i := by
  unfold addKey at h
  rw [addKey_at hk, addKey_at hk'] at h
  intro i hi
  have e := congrArg (fun x => Cipher.at x (i / 4)) h
  dsimp only at e
  rw [(addWords_at _ c 18 hc _).1, (addWords_at _ c 18 hc _).1, if_pos (by omega), if_pos (by omega), UInt32.xor_comm, UInt32.xor_comm (Cipher.at c _)] at e
  obtain ⟨e0, e1, e2, e3⟩ := wordOf_inj (xor_right_inj e)
  have hd := Nat.div_add_mod i 4
  have hm : i % 4 = 0 ∨ i % 4 = 1 ∨ i % 4 = 2 ∨ i % 4 = 3 := by omega
  rcases hm with hm | hm | hm | hm <;> rw [hm] at hd
  · rw [← hd]; exact e0
  · rw [← hd]; exact e1
  · rw [← hd]; exact e2
  · rw [← hd]; exact e3

/-! ## Nothing is read or written outside the tables -/

theorem addKey_size (k : GoString) (c : Cipher) : (addKey k c).size = c.size := by
  unfold addKey
  generalize (List.range 18) = l
  generalize (0 : Nat) = p
  induction l generalizing c p with
  | nil => rfl
  | cons i l ih =>
    rw [List.foldl_cons, ih, Array.size_setIfInBounds]

theorem refill_size (c : Cipher) : (refill c).size = c.size := by
  unfold refill
  generalize (List.range 521) = l
  generalize ((0, 0) : UInt32 × UInt32) = p
  induction l generalizing c p with
  | nil => rfl
  | cons i l ih =>
    rw [List.foldl_cons, ih, Array.size_setIfInBounds, Array.size_setIfInBounds]

theorem refillSalted_size (salt : GoString) (c : Cipher) : (refillSalted salt c).size = c.size := by
  unfold refillSalted
  generalize (List.range 521) = l
  generalize (((0, 0), 0) : (UInt32 × UInt32) × Nat) = p
  induction l generalizing c p with
  | nil => rfl
  | cons i l ih =>
    rw [List.foldl_cons, ih, Array.size_setIfInBounds, Array.size_setIfInBounds]

theorem setup_size (cost : Nat) (salt key : GoString) : (setup cost salt key).size = start.size := by
  unfold setup
  have : ∀ (n : Nat) (c : Cipher), (repeated (fun c => expandKey salt (expandKey key c)) n c).size = c.size := by
    intro n
    induction n with
    | zero => intro c; rfl
    | succ n ih =>
      intro c
      rw [repeated, ih]
      unfold expandKey
      rw [refill_size, addKey_size, refill_size, addKey_size]
  rw [this, refillSalted_size, addKey_size]

/-! ## Salts read from a hash -/

theorem decodeGroups_padded : ∀ (t x : GoString), b64DecodeGroups (t ++ [61, 61]) = some x → t.length % 4 = 2 ∧ x.length = 3 * (t.length / 4) + 1
  | [], x => by simp [b64DecodeGroups]
  | [a], x => by simp [b64DecodeGroups]
  | [a, b], x => by
    intro h
    simp only [List.cons_append, List.nil_append, b64DecodeGroups] at h
    split at h
    · simp at h; subst h; simp
    · simp at h
  | [a, b, c], x => by
    intro h
    simp only [List.cons_append, List.nil_append, b64DecodeGroups] at h
    split at h
    · split at h
      · simp at h
      · split at h <;> simp at h
    · simp at h
  | a :: b :: c :: d :: t, x => by
    intro h
    simp only [List.cons_append, b64DecodeGroups] at h
    split at h
    · split at h
      · simp at h
      · split at h
        · simp at h
        · split at h
          · simp at h
          · split at h
            · simp at h
            · split at h
              · simp at h
              · rename_i r hr
                obtain ⟨h1, h2⟩ := decodeGroups_padded t r hr
                simp at h; subst h
                simp only [List.length_cons]
                omega
    · simp at h

theorem bcDecodeSalt_length {s x : GoString} (h : bcDecodeSalt s = some x) : x.length % 3 = 1 ∧ 4 * x.length ≤ 3 * s.length := by
  unfold bcDecodeSalt b64Decode at h
  rw [List.map_append, List.filter_append] at h
  have e : ([61, 61].map bcToStd).filter (fun b => !(b == 10 || b == 13)) = [61, 61] := by decide
  rw [e] at h
  obtain ⟨h1, h2⟩ := decodeGroups_padded _ _ h
  have hl := List.length_filter_le (fun b => !(b == 10 || b == 13)) (s.map bcToStd)
  rw [List.length_map] at hl
  omega

theorem ofPassword_key (cost : Nat) (salt pw : GoString) : ofPassword cost salt pw = raw cost salt (bcryptKey pw) := by
  unfold ofPassword
  refine raw_congr cost salt (by simp) (fun h => ?_) fun i hi => (cyclic_bcryptKey pw hi).symm
  have := congrArg List.length h
  simp [bcryptKey] at this

end GoIdentity.Blowfish
