import Verif.Spec.Uuid
import Verif.Lemmas.UserSteps
import Verif.Lemmas.Frame
import Verif.Lemmas.Reopen
/-!
# UUIDs
-/
set_option linter.unusedSectionVars false
namespace GoIdentity

/-- The value of a digit. -/
def unhex (b : UInt8) : Nat := hexDigits.idxOf b

theorem uuidHex_mem (b : UInt8) : hexDigit (b.toNat / 16) ∈ hexDigits ∧ hexDigit (b.toNat % 16) ∈ hexDigits := by
  have h : ∀ n : Fin 256, hexDigit ((UInt8.ofNat n.1).toNat / 16) ∈ hexDigits ∧ hexDigit ((UInt8.ofNat n.1).toNat % 16) ∈ hexDigits := by
    decide +kernel
  simpa using h ⟨b.toNat, b.toNat_lt⟩

theorem unhex_hex (b : UInt8) : UInt8.ofNat (unhex (hexDigit (b.toNat / 16)) * 16 + unhex (hexDigit (b.toNat % 16))) = b := by
  have h : ∀ n : Fin 256, UInt8.ofNat (unhex (hexDigit ((UInt8.ofNat n.1).toNat / 16)) * 16 +
      unhex (hexDigit ((UInt8.ofNat n.1).toNat % 16))) = UInt8.ofNat n.1 := by decide +kernel
  simpa using h ⟨b.toNat, b.toNat_lt⟩

theorem uuidHex_inj {a b : UInt8} (h1 : hexDigit (a.toNat / 16) = hexDigit (b.toNat / 16))
    (h2 : hexDigit (a.toNat % 16) = hexDigit (b.toNat % 16)) : a = b := by
  rw [← unhex_hex a, ← unhex_hex b, h1, h2]

/-- Two digits are those of a byte. -/
theorem uuidHex_surj {x y : UInt8} (hx : x ∈ hexDigits) (hy : y ∈ hexDigits) :
    hexDigit ((UInt8.ofNat (unhex x * 16 + unhex y)).toNat / 16) = x ∧
      hexDigit ((UInt8.ofNat (unhex x * 16 + unhex y)).toNat % 16) = y := by
  have h : ∀ x ∈ hexDigits, ∀ y ∈ hexDigits, hexDigit ((UInt8.ofNat (unhex x * 16 + unhex y)).toNat / 16) = x ∧
      hexDigit ((UInt8.ofNat (unhex x * 16 + unhex y)).toNat % 16) = y := by decide +kernel
  exact h x hx y hy

theorem list16 {α : Type} {r : List α} (h : r.length = 16) : ∃ a0 a1 a2 a3 a4 a5 a6 a7 a8 a9 a10 a11 a12 a13 a14 a15,
    r = [a0, a1, a2, a3, a4, a5, a6, a7, a8, a9, a10, a11, a12, a13, a14, a15] := by
  match r, h with
  | [a0, a1, a2, a3, a4, a5, a6, a7, a8, a9, a10, a11, a12, a13, a14, a15], _ => exact ⟨_, _, _, _, _, _, _, _, _, _, _, _, _, _, _, _, rfl⟩

theorem newV4_length (r : List UInt8) : (newV4 r).length = r.length := by simp [newV4]

theorem uuidText_eq {u : List UInt8} (h : u.length = 16) : uuidText u =
    (List.range 36).map fun i =>
      if i = 8 ∨ i = 13 ∨ i = 18 ∨ i = 23 then 45
      else
        let j := i - (if 8 < i then 1 else 0) - (if 13 < i then 1 else 0) - (if 18 < i then 1 else 0) - (if 23 < i then 1 else 0)
        let b := u.getD (j / 2) 0
        if j % 2 = 0 then hexDigit (b.toNat / 16) else hexDigit (b.toNat % 16) := by
  obtain ⟨a0, a1, a2, a3, a4, a5, a6, a7, a8, a9, a10, a11, a12, a13, a14, a15, rfl⟩ := list16 h
  rfl

theorem uuidText_inj {u v : List UInt8} (hu : u.length = 16) (hv : v.length = 16) : uuidText u = uuidText v ↔ u = v := by
  refine ⟨fun h => ?_, fun h => by rw [h]⟩
  obtain ⟨a0, a1, a2, a3, a4, a5, a6, a7, a8, a9, a10, a11, a12, a13, a14, a15, rfl⟩ := list16 hu
  obtain ⟨b0, b1, b2, b3, b4, b5, b6, b7, b8, b9, b10, b11, b12, b13, b14, b15, rfl⟩ := list16 hv
  simp only [uuidText, hexEncode, List.take, List.drop, List.flatMap_cons, List.flatMap_nil, List.cons_append, List.nil_append,
    List.append_nil, List.cons.injEq, and_true, true_and] at h
  simp only [List.cons.injEq, and_true]
  obtain ⟨h0, h0', h1, h1', h2, h2', h3, h3', h4, h4', h5, h5', h6, h6', h7, h7', h8, h8', h9, h9', h10, h10', h11, h11', h12, h12',
    h13, h13', h14, h14', h15, h15'⟩ := h
  exact ⟨uuidHex_inj h0 h0', uuidHex_inj h1 h1', uuidHex_inj h2 h2', uuidHex_inj h3 h3', uuidHex_inj h4 h4', uuidHex_inj h5 h5', uuidHex_inj h6 h6',
    uuidHex_inj h7 h7', uuidHex_inj h8 h8', uuidHex_inj h9 h9', uuidHex_inj h10 h10', uuidHex_inj h11 h11', uuidHex_inj h12 h12', uuidHex_inj h13 h13',
    uuidHex_inj h14 h14', uuidHex_inj h15 h15'⟩

theorem newID_v4 {r : List UInt8} (h : r.length = 16) : IsV4 (newID r) := by
  have hu := newV4_length r
  rw [h] at hu
  have h6 : ∃ b, (newV4 r).getD 6 0 = (b &&& 0x0f) ||| 0x40 := by
    obtain ⟨a0, a1, a2, a3, a4, a5, a6, a7, a8, a9, a10, a11, a12, a13, a14, a15, rfl⟩ := list16 h
    exact ⟨a6, rfl⟩
  have h8 : ∃ b, (newV4 r).getD 8 0 = (b &&& 0x3f) ||| 0x80 := by
    obtain ⟨a0, a1, a2, a3, a4, a5, a6, a7, a8, a9, a10, a11, a12, a13, a14, a15, rfl⟩ := list16 h
    exact ⟨a8, rfl⟩
  have k6 : ∀ b : UInt8, hexDigit (((b &&& 0x0f) ||| 0x40 : UInt8).toNat / 16) = 52 := by
    intro b
    have hh : ∀ n : Fin 256, hexDigit (((UInt8.ofNat n.1 &&& 0x0f) ||| 0x40 : UInt8).toNat / 16) = 52 := by decide +kernel
    simpa using hh ⟨b.toNat, b.toNat_lt⟩
  have k8 : ∀ b : UInt8, hexDigit (((b &&& 0x3f) ||| 0x80 : UInt8).toNat / 16) ∈ (gs! "89ab" : GoString) := by
    intro b
    have hh : ∀ n : Fin 256, hexDigit (((UInt8.ofNat n.1 &&& 0x3f) ||| 0x80 : UInt8).toNat / 16) ∈ (gs! "89ab" : GoString) := by
      decide +kernel
    simpa using hh ⟨b.toNat, b.toNat_lt⟩
  unfold newID
  rw [uuidText_eq hu]
  refine ⟨by simp, ?_⟩
  intro i b hb
  rw [List.getElem?_map] at hb
  obtain ⟨k, hk, rfl⟩ := Option.map_eq_some_iff.1 hb
  obtain ⟨hi, rfl⟩ := List.getElem?_eq_some_iff.1 hk
  rw [List.getElem_range]
  unfold v4Chars
  by_cases hd : i = 8 ∨ i = 13 ∨ i = 18 ∨ i = 23
  · rw [if_pos hd, if_pos hd]; simp
  · rw [if_neg hd, if_neg hd]
    by_cases h14 : i = 14
    · subst h14
      obtain ⟨b, hb⟩ := h6
      simp only [Nat.reduceLT, if_true, if_false, Nat.reduceSub, Nat.reduceDiv, Nat.reduceMod]
      rw [hb, k6]
      simp
    · rw [if_neg h14]
      by_cases h19 : i = 19
      · subst h19
        obtain ⟨b, hb⟩ := h8
        simp only [Nat.reduceLT, if_true, if_false, Nat.reduceSub, Nat.reduceDiv, Nat.reduceMod]
        rw [hb]
        exact k8 b
      · rw [if_neg h19]
        dsimp only
        generalize i - (if 8 < i then 1 else 0) - (if 13 < i then 1 else 0) - (if 18 < i then 1 else 0) -
          (if 23 < i then 1 else 0) = j
        split
        · exact (uuidHex_mem _).1
        · exact (uuidHex_mem _).2

theorem list36 {α : Type} {r : List α} (h : r.length = 36) : ∃ c0 c1 c2 c3 c4 c5 c6 c7 c8 c9 c10 c11 c12 c13 c14 c15 c16 c17 c18 c19 c20 c21 c22 c23 c24 c25 c26 c27 c28 c29 c30 c31 c32 c33 c34 c35,
    r = [c0, c1, c2, c3, c4, c5, c6, c7, c8, c9, c10, c11, c12, c13, c14, c15, c16, c17, c18, c19, c20, c21, c22, c23, c24, c25, c26, c27, c28, c29, c30, c31, c32, c33, c34, c35] := by
  rcases r with _ | ⟨c0, r⟩
  · simp at h
  rcases r with _ | ⟨c1, r⟩
  · simp at h
  rcases r with _ | ⟨c2, r⟩
  · simp at h
  rcases r with _ | ⟨c3, r⟩
  · simp at h
  rcases r with _ | ⟨c4, r⟩
  · simp at h
  rcases r with _ | ⟨c5, r⟩
  · simp at h
  rcases r with _ | ⟨c6, r⟩
  · simp at h
  rcases r with _ | ⟨c7, r⟩
  · simp at h
  rcases r with _ | ⟨c8, r⟩
  · simp at h
  rcases r with _ | ⟨c9, r⟩
  · simp at h
  rcases r with _ | ⟨c10, r⟩
  · simp at h
  rcases r with _ | ⟨c11, r⟩
  · simp at h
  rcases r with _ | ⟨c12, r⟩
  · simp at h
  rcases r with _ | ⟨c13, r⟩
  · simp at h
  rcases r with _ | ⟨c14, r⟩
  · simp at h
  rcases r with _ | ⟨c15, r⟩
  · simp at h
  rcases r with _ | ⟨c16, r⟩
  · simp at h
  rcases r with _ | ⟨c17, r⟩
  · simp at h
  rcases r with _ | ⟨c18, r⟩
  · simp at h
  rcases r with _ | ⟨c19, r⟩
  · simp at h
  rcases r with _ | ⟨c20, r⟩
  · simp at h
  rcases r with _ | ⟨c21, r⟩
  · simp at h
  rcases r with _ | ⟨c22, r⟩
  · simp at h
  rcases r with _ | ⟨c23, r⟩
  · simp at h
  rcases r with _ | ⟨c24, r⟩
  · simp at h
  rcases r with _ | ⟨c25, r⟩
  · simp at h
  rcases r with _ | ⟨c26, r⟩
  · simp at h
  rcases r with _ | ⟨c27, r⟩
  · simp at h
  rcases r with _ | ⟨c28, r⟩
  · simp at h
  rcases r with _ | ⟨c29, r⟩
  · simp at h
  rcases r with _ | ⟨c30, r⟩
  · simp at h
  rcases r with _ | ⟨c31, r⟩
  · simp at h
  rcases r with _ | ⟨c32, r⟩
  · simp at h
  rcases r with _ | ⟨c33, r⟩
  · simp at h
  rcases r with _ | ⟨c34, r⟩
  · simp at h
  rcases r with _ | ⟨c35, r⟩
  · simp at h
  rcases r with _ | ⟨c36, r⟩
  · exact ⟨_, _, _, _, _, _, _, _, _, _, _, _, _, _, _, _, _, _, _, _, _, _, _, _, _, _, _, _, _, _, _, _, _, _, _, _, rfl⟩
  · simp at h

/-- The byte of two digits. -/
def ofHex (x y : UInt8) : UInt8 := UInt8.ofNat (unhex x * 16 + unhex y)

/-- Every version 4 UUID is drawn. -/
theorem newID_surj {s : GoString} (h : IsV4 s) : ∃ r : List UInt8, r.length = 16 ∧ newV4 r = r ∧ newID r = s := by
  obtain ⟨hl, h⟩ := h
  obtain ⟨c0, c1, c2, c3, c4, c5, c6, c7, c8, c9, c10, c11, c12, c13, c14, c15, c16, c17, c18, c19, c20, c21, c22, c23, c24, c25, c26, c27, c28, c29, c30, c31, c32, c33, c34, c35, rfl⟩ := list36 hl
  have q0 := h 0 _ rfl
  have q1 := h 1 _ rfl
  have q2 := h 2 _ rfl
  have q3 := h 3 _ rfl
  have q4 := h 4 _ rfl
  have q5 := h 5 _ rfl
  have q6 := h 6 _ rfl
  have q7 := h 7 _ rfl
  have q8 := h 8 _ rfl
  have q9 := h 9 _ rfl
  have q10 := h 10 _ rfl
  have q11 := h 11 _ rfl
  have q12 := h 12 _ rfl
  have q13 := h 13 _ rfl
  have q14 := h 14 _ rfl
  have q15 := h 15 _ rfl
  have q16 := h 16 _ rfl
  have q17 := h 17 _ rfl
  have q18 := h 18 _ rfl
  have q19 := h 19 _ rfl
  have q20 := h 20 _ rfl
  have q21 := h 21 _ rfl
  have q22 := h 22 _ rfl
  have q23 := h 23 _ rfl
  have q24 := h 24 _ rfl
  have q25 := h 25 _ rfl
  have q26 := h 26 _ rfl
  have q27 := h 27 _ rfl
  have q28 := h 28 _ rfl
  have q29 := h 29 _ rfl
  have q30 := h 30 _ rfl
  have q31 := h 31 _ rfl
  have q32 := h 32 _ rfl
  have q33 := h 33 _ rfl
  have q34 := h 34 _ rfl
  have q35 := h 35 _ rfl
  clear h
  have k6 : ∀ x ∈ ([52] : List UInt8), ∀ y ∈ hexDigits, (ofHex x y &&& 0x0f) ||| 0x40 = ofHex x y := by decide +kernel
  have k8 : ∀ x ∈ (gs! "89ab" : GoString), ∀ y ∈ hexDigits, (ofHex x y &&& 0x3f) ||| 0x80 = ofHex x y := by decide +kernel
  have sub : ∀ x ∈ ([52] : List UInt8), x ∈ hexDigits := by decide
  have sub' : ∀ x ∈ (gs! "89ab" : GoString), x ∈ hexDigits := by decide
  have e8 : c8 = 45 := by simpa [v4Chars] using q8
  have e13 : c13 = 45 := by simpa [v4Chars] using q13
  have e18 : c18 = 45 := by simpa [v4Chars] using q18
  have e23 : c23 = 45 := by simpa [v4Chars] using q23
  have v6 := k6 _ q14 _ q15
  have v8 := k8 _ q19 _ q20
  have hv : newV4 [ofHex c0 c1, ofHex c2 c3, ofHex c4 c5, ofHex c6 c7, ofHex c9 c10, ofHex c11 c12, ofHex c14 c15, ofHex c16 c17, ofHex c19 c20, ofHex c21 c22, ofHex c24 c25, ofHex c26 c27, ofHex c28 c29, ofHex c30 c31, ofHex c32 c33, ofHex c34 c35] =
      [ofHex c0 c1, ofHex c2 c3, ofHex c4 c5, ofHex c6 c7, ofHex c9 c10, ofHex c11 c12, ofHex c14 c15, ofHex c16 c17, ofHex c19 c20, ofHex c21 c22, ofHex c24 c25, ofHex c26 c27, ofHex c28 c29, ofHex c30 c31, ofHex c32 c33, ofHex c34 c35] := by
    show [ofHex c0 c1, ofHex c2 c3, ofHex c4 c5, ofHex c6 c7, ofHex c9 c10, ofHex c11 c12, (ofHex c14 c15 &&& 0x0f) ||| 0x40, ofHex c16 c17, (ofHex c19 c20 &&& 0x3f) ||| 0x80, ofHex c21 c22, ofHex c24 c25, ofHex c26 c27, ofHex c28 c29, ofHex c30 c31, ofHex c32 c33, ofHex c34 c35] = _
    rw [v6, v8]
  refine ⟨_, rfl, hv, ?_⟩
  unfold newID
  rw [hv]
  simp only [uuidText, hexEncode, List.take, List.drop, List.flatMap_cons, List.flatMap_nil, List.cons_append, List.nil_append,
    List.append_nil, ofHex]
  obtain ⟨x0, y0⟩ := uuidHex_surj q0 q1
  obtain ⟨x1, y1⟩ := uuidHex_surj q2 q3
  obtain ⟨x2, y2⟩ := uuidHex_surj q4 q5
  obtain ⟨x3, y3⟩ := uuidHex_surj q6 q7
  obtain ⟨x4, y4⟩ := uuidHex_surj q9 q10
  obtain ⟨x5, y5⟩ := uuidHex_surj q11 q12
  obtain ⟨x6, y6⟩ := uuidHex_surj (sub _ q14) q15
  obtain ⟨x7, y7⟩ := uuidHex_surj q16 q17
  obtain ⟨x8, y8⟩ := uuidHex_surj (sub' _ q19) q20
  obtain ⟨x9, y9⟩ := uuidHex_surj q21 q22
  obtain ⟨x10, y10⟩ := uuidHex_surj q24 q25
  obtain ⟨x11, y11⟩ := uuidHex_surj q26 q27
  obtain ⟨x12, y12⟩ := uuidHex_surj q28 q29
  obtain ⟨x13, y13⟩ := uuidHex_surj q30 q31
  obtain ⟨x14, y14⟩ := uuidHex_surj q32 q33
  obtain ⟨x15, y15⟩ := uuidHex_surj q34 q35
  rw [x0, y0, x1, y1, x2, y2, x3, y3, x4, y4, x5, y5, x6, y6, x7, y7, x8, y8, x9, y9, x10, y10, x11, y11, x12, y12, x13, y13, x14, y14, x15, y15, e8, e13, e18, e23]

/-- Two draws give the same identifier exactly if they agree but for the six fixed bits. -/
theorem newID_eq_iff {r r' : List UInt8} (h : r.length = 16) (h' : r'.length = 16) : newID r = newID r' ↔
    (∀ i, i ≠ 6 → i ≠ 8 → r[i]? = r'[i]?) ∧ (r.getD 6 0).toNat % 16 = (r'.getD 6 0).toNat % 16 ∧
      (r.getD 8 0).toNat % 64 = (r'.getD 8 0).toNat % 64 := by
  have k6 : ∀ a b : UInt8, (a &&& 0x0f) ||| 0x40 = (b &&& 0x0f) ||| 0x40 ↔ a.toNat % 16 = b.toNat % 16 := by
    intro a b
    have h1 : ∀ n : Fin 256, ((UInt8.ofNat n.1 &&& 0x0f) ||| 0x40 : UInt8) = UInt8.ofNat (n.1 % 16 + 64) := by decide +kernel
    have ha := h1 ⟨a.toNat, a.toNat_lt⟩
    have hb := h1 ⟨b.toNat, b.toNat_lt⟩
    simp only [UInt8.ofNat_toNat] at ha hb
    rw [ha, hb]
    constructor
    · intro hc
      have := congrArg UInt8.toNat hc
      simp only [UInt8.toNat_ofNat'] at this
      omega
    · intro hc; rw [hc]
  have k8 : ∀ a b : UInt8, (a &&& 0x3f) ||| 0x80 = (b &&& 0x3f) ||| 0x80 ↔ a.toNat % 64 = b.toNat % 64 := by
    intro a b
    have h1 : ∀ n : Fin 256, ((UInt8.ofNat n.1 &&& 0x3f) ||| 0x80 : UInt8) = UInt8.ofNat (n.1 % 64 + 128) := by decide +kernel
    have ha := h1 ⟨a.toNat, a.toNat_lt⟩
    have hb := h1 ⟨b.toNat, b.toNat_lt⟩
    simp only [UInt8.ofNat_toNat] at ha hb
    rw [ha, hb]
    constructor
    · intro hc
      have := congrArg UInt8.toNat hc
      simp only [UInt8.toNat_ofNat'] at this
      omega
    · intro hc; rw [hc]
  unfold newID
  rw [uuidText_inj (by rw [newV4_length, h]) (by rw [newV4_length, h'])]
  obtain ⟨a0, a1, a2, a3, a4, a5, a6, a7, a8, a9, a10, a11, a12, a13, a14, a15, rfl⟩ := list16 h
  obtain ⟨b0, b1, b2, b3, b4, b5, b6, b7, b8, b9, b10, b11, b12, b13, b14, b15, rfl⟩ := list16 h'
  show [a0, a1, a2, a3, a4, a5, (a6 &&& 0x0f) ||| 0x40, a7, (a8 &&& 0x3f) ||| 0x80, a9, a10, a11, a12, a13, a14, a15] =
    [b0, b1, b2, b3, b4, b5, (b6 &&& 0x0f) ||| 0x40, b7, (b8 &&& 0x3f) ||| 0x80, b9, b10, b11, b12, b13, b14, b15] ↔
    _ ∧ a6.toNat % 16 = b6.toNat % 16 ∧ a8.toNat % 64 = b8.toNat % 64
  simp only [List.cons.injEq, and_true, k6, k8]
  constructor
  · rintro ⟨rfl, rfl, rfl, rfl, rfl, rfl, h6, rfl, h8, rfl, rfl, rfl, rfl, rfl, rfl, rfl⟩
    refine ⟨?_, h6, h8⟩
    intro i hi6 hi8
    match i with
    | 0 | 1 | 2 | 3 | 4 | 5 | 7 | 9 | 10 | 11 | 12 | 13 | 14 | 15 => rfl
    | 6 => exact absurd rfl hi6
    | 8 => exact absurd rfl hi8
    | n + 16 => rfl
  · rintro ⟨hall, h6, h8⟩
    have g : ∀ {x y : UInt8}, some x = some y → x = y := fun h => Option.some.inj h
    exact ⟨g (hall 0 (by omega) (by omega)), g (hall 1 (by omega) (by omega)), g (hall 2 (by omega) (by omega)),
      g (hall 3 (by omega) (by omega)), g (hall 4 (by omega) (by omega)), g (hall 5 (by omega) (by omega)), h6,
      g (hall 7 (by omega) (by omega)), h8, g (hall 9 (by omega) (by omega)), g (hall 10 (by omega) (by omega)),
      g (hall 11 (by omega) (by omega)), g (hall 12 (by omega) (by omega)), g (hall 13 (by omega) (by omega)),
      g (hall 14 (by omega) (by omega)), g (hall 15 (by omega) (by omega))⟩

theorem v4_lower [Ext] {s : GoString} (h : IsV4 s) : toLower s = s := by
  have hb : ∀ b ∈ s, isASCII b = true ∧ lowerByte b = b := by
    intro b hb
    obtain ⟨i, hi⟩ := List.getElem?_of_mem hb
    have hc : ∀ i, ∀ b ∈ v4Chars i, isASCII b = true ∧ lowerByte b = b := by
      intro i
      unfold v4Chars
      split
      · decide
      · split
        · decide
        · split <;> decide
    exact hc i b (h.2 i b hi)
  unfold toLower
  rw [if_pos (List.all_eq_true.2 fun b h => (hb b h).1)]
  conv => rhs; rw [← List.map_id s]
  exact List.map_congr_left fun b h => (hb b h).2

theorem getUserByID_iff [Ext] {db : Database} (hi : Inv db) (h : InvID db) {s : GoString} {i : Nat} {u : User} :
    db.getUserByID s = some (i, u) ↔ db.users[i]? = some u ∧ u.id = toLower s := by
  unfold Database.getUserByID
  rw [deref_eq_some]
  constructor
  · rintro ⟨h1, h2⟩
    obtain ⟨v, hv, he⟩ := hi.id_src _ _ h1
    rw [h2] at hv
    cases hv
    exact ⟨h2, he⟩
  · rintro ⟨h1, h2⟩
    exact ⟨h2 ▸ h i u h1, h1⟩

/-- The identifiers of the accounts after a call. -/
theorem exec_ids [Ext] (c : Call) (nd : Nondet) (db : Database) (fs : FS) (req : Request) :
    (exec c nd db fs req).db.users.map (·.id) = db.users.map (·.id) ∨
      c = .addUser ∧ (exec c nd db fs req).db.users.map (·.id) = db.users.map (·.id) ++ [db.pickID nd.ids nd.userID] := by
  rcases exec_users' c nd db fs req with h1 | h1
  · rw [h1]; exact .inl rfl
  · revert h1
    generalize (exec c nd db fs req).db.users = us
    intro h1
    cases h1 with
    | save => exact .inl rfl
    | copy => exact .inl rfl
    | appended p e roles name hpol hp he => right; exact ⟨rfl, by rw [List.map_append]; rfl⟩
    | modified _ i u u' hv hop =>
      left
      have hid : u'.id = u.id := by cases hop <;> rfl
      have hu := validate_users hv
      rw [List.map_set, hid]
      apply List.ext_getElem?
      intro j
      rw [List.getElem?_set]
      split
      · rename_i hij
        subst hij
        obtain ⟨hlt, he⟩ := List.getElem?_eq_some_iff.1 hu
        simp [hlt, he]
      · rfl

theorem pickID_head [Ext] {db : Database} {ids : List GoString} {id old : GoString} (h : ids.head? = some id)
    (hn : db.refID id = none) : db.pickID ids old = id := by
  cases ids with
  | nil => simp at h
  | cons x xs =>
    simp at h
    subst h
    unfold Database.pickID
    rw [List.take_succ_cons, List.find?_cons_of_pos (by simp [hn])]

theorem draws_fresh [Ext] {draw : Op → List UInt8} (ops : List Op) : ∀ {db : Database} {fs : FS}, ReachFresh db →
    (∀ u ∈ db.users, IsV4 u.id) → (∀ u ∈ db.users, ∀ o ∈ ops, o.call = .addUser → u.id ≠ newID (draw o)) → DrawsIDs draw ops →
    (ops.filter fun o => o.call = .addUser).Pairwise (fun o o' => ¬ SameFree (draw o) (draw o')) →
    ReachFresh (run db fs ops).1 ∧ ∀ u ∈ (run db fs ops).1.users, IsV4 u.id := by
  induction ops with
  | nil => intro db fs h h4 _ _ _; exact ⟨h, h4⟩
  | cons o ops ih =>
    intro db fs h h4 hne hd hp
    have hi := reach_inv (fresh_reach h)
    have hd' : DrawsIDs draw ops := fun x hx => hd x (List.mem_cons_of_mem _ hx)
    have hfree : o.call = .addUser → ∃ id, o.nd.ids.head? = some id ∧ id = newID (draw o) ∧ db.refID id = none ∧
        ∀ u ∈ db.users, u.id ≠ id := by
      intro hc
      obtain ⟨h1, h2⟩ := hd o List.mem_cons_self hc
      refine ⟨_, h2, rfl, ?_, fun u hu => hne u hu o List.mem_cons_self hc⟩
      cases hr : db.refID (newID (draw o)) with
      | none => rfl
      | some i =>
        obtain ⟨u, hu, he⟩ := hi.id_src _ _ hr
        exact absurd he (hne u (List.mem_of_getElem? hu) o List.mem_cons_self hc)
    have hstep : ReachFresh (exec o.call o.nd db fs o.req).db := by
      refine .step h _ _ _ _ ?_
      intro hc
      obtain ⟨id, h1, _, _, h2⟩ := hfree hc
      refine ⟨id, ?_, h2⟩
      cases hids : o.nd.ids with
      | nil => rw [hids] at h1; simp at h1
      | cons x xs => rw [hids] at h1; simp at h1; subst h1; simp
    have hold : ∀ u ∈ (exec o.call o.nd db fs o.req).db.users, (∃ v ∈ db.users, v.id = u.id) ∨
        o.call = .addUser ∧ u.id = newID (draw o) := by
      intro u hu
      have hm : u.id ∈ (exec o.call o.nd db fs o.req).db.users.map (·.id) := List.mem_map.2 ⟨u, hu, rfl⟩
      rcases exec_ids o.call o.nd db fs o.req with he | ⟨hc, he⟩
      · rw [he] at hm
        obtain ⟨v, hv, hvu⟩ := List.mem_map.1 hm
        exact .inl ⟨v, hv, hvu⟩
      · rw [he] at hm
        rcases List.mem_append.1 hm with hm | hm
        · obtain ⟨v, hv, hvu⟩ := List.mem_map.1 hm
          exact .inl ⟨v, hv, hvu⟩
        · obtain ⟨id, h1, h2, h3, _⟩ := hfree hc
          rw [pickID_head h1 h3] at hm
          exact .inr ⟨hc, (List.mem_singleton.1 hm).trans h2⟩
    have h4' : ∀ u ∈ (exec o.call o.nd db fs o.req).db.users, IsV4 u.id := by
      intro u hu
      rcases hold u hu with ⟨v, hv, he⟩ | ⟨hc, he⟩
      · rw [← he]; exact h4 v hv
      · rw [he]; exact newID_v4 (hd o List.mem_cons_self hc).1
    have hne' : ∀ u ∈ (exec o.call o.nd db fs o.req).db.users, ∀ x ∈ ops, x.call = .addUser → u.id ≠ newID (draw x) := by
      intro u hu x hx hxc
      rcases hold u hu with ⟨v, hv, he⟩ | ⟨hc, he⟩
      · rw [← he]; exact hne v hv x (List.mem_cons_of_mem _ hx) hxc
      · rw [he]
        rw [List.filter_cons_of_pos (by simp [hc]), List.pairwise_cons] at hp
        intro heq
        refine hp.1 x (List.mem_filter.2 ⟨hx, by simp [hxc]⟩) ?_
        exact (newID_eq_iff (hd o List.mem_cons_self hc).1 (hd' x hx hxc).1).1 heq
    have hp' : (ops.filter fun o => o.call = .addUser).Pairwise (fun o o' => ¬ SameFree (draw o) (draw o')) := by
      by_cases hc : o.call = .addUser
      · rw [List.filter_cons_of_pos (by simp [hc]), List.pairwise_cons] at hp
        exact hp.2
      · rw [List.filter_cons_of_neg (by simp [hc])] at hp
        exact hp
    unfold run
    dsimp only
    split
    · exact ⟨hstep, h4'⟩
    · exact ih hstep h4' hne' hd' hp'

end GoIdentity
