import Verif.Spec.Format
import Verif.Spec.StructTag
/-!
# Formatting and quoting
-/
namespace GoIdentity

/-! ## Numbers -/

theorem fmtDigits_spec (fuel n : Nat) (h : n < 10 ^ fuel) (hf : fuel ≠ 0) : DecimalText n (fmtDigits fuel n) := by
  induction fuel generalizing n with
  | zero => exact absurd rfl hf
  | succ fuel ih =>
    have hd : (UInt8.ofNat (48 + n % 10)).toNat = 48 + n % 10 := u8_toNat (by omega)
    unfold fmtDigits
    split
    · rename_i hn
      have hm : n % 10 = n := by omega
      rw [List.nil_append]
      refine ⟨by simp, ?_, ?_, ?_⟩
      · intro b hb
        obtain rfl := List.mem_singleton.1 hb
        omega
      · intro h1
        simp only [List.head?_cons, Option.some.injEq] at h1
        rw [h1]
      · simp only [List.foldl_cons, List.foldl_nil]
        omega
    · rename_i hn
      have hf' : fuel ≠ 0 := by
        rintro rfl
        simp at h; omega
      obtain ⟨h1, h2, h3, h4⟩ := ih (n / 10) (by rw [Nat.pow_succ] at h; omega) hf'
      refine ⟨by simp, ?_, ?_, ?_⟩
      · intro b hb
        rcases List.mem_append.1 hb with hb | hb
        · exact h2 b hb
        · obtain rfl := List.mem_singleton.1 hb
          omega
      · intro h5
        exfalso
        have h6 : (fmtDigits fuel (n / 10)).head? = some 48 := by
          cases hx : fmtDigits fuel (n / 10) with
          | nil => exact absurd hx h1
          | cons a l => rw [hx] at h5; simpa using h5
        rw [h3 h6] at h4
        simp at h4
        omega
      · rw [List.foldl_append, h4]
        simp only [List.foldl_cons, List.foldl_nil]
        omega

theorem lt_ten_pow (n : Nat) : n < 10 ^ (n + 1) := by
  induction n with
  | zero => simp
  | succ n ih => rw [Nat.pow_succ]; omega

theorem fmtDigits_decimal (n : Nat) : DecimalText n (fmtDigits (n + 1) n) := fmtDigits_spec _ _ (lt_ten_pow n) (by omega)

theorem foldl_digits_start (l : GoString) (a : Nat) :
    l.foldl (fun (a : Nat) b => 10 * a + (b.toNat - 48)) a = a * 10 ^ l.length + l.foldl (fun (a : Nat) b => 10 * a + (b.toNat - 48)) 0 := by
  induction l generalizing a with
  | nil => simp
  | cons b l ih =>
    simp only [List.foldl_cons, List.length_cons]
    rw [ih (10 * a + (b.toNat - 48)), ih (10 * 0 + (b.toNat - 48)), Nat.pow_succ]
    generalize 10 ^ l.length = p
    generalize List.foldl _ 0 l = z
    rw [Nat.add_mul, Nat.mul_zero, Nat.zero_add, ← Nat.add_assoc]
    congr 2
    rw [Nat.mul_comm 10 a, Nat.mul_assoc, Nat.mul_comm 10 p]

theorem foldl_digits_lt (l : GoString) (h : ∀ b ∈ l, 48 ≤ b.toNat ∧ b.toNat ≤ 57) :
    l.foldl (fun (a : Nat) b => 10 * a + (b.toNat - 48)) 0 < 10 ^ l.length := by
  induction l with
  | nil => simp
  | cons b l ih =>
    have hb := h b (by simp)
    have := ih fun x hx => h x (by simp [hx])
    simp only [List.foldl_cons, List.length_cons]
    rw [foldl_digits_start, Nat.pow_succ]
    generalize 10 ^ l.length = p at *
    generalize List.foldl _ 0 l = z at *
    have h9 : (10 * 0 + (b.toNat - 48)) * p ≤ 9 * p := Nat.mul_le_mul_right p (by omega)
    omega

/-- There is one way to write a number. -/
theorem DecimalText.inj_len {s t : GoString} (hl : s.length = t.length) (hs : ∀ b ∈ s, 48 ≤ b.toNat ∧ b.toNat ≤ 57)
    (ht : ∀ b ∈ t, 48 ≤ b.toNat ∧ b.toNat ≤ 57)
    (h : s.foldl (fun (a : Nat) b => 10 * a + (b.toNat - 48)) 0 = t.foldl (fun (a : Nat) b => 10 * a + (b.toNat - 48)) 0) : s = t := by
  induction s generalizing t with
  | nil => cases t with
    | nil => rfl
    | cons => simp at hl
  | cons a s ih =>
    cases t with
    | nil => simp at hl
    | cons b t =>
      simp only [List.length_cons, Nat.add_right_cancel_iff] at hl
      have ha := hs a (by simp)
      have hb := ht b (by simp)
      have h1 := foldl_digits_lt s fun x hx => hs x (by simp [hx])
      have h2 := foldl_digits_lt t fun x hx => ht x (by simp [hx])
      simp only [List.foldl_cons, Nat.mul_zero, Nat.zero_add] at h
      rw [foldl_digits_start s, foldl_digits_start t] at h
      have ih := @ih t hl (fun x hx => hs x (by simp [hx])) (fun x hx => ht x (by simp [hx]))
      rw [hl] at h h1
      generalize 10 ^ t.length = p at *
      generalize List.foldl _ 0 s = z at *
      generalize List.foldl _ 0 t = w at *
      have hd1 : ((a.toNat - 48) * p + z) / p = a.toNat - 48 := by
        rw [Nat.mul_comm, Nat.mul_add_div (by omega), Nat.div_eq_of_lt h1]; rfl
      have hd2 : ((b.toNat - 48) * p + w) / p = b.toNat - 48 := by
        rw [Nat.mul_comm, Nat.mul_add_div (by omega), Nat.div_eq_of_lt h2]; rfl
      rw [h, hd2] at hd1
      have hab : a = b := UInt8.toNat_inj.1 (by omega)
      subst hab
      rw [ih (by omega)]

theorem DecimalText.lower {n : Nat} {s : GoString} (h : DecimalText n s) (hn : n ≠ 0) : 10 ^ (s.length - 1) ≤ n := by
  obtain ⟨h1, h2, h3, h4⟩ := h
  cases s with
  | nil => exact absurd rfl h1
  | cons b s =>
    simp only [List.foldl_cons, Nat.mul_zero, Nat.zero_add] at h4
    rw [foldl_digits_start] at h4
    simp only [List.length_cons, Nat.add_sub_cancel]
    have hb := h2 b (by simp)
    by_cases h0 : b = 48
    · subst h0
      have := h3 rfl
      simp only [List.cons.injEq, true_and] at this
      subst this
      simp at h4
      omega
    · have : b.toNat ≠ 48 := fun e => h0 (UInt8.toNat_inj.1 e)
      have : 1 * 10 ^ s.length ≤ (b.toNat - 48) * 10 ^ s.length := Nat.mul_le_mul_right _ (by omega)
      omega

theorem DecimalText.unique {n : Nat} {s t : GoString} (hs : DecimalText n s) (ht : DecimalText n t) : s = t := by
  refine DecimalText.inj_len ?_ hs.2.1 ht.2.1 (hs.2.2.2.trans ht.2.2.2.symm)
  have z : ∀ {u : GoString}, DecimalText 0 u → u.length = 1 := by
    intro u hu
    obtain ⟨h1, h2, h3, h4⟩ := hu
    cases u with
    | nil => exact absurd rfl h1
    | cons b u =>
      by_cases h0 : b = 48
      · subst h0; rw [h3 rfl]; rfl
      · exfalso
        have hb := h2 b (by simp)
        have : b.toNat ≠ 48 := fun e => h0 (UInt8.toNat_inj.1 e)
        simp only [List.foldl_cons, Nat.mul_zero, Nat.zero_add] at h4
        rw [foldl_digits_start] at h4
        have : 1 * 10 ^ u.length ≤ (b.toNat - 48) * 10 ^ u.length := Nat.mul_le_mul_right _ (by omega)
        have : 0 < 10 ^ u.length := Nat.pow_pos (by decide)
        omega
  by_cases hn : n = 0
  · subst hn
    rw [z hs, z ht]
  · have a1 := hs.lower hn
    have a2 := ht.lower hn
    have b1 := foldl_digits_lt s hs.2.1
    have b2 := foldl_digits_lt t ht.2.1
    rw [hs.2.2.2] at b1
    rw [ht.2.2.2] at b2
    have c1 : s.length - 1 < t.length := (Nat.pow_lt_pow_iff_right (a := 10) (by decide)).1 (by omega)
    have c2 : t.length - 1 < s.length := (Nat.pow_lt_pow_iff_right (a := 10) (by decide)).1 (by omega)
    omega

theorem fmtInt_iff {i : Int} {s : GoString} : fmtInt i = s ↔ SignedText i s := by
  unfold fmtInt SignedText
  split
  · constructor
    · rintro rfl
      exact ⟨_, rfl, fmtDigits_decimal _⟩
    · rintro ⟨t, rfl, h⟩
      rw [h.unique (fmtDigits_decimal _)]
      rfl
  · rw [List.nil_append]
    constructor
    · rintro rfl
      exact fmtDigits_decimal _
    · intro h
      exact (h.unique (fmtDigits_decimal _)).symm

/-! ## Formats -/

theorem sprintf_byte {quote : GoString → GoString} {b : UInt8} (hb : b ≠ 37) (f : GoString) (as : List FmtArg) :
    sprintf quote (b :: f) as = (sprintf quote f as).map (b :: ·) := by
  cases f with
  | nil =>
    cases as with
    | nil => simp [sprintf, hb]
    | cons a as => simp [sprintf]
  | cons v f => rw [sprintf.eq_def]; simp [hb]

theorem sprintf_verb {quote : GoString → GoString} (v : UInt8) (f : GoString) (a : FmtArg) (as : List FmtArg) :
    sprintf quote (37 :: v :: f) (a :: as) = match fmtVerb quote v a, sprintf quote f as with
        | some x, some y => some (x ++ y)
        | _, _ => none := by
  rw [sprintf.eq_def]; simp only [if_true]
  rfl

theorem sprintf_iff {quote : GoString → GoString} {f : GoString} {as : List FmtArg} {o : GoString} :
    sprintf quote f as = some o ↔ Formats quote f as o := by
  constructor
  · intro h
    generalize hn : f.length = n
    induction n using Nat.strongRecOn generalizing f as o with
    | _ n ih =>
      subst hn
      match f, as with
      | [], [] =>
        simp only [sprintf, Option.some.injEq] at h
        subst h
        exact .nil
      | [], _ :: _ => simp [sprintf] at h
      | b :: f, as =>
        by_cases hb : b = 37
        · subst hb
          match f, as with
          | [], [] => simp [sprintf] at h
          | [], _ :: _ => simp [sprintf] at h
          | v :: f, [] => simp [sprintf] at h
          | v :: f, a :: as =>
            rw [sprintf_verb] at h
            cases hx : fmtVerb quote v a with
            | none => rw [hx] at h; simp at h
            | some x =>
              cases hy : sprintf quote f as with
              | none => rw [hx, hy] at h; simp at h
              | some y =>
                rw [hx, hy] at h
                simp only [Option.some.injEq] at h
                subst h
                have hF := ih f.length (by simp only [List.length_cons]; omega) hy rfl
                cases a with
                | str s =>
                  rw [fmtVerb] at hx
                  split at hx
                  · rename_i hv
                    injection hx with hx
                    subst hx
                    exact .string hv hF
                  · split at hx
                    · rename_i hv
                      injection hx with hx
                      subst hx hv
                      exact .quoted hF
                    · cases hx
                | int i =>
                  rw [fmtVerb] at hx
                  split at hx
                  · rename_i hv
                    injection hx with hx
                    exact .integer hv (fmtInt_iff.1 hx) hF
                  · cases hx
        · rw [sprintf_byte hb] at h
          cases hy : sprintf quote f as with
          | none => rw [hy] at h; simp at h
          | some y =>
            rw [hy] at h
            simp only [Option.map_some, Option.some.injEq] at h
            subst h
            exact .byte hb (ih f.length (by simp) hy rfl)
  · intro h
    induction h with
    | nil => rfl
    | byte hb _ ih => rw [sprintf_byte hb, ih]; rfl
    | string hv _ ih => rw [sprintf_verb, ih, fmtVerb, if_pos hv]
    | quoted _ ih => rw [sprintf_verb, ih, fmtVerb, if_neg (by decide), if_pos rfl]
    | integer hv hs _ ih => rw [sprintf_verb, ih, fmtVerb, if_pos hv, fmtInt_iff.2 hs]

theorem text_iff {quote : GoString → GoString} {e : GoErr} {t : GoString} : e.text quote = some t ↔ ErrSays quote e t := by
  induction e generalizing t with
  | std e =>
    constructor
    · intro h
      simp only [GoErr.text, Option.some.injEq] at h
      subst h
      exact .std e
    · intro h; cases h; rfl
  | ext s =>
    constructor
    · intro h
      simp only [GoErr.text, Option.some.injEq] at h
      subst h
      exact .ext s
    · intro h; cases h; rfl
  | withV e ss is =>
    rw [GoErr.text, sprintf_iff]
    constructor
    · exact .withV
    · intro h; cases h; assumption
  | withE e ss inner ih =>
    rw [GoErr.text]
    constructor
    · intro h
      cases hu : inner.text quote with
      | none => rw [hu] at h; cases h
      | some u =>
        rw [hu] at h
        exact .withE (ih.1 hu) (sprintf_iff.1 h)
    · intro h
      cases h with
      | withE hi h => rw [ih.2 hi]; exact sprintf_iff.2 h

end GoIdentity
