import Verif.Spec.PemKeys
import Verif.Lemmas.KeySpec
import Mathlib.Tactic.Ring
import Mathlib.Tactic.ByContra
/-!
# What the PEM reader and the DER reader accept
-/
namespace GoIdentity
open Sha (beNat natBE)

/-! ## Lines -/

theorem trimRightBlank_spec (s : GoString) : ∃ bl : GoString, s = trimRightBlank s ++ bl ∧ ∀ b ∈ bl, b = 32 ∨ b = 9 := by
  refine ⟨(s.reverse.takeWhile fun b => b == 32 || b == 9).reverse, ?_, ?_⟩
  · unfold trimRightBlank
    rw [← List.reverse_append, List.takeWhile_append_dropWhile, List.reverse_reverse]
  · intro b hb
    have h := List.all_takeWhile (p := fun b : UInt8 => b == 32 || b == 9) (l := s.reverse)
    rw [List.all_eq_true] at h
    simpa using h b (List.mem_reverse.1 hb)

theorem mem_of_trimRightBlank {s : GoString} {x : UInt8} (h : x ∈ trimRightBlank s) : x ∈ s := by
  obtain ⟨bl, hs, _⟩ := trimRightBlank_spec s
  rw [hs]; exact List.mem_append_left _ h

theorem pemLine_no_break (s : GoString) : (10 : UInt8) ∉ (pemLine s).1 := by
  intro h
  unfold pemLine at h
  split at h
  · rename_i hn
    have := List.findIdx?_eq_none_iff.1 hn 10 (mem_of_trimRightBlank h)
    simp at this
  · rename_i i hi
    obtain ⟨hi, _, hlt⟩ := List.findIdx?_eq_some_iff_getElem.1 hi
    have hm : (10 : UInt8) ∈ s.take i := by
      dsimp only at h
      have := mem_of_trimRightBlank h
      split at this
      · exact List.mem_of_mem_take this
      · exact this
    obtain ⟨j, hj, he⟩ := List.getElem_of_mem hm
    rw [List.length_take] at hj
    have := hlt j (by omega)
    rw [List.getElem_take] at he
    simp [he] at this

theorem pemLine_spec (s : GoString) : ∃ bl : GoString, (∀ b ∈ bl, b = 32 ∨ b = 9) ∧
    ((s = (pemLine s).1 ++ bl ∧ (pemLine s).2 = []) ∨ s = (pemLine s).1 ++ (bl ++ [10]) ++ (pemLine s).2 ∨
      s = (pemLine s).1 ++ (bl ++ [13, 10]) ++ (pemLine s).2) := by
  unfold pemLine
  split
  · obtain ⟨bl, h1, h2⟩ := trimRightBlank_spec s
    exact ⟨bl, h2, .inl ⟨h1, rfl⟩⟩
  · rename_i i hi
    obtain ⟨hi, h10, _⟩ := List.findIdx?_eq_some_iff_getElem.1 hi
    have h10 : s[i] = 10 := by simpa using h10
    have hs : s = s.take i ++ [10] ++ s.drop (i + 1) := by
      have := List.take_append_drop i s
      rw [List.drop_eq_getElem_cons hi, h10] at this
      simpa using this.symm
    dsimp only
    by_cases hc : hasSuffix (s.take i) [13] = true
    · rw [if_pos hc]
      obtain ⟨t, ht⟩ := List.isSuffixOf_iff_suffix.1 hc
      have hlen : (s.take i).length = i := by rw [List.length_take]; omega
      have e : (s.take i).take (i - 1) = t := by
        rw [← ht] at hlen
        rw [List.length_append, List.length_singleton] at hlen
        rw [← ht, List.take_append_of_le_length (by omega), List.take_of_length_le (by omega)]
      rw [e]
      obtain ⟨bl, h1, h2⟩ := trimRightBlank_spec t
      refine ⟨bl, h2, .inr (.inr ?_)⟩
      conv => lhs; rw [hs, ← ht, h1]
      simp
    · rw [if_neg hc]
      obtain ⟨bl, h1, h2⟩ := trimRightBlank_spec (s.take i)
      refine ⟨bl, h2, .inr (.inl ?_)⟩
      conv => lhs; rw [hs, h1]
      simp

theorem pemHeaders_spec (fuel : Nat) (any : Bool) (s : GoString) {r : Bool × GoString} (h : pemHeaders fuel any s = some r) :
    ∃ hdr, HeaderLines hdr ∧ s = hdr ++ r.2 ∧ (r.1 = false → hdr = [] ∧ any = false) := by
  induction fuel generalizing any s with
  | zero => simp [pemHeaders] at h
  | succ fuel ih =>
    cases s with
    | nil => simp [pemHeaders] at h
    | cons b t =>
      unfold pemHeaders at h
      dsimp only at h
      split at h
      · rename_i hc
        obtain ⟨hdr, h1, h2, h3⟩ := ih true _ h
        obtain ⟨bl, hbl, hs⟩ := pemLine_spec (b :: t)
        have hn := pemLine_no_break (b :: t)
        have hcm : (58 : UInt8) ∈ (pemLine (b :: t)).1 := by simpa [containsByte] using hc
        generalize pemLine (b :: t) = q at *
        have hb10 : (10 : UInt8) ∉ bl := by
          intro hm; rcases hbl _ hm with h | h <;> simp at h
        rcases hs with ⟨_, h5⟩ | h5 | h5
        · rw [h5] at h
          cases fuel <;> simp [pemHeaders] at h
        · refine ⟨(q.1 ++ bl) ++ 10 :: hdr, .cons (by simp [hcm]) (by simp [hn, hb10]) h1, ?_, fun h => absurd (h3 h).2 (by simp)⟩
          rw [h5, h2]; simp
        · refine ⟨(q.1 ++ (bl ++ [13])) ++ 10 :: hdr, .cons (by simp [hcm]) (by simp [hn, hb10]) h1, ?_,
            fun h => absurd (h3 h).2 (by simp)⟩
          rw [h5, h2]; simp
      · simp only [Option.some.injEq] at h
        subst h
        exact ⟨[], .nil, rfl, fun h => ⟨rfl, h⟩⟩

theorem indexSub_spec {pat s : GoString} {i : Nat} (h : indexSub pat s = some i) : s = s.take i ++ pat ++ s.drop (i + pat.length) := by
  induction s generalizing i with
  | nil =>
    unfold indexSub at h
    split at h
    · rename_i hp
      have := List.isPrefixOf_iff_prefix.1 hp
      simp at this
      subst this
      simp
    · simp at h
  | cons b t ih =>
    unfold indexSub at h
    split at h
    · rename_i hp
      obtain ⟨r, hr⟩ := List.isPrefixOf_iff_prefix.1 hp
      simp only [Option.some.injEq] at h
      subst h
      rw [← hr]; simp
    · simp only [Option.map_eq_some_iff] at h
      obtain ⟨j, hj, rfl⟩ := h
      rw [Nat.add_right_comm, List.take_succ_cons, List.drop_succ_cons, List.cons_append, List.cons_append, ← ih hj]

theorem hasPrefix_split {s p : GoString} (h : hasPrefix s p = true) : s = p ++ s.drop p.length := by
  obtain ⟨r, rfl⟩ := List.isPrefixOf_iff_prefix.1 h
  simp

theorem pemBegin_spec {data rest : GoString} (h : pemBegin data = some rest) :
    ∃ pre, data = pre ++ gs! "-----BEGIN " ++ rest ∧ (pre = [] ∨ pre.getLast? = some 10) := by
  unfold pemBegin at h
  split at h
  · rename_i hp
    simp only [Option.some.injEq] at h
    subst h
    exact ⟨[], hasPrefix_split hp, .inl rfl⟩
  · simp only [Option.map_eq_some_iff] at h
    obtain ⟨i, hi, rfl⟩ := h
    have := indexSub_spec hi
    refine ⟨data.take i ++ [10], ?_, .inr (by simp)⟩
    conv => lhs; rw [this]
    simp

theorem pemBody_spec {type rest der : GoString} {any : Bool} (h : pemBody type any rest = some der) :
    ∃ body brk post, rest = body ++ brk ++ gs! "-----END " ++ type ++ gs! "-----" ++ post ∧
      (brk = [10] ∨ brk = [] ∧ any = false ∧ body = []) ∧ RestBlank post ∧
      b64Decode (body.filter fun b => !(b == 32 || b == 9)) = some der := by
  unfold pemBody at h
  split at h
  · simp at h
  rename_i body trailer hm
  split at h
  · rename_i hc
    simp only [Bool.and_eq_true, decide_eq_true_eq] at hc
    obtain ⟨hp, hl⟩ := hc
    have hp := hasPrefix_split hp
    have hpost : RestBlank (trailer.drop (type.length + 5)) := by
      generalize trailer.drop (type.length + 5) = post at *
      obtain ⟨bl, hbl, hs⟩ := pemLine_spec post
      rw [hl] at hs
      refine ⟨bl, hbl, ?_⟩
      rcases hs with ⟨hs, _⟩ | hs | hs
      · exact .inl (by simpa using hs)
      · exact .inr ⟨_, .inl (by simpa using hs)⟩
      · exact .inr ⟨_, .inr (by simpa using hs)⟩
    have hp : trailer = type ++ gs! "-----" ++ trailer.drop (type.length + 5) := by simpa using hp
    unfold pemEndMark at hm
    split at hm
    · rename_i hc
      simp only [Bool.and_eq_true, Bool.not_eq_true'] at hc
      simp only [Option.some.injEq, Prod.mk.injEq] at hm
      obtain ⟨rfl, rfl⟩ := hm
      refine ⟨[], [], _, ?_, .inr ⟨rfl, hc.1, rfl⟩, hpost, h⟩
      conv => lhs; rw [hasPrefix_split hc.2]
      have e : (gs! "-----END ").length = 9 := rfl
      rw [e]
      conv => lhs; rw [hp]
      simp
    · simp only [Option.map_eq_some_iff, Prod.mk.injEq] at hm
      obtain ⟨i, hi, rfl, rfl⟩ := hm
      have := indexSub_spec hi
      have e : (gs! "\n-----END ").length = 10 := rfl
      rw [e] at this
      refine ⟨rest.take i, [10], _, ?_, .inl rfl, hpost, h⟩
      conv => lhs; rw [this, hp]
      simp
  · simp at h

theorem HasBlock.shift {skip data type der : GoString} (hs : skip = [] ∨ skip.getLast? = some 10) (h : HasBlock data type der) :
    HasBlock (skip ++ data) type der := by
  obtain ⟨pre, e, hdr, body, brk, post, rfl, h1, h2⟩ := h
  refine ⟨skip ++ pre, e, hdr, body, brk, post, by simp, ?_, h2⟩
  rcases h1 with rfl | h1
  · simpa using hs
  · right; rw [List.getLast?_append, h1]; rfl

theorem HeaderLines.last {hdr : GoString} (h : HeaderLines hdr) : hdr = [] ∨ hdr.getLast? = some 10 := by
  induction h with
  | nil => exact .inl rfl
  | cons _ _ _ ih =>
    right
    rcases ih with rfl | ih
    · simp
    · rw [List.getLast?_append, List.getLast?_cons, ih]; rfl

theorem pemBegin_nil : pemBegin [] = none := by decide

theorem pemDecodeAux_nil (fuel : Nat) : pemDecodeAux fuel [] = none := by
  cases fuel <;> simp [pemDecodeAux, pemBegin_nil]

theorem pemDecodeAux_spec (fuel : Nat) (data : GoString) {type der : GoString} (h : pemDecodeAux fuel data = some (type, der)) :
    HasBlock data type der := by
  induction fuel generalizing data with
  | zero => simp [pemDecodeAux] at h
  | succ fuel ih =>
    unfold pemDecodeAux at h
    cases hb : pemBegin data with
    | none => rw [hb] at h; simp at h
    | some rest =>
      rw [hb] at h
      dsimp only at h
      obtain ⟨pre, rfl, hpre⟩ := pemBegin_spec hb
      obtain ⟨bl, hbl, hs⟩ := pemLine_spec rest
      -- the type line ends in a line break, as the text goes on
      have hend : (pemLine rest).2 = [] ∨ ∃ e, LineEnd e ∧ rest = (pemLine rest).1 ++ e ++ (pemLine rest).2 := by
        rcases hs with ⟨_, hs⟩ | hs | hs
        · exact .inl hs
        · exact .inr ⟨_, ⟨bl, hbl, .inl rfl⟩, hs⟩
        · exact .inr ⟨_, ⟨bl, hbl, .inr rfl⟩, hs⟩
      generalize pemLine rest = q at *
      obtain ⟨line, next⟩ := q
      dsimp only at h hend
      rcases hend with rfl | ⟨e, he, rfl⟩
      · rw [pemDecodeAux_nil] at h
        simp [pemHeaders] at h
      have hel : ∀ x : GoString, (x ++ e).getLast? = some 10 := by
        intro x
        obtain ⟨bl, _, rfl | rfl⟩ := he <;> simp
      split at h
      · rename_i hsuf
        obtain ⟨t, ht⟩ := List.isSuffixOf_iff_suffix.1 hsuf
        subst ht
        have et : (t ++ gs! "-----").take ((t ++ gs! "-----").length - 5) = t := by simp
        rw [et] at h
        cases hh : pemHeaders (next.length + 1) false next with
        | none => rw [hh] at h; simp at h
        | some r =>
          obtain ⟨any, rest⟩ := r
          rw [hh] at h
          dsimp only at h
          obtain ⟨hdr, h1, h2, h3⟩ := pemHeaders_spec _ _ _ hh
          dsimp only at h2 h3
          subst h2
          cases hbody : pemBody t any rest with
          | some bytes =>
            rw [hbody] at h
            simp only [Option.some.injEq, Prod.mk.injEq] at h
            obtain ⟨rfl, rfl⟩ := h
            obtain ⟨body, brk, post, rfl, b1, b2, b3⟩ := pemBody_spec hbody
            refine ⟨pre, e, hdr, body, brk, post, by simp, hpre, he, h1, ?_, b2, b3⟩
            rcases b1 with b1 | ⟨b1, b4, b5⟩
            · exact .inl b1
            · exact .inr ⟨b1, (h3 b4).1, b5⟩
          | none =>
            rw [hbody] at h
            have := (ih _ h).shift (skip := pre ++ gs! "-----BEGIN " ++ (t ++ gs! "-----") ++ e ++ hdr) (by
              right
              rcases h1.last with rfl | h1
              · rw [List.append_nil]; exact hel _
              · rw [List.getLast?_append, h1]; rfl)
            simpa using this
      · have := (ih _ h).shift (skip := pre ++ gs! "-----BEGIN " ++ line ++ e) (.inr (hel _))
        simpa using this

theorem pemDecode_spec {data type der : GoString} (h : pemDecode data = some (type, der)) : HasBlock data type der :=
  pemDecodeAux_spec _ _ h

/-! ## DER -/

set_option linter.unusedSectionVars false
variable [Ext]

theorem derLongLen_spec (k acc : Nat) (l : GoString) {n : Nat} {r : GoString} (h : derLongLen k acc l = some (n, r))
    (ha : acc < 2 ^ 31) :
    ∃ bs, bs.length = k ∧ l = bs ++ r ∧ n = acc * 256 ^ k + beNat bs ∧ n < 2 ^ 31 ∧ (acc = 0 → bs.head? ≠ some 0) := by
  induction k generalizing acc l with
  | zero =>
    simp only [derLongLen, Option.some.injEq, Prod.mk.injEq] at h
    obtain ⟨rfl, rfl⟩ := h
    exact ⟨[], rfl, rfl, by simp [beNat_nil], ha, by simp⟩
  | succ k ih =>
    cases l with
    | nil => simp [derLongLen] at h
    | cons b t =>
      have hb := b.toNat_lt
      unfold derLongLen at h
      split at h
      · simp at h
      split at h
      · simp at h
      rename_i h1 h2
      obtain ⟨bs, g1, g2, g3, g4, _⟩ := ih _ _ h (by omega)
      refine ⟨b :: bs, by simp [g1], by rw [g2]; rfl, ?_, g4, ?_⟩
      · rw [g3, beNat_cons, g1, Nat.pow_succ]; grind
      · rintro rfl
        intro h0
        simp only [List.head?_cons, Option.some.injEq] at h0
        subst h0
        simp at h2

theorem derLen_spec {l r : GoString} {n : Nat} (h : derLen l = some (n, r)) :
    ∃ lb, DerLength lb n ∧ l = lb ++ r ∧ n < 2 ^ 31 := by
  cases l with
  | nil => simp [derLen] at h
  | cons b t =>
    have hb := b.toNat_lt
    rw [derLen] at h
    split at h
    · simp only [Option.some.injEq, Prod.mk.injEq] at h
      obtain ⟨rfl, rfl⟩ := h
      rename_i hlt
      exact ⟨[b], .inl ⟨hlt, b, rfl, rfl⟩, rfl, by omega⟩
    split at h
    · simp at h
    cases hl : derLongLen (b.toNat - 128) 0 t with
    | none => rw [hl] at h; simp at h
    | some q =>
      obtain ⟨m, r'⟩ := q
      rw [hl] at h
      dsimp only at h
      split at h
      · simp at h
      simp only [Option.some.injEq, Prod.mk.injEq] at h
      obtain ⟨rfl, rfl⟩ := h
      rename_i h1 h2 h3
      obtain ⟨bs, g1, g2, g3, g4, g5⟩ := derLongLen_spec _ _ _ hl (by omega)
      refine ⟨b :: bs, .inr ⟨by omega, b, bs, by omega, rfl, ?_, g5 rfl⟩, by rw [g2]; rfl, g4⟩
      rw [unsignedBE_eq, g3]; simp

theorem derTake_iff {tag : UInt8} {l c r : GoString} :
    derTake tag l = some (c, r) ↔ ∃ el, IsElement tag el c ∧ l = el ++ r ∧ c.length < 2 ^ 31 := by
  constructor
  · intro h
    cases l with
    | nil => simp [derTake] at h
    | cons b t =>
      rw [derTake] at h
      split at h
      · rename_i ht
        subst ht
        cases hl : derLen t with
        | none => rw [hl] at h; simp at h
        | some q =>
          obtain ⟨n, t'⟩ := q
          rw [hl] at h
          dsimp only at h
          split at h
          · simp at h
          rename_i hlen
          simp only [Option.some.injEq, Prod.mk.injEq] at h
          obtain ⟨rfl, rfl⟩ := h
          obtain ⟨lb, g1, g2, g3⟩ := derLen_spec hl
          have e : (t'.take n).length = n := by rw [List.length_take]; omega
          refine ⟨b :: lb ++ t'.take n, ⟨lb, by rw [e]; exact g1, rfl⟩, ?_, by rw [e]; exact g3⟩
          rw [List.append_assoc, List.take_append_drop, g2]; rfl
      · simp at h
  · rintro ⟨el, h1, rfl, h2⟩
    rw [(isElement_iff h2).1 h1]
    exact derTake_elem h2 r

theorem signedBE_bounds {c : GoString} {m : Nat} (h : c.length = m + 1) :
    -(128 * 256 ^ m : Int) ≤ signedBE c ∧ signedBE c < 128 * 256 ^ m := by
  cases c with
  | nil => simp at h
  | cons x t =>
    have ht : t.length = m := by simpa using h
    have hx := x.toNat_lt
    have hb := beNat_lt t
    rw [ht] at hb
    have e : unsignedBE (x :: t) = x.toNat * 256 ^ m + beNat t := by rw [unsignedBE_eq, beNat_cons, ht]
    unfold signedBE
    dsimp only
    rw [e, h, pow_succ]
    generalize hP : (256 : Nat) ^ m = P at *
    have hP' : ((256 : Int) ^ m) = P := by rw [← hP]; simp
    rw [hP']
    split
    · rename_i hlt
      have : x.toNat * P ≤ 127 * P := Nat.mul_le_mul_right _ (by omega)
      push_cast
      constructor <;> omega
    · rename_i hge
      have h1 : 128 * P ≤ x.toNat * P := Nat.mul_le_mul_right _ (by omega)
      have h2 : x.toNat * P ≤ 255 * P := Nat.mul_le_mul_right _ (by omega)
      push_cast
      constructor <;> omega

theorem derIntOk_iff {c : GoString} {v : Int} : (derIntOk c = true ∧ bytesInt c = v) ↔ DerInteger c v := by
  constructor
  · rintro ⟨h, rfl⟩
    have hne : c ≠ [] := by rintro rfl; simp [derIntOk] at h
    refine ⟨hne, signedBE_eq c, fun c' hc' hv => ?_⟩
    by_contra hlt
    rw [← signedBE_eq] at hv
    match c, h, hne, hlt, hv with
    | [_], _, _, hlt, _ =>
      have := List.length_pos_iff.2 hc'
      simp at hlt
      exact hc' hlt
    | a :: b :: t, h, _, hlt, hv =>
      have hp := List.length_pos_iff.2 hc'
      obtain ⟨m, hm⟩ : ∃ m, c'.length = m + 1 := ⟨c'.length - 1, by omega⟩
      have hb := signedBE_bounds hm
      simp only [List.length_cons] at hlt
      have hpow : (256 : Nat) ^ m ≤ 256 ^ t.length := Nat.pow_le_pow_right (by decide) (by omega)
      rw [hv] at hb
      have ha := a.toNat_lt
      have hbb := b.toNat_lt
      have ht := beNat_lt t
      have e : unsignedBE (a :: b :: t) = a.toNat * (256 ^ t.length * 256) + (b.toNat * 256 ^ t.length + beNat t) := by
        rw [unsignedBE_eq, beNat_cons, beNat_cons, List.length_cons, Nat.pow_succ]
      unfold signedBE at hb
      dsimp only at hb
      rw [e] at hb
      have e2 : ((256 : Int) ^ (a :: b :: t).length) = ((256 ^ t.length : Nat) : Int) * 65536 := by
        rw [List.length_cons, List.length_cons, pow_succ, pow_succ]; push_cast; ring
      rw [e2] at hb
      have e3 : ((256 : Int) ^ m) = ((256 ^ m : Nat) : Int) := by push_cast; rfl
      rw [e3] at hb
      generalize (256 : Nat) ^ m = Q at *
      generalize (256 : Nat) ^ t.length = P at *
      simp only [derIntOk, Bool.not_eq_true', Bool.or_eq_false_iff, Bool.and_eq_false_iff, decide_eq_false_iff_not] at h
      obtain ⟨h1, h2⟩ := h
      have i1 : a.toNat = 0 ∨ 1 * (P * 256) ≤ a.toNat * (P * 256) :=
        (Nat.eq_zero_or_pos _).imp_right fun h => Nat.mul_le_mul_right _ h
      have i2 : b.toNat < 128 ∨ 128 * P ≤ b.toNat * P := by
        rcases Nat.lt_or_ge b.toNat 128 with h | h
        · exact .inl h
        · exact .inr (Nat.mul_le_mul_right _ h)
      have i3 : a.toNat = 255 ∨ a.toNat * (P * 256) ≤ 254 * (P * 256) := by
        by_cases h : a.toNat = 255
        · exact .inl h
        · exact .inr (Nat.mul_le_mul_right _ (by omega))
      have i4 : 128 ≤ b.toNat ∨ b.toNat * P ≤ 127 * P := by
        by_cases h : 128 ≤ b.toNat
        · exact .inl h
        · exact .inr (Nat.mul_le_mul_right _ (by omega))
      have i5 : b.toNat * P ≤ 255 * P := Nat.mul_le_mul_right _ (by omega)
      have i6 : a.toNat * (P * 256) ≤ 255 * (P * 256) := Nat.mul_le_mul_right _ (by omega)
      generalize a.toNat * (P * 256) = A at *
      generalize b.toNat * P = B at *
      clear e e2 e3
      split at hb <;> omega
  · intro h
    rw [derInteger_iff] at h
    subst h
    split
    · rename_i h0; subst h0; decide
    · rename_i h0; exact ⟨derIntOk_intBytes h0, bytesInt_intBytes v⟩

theorem derBits_iff {bc bytes : GoString} : derBits bc = some bytes ↔ AlignedBits bc bytes := by
  unfold AlignedBits
  cases bc with
  | nil => simp [derBits]
  | cons p c =>
    have hpow : 0 < 2 ^ p.toNat := Nat.pow_pos (by decide)
    have hlt := beNat_lt c
    rw [derBits]
    constructor
    · intro h
      split at h
      · simp at h
      rename_i hc
      simp only [Bool.or_eq_true, Bool.and_eq_true, decide_eq_true_eq, not_or, not_and, Nat.not_lt, Decidable.not_not] at hc
      obtain ⟨⟨h1, h2⟩, h3⟩ := hc
      have hp0 : c = [] → p = 0 := fun hc => UInt8.toNat_inj.1 (by have := h2 hc; simpa using this)
      simp only [Option.some.injEq] at h
      refine ⟨p, c, rfl, h1, hp0, ?_⟩
      split at h
      · rename_i h0; subst h; simp [h0]
      · subst h
        refine ⟨Sha.natBE_length _ _, ?_⟩
        rw [unsignedBE_eq, unsignedBE_eq, beNat_natBE, Nat.mod_eq_of_lt (Nat.lt_of_le_of_lt (Nat.div_le_self _ _) hlt)]
        exact (Nat.div_mul_cancel (Nat.dvd_of_mod_eq_zero h3)).symm
    · rintro ⟨p', c', he, h1, h2, h3, h4⟩
      simp only [List.cons.injEq] at he
      obtain ⟨rfl, rfl⟩ := he
      rw [unsignedBE_eq, unsignedBE_eq] at h4
      rw [if_neg]
      · congr 1
        split
        · rename_i h0
          rw [h0, Nat.pow_zero, Nat.mul_one] at h4
          rw [← natBE_beNat c, ← natBE_beNat bytes, h4, h3]
        · rw [h4, Nat.mul_div_cancel _ hpow, ← h3, natBE_beNat]
      · simp only [Bool.or_eq_true, Bool.and_eq_true, decide_eq_true_eq, not_or, not_and, Nat.not_lt, Decidable.not_not]
        refine ⟨⟨h1, fun hc => ?_⟩, by rw [h4]; exact Nat.mul_mod_left _ _⟩
        rw [h2 hc]; simp

theorem derTakeInt_iff {l c r : GoString} {v : Int} :
    derTakeInt l = some (v, c, r) ↔ ∃ el, IsElement 0x02 el c ∧ l = el ++ r ∧ c.length < 2 ^ 31 ∧ DerInteger c v := by
  unfold derTakeInt
  constructor
  · intro h
    cases hd : derTake 0x02 l with
    | none => rw [hd] at h; simp at h
    | some q =>
      obtain ⟨c', r'⟩ := q
      rw [hd] at h
      dsimp only at h
      split at h
      · rename_i hok
        simp only [Option.some.injEq, Prod.mk.injEq] at h
        obtain ⟨rfl, rfl, rfl⟩ := h
        obtain ⟨el, g1, g2, g3⟩ := derTake_iff.1 hd
        exact ⟨el, g1, g2, g3, derIntOk_iff.1 ⟨hok, rfl⟩⟩
      · simp at h
  · rintro ⟨el, h1, h2, h3, h4⟩
    rw [derTake_iff.2 ⟨el, h1, h2, h3⟩]
    obtain ⟨h5, h6⟩ := derIntOk_iff.2 h4
    dsimp only
    rw [if_pos h5, h6]

theorem derInteger_small {c : GoString} {v : Int} (h : DerInteger c v) (hv : 0 < v) : c.length ≤ 8 ↔ v < 2 ^ 63 := by
  constructor
  · intro hl
    obtain ⟨hne, h1, _⟩ := h
    have hp := List.length_pos_iff.2 hne
    obtain ⟨m, hm⟩ : ∃ m, c.length = m + 1 := ⟨c.length - 1, by omega⟩
    have hb := (signedBE_bounds hm).2
    have : (256 : Int) ^ m ≤ 256 ^ 7 := by
      have := Nat.pow_le_pow_right (n := 256) (by decide) (show m ≤ 7 by omega)
      exact_mod_cast this
    omega
  · intro hlt
    rw [derInteger_iff, if_neg (by omega)] at h
    obtain ⟨k, rfl⟩ : ∃ k : Nat, v = k := ⟨v.toNat, by omega⟩
    rw [h]
    exact intBytes_length_of_lt (k := 7) (by omega)

theorem parseRsaInner_iff {l : GoString} {e : Nat} {n : Int} (hl : l.length < 2 ^ 31) :
    parseRsaInner l = some (e, n) ↔ 0 < n ∧ 0 < e ∧ e < 2 ^ 63 ∧ ∃ ni ei nc ec t,
      IsElement 0x30 l (ni ++ ei ++ t) ∧ IsElement 0x02 ni nc ∧ IsElement 0x02 ei ec ∧ DerInteger nc n ∧ DerInteger ec e := by
  unfold parseRsaInner
  constructor
  · intro h
    split at h
    · rename_i c hd
      obtain ⟨el, g1, g2, g3⟩ := derTake_iff.1 hd
      rw [List.append_nil] at g2
      subst g2
      split at h
      · simp at h
      rename_i n' nc c' hn
      split at h
      · simp at h
      rename_i e' eb t he
      split at h
      · simp at h
      split at h
      · simp at h
      split at h
      · simp at h
      rename_i h1 h2 h3
      simp only [Option.some.injEq, Prod.mk.injEq] at h
      obtain ⟨rfl, rfl⟩ := h
      obtain ⟨ni, n1, n2, n3, n4⟩ := derTakeInt_iff.1 hn
      obtain ⟨ei, e1, e2, e3, e4⟩ := derTakeInt_iff.1 he
      have := (derInteger_small e4 (by omega)).1 (by omega)
      refine ⟨by omega, by omega, by omega, ni, ei, nc, eb, t, ?_, n1, e1, n4, ?_⟩
      · rw [List.append_assoc, ← e2, ← n2]; exact g1
      · rw [Int.toNat_of_nonneg (by omega)]; exact e4
    · simp at h
  · rintro ⟨h1, h2, h3, ni, ei, nc, ec, t, g1, g2, g3, g4, g5⟩
    have l1 := isElement_length g1
    have l2 := isElement_length g2
    have l3 := isElement_length g3
    simp only [List.length_append] at l1
    have d1 : derTake 0x30 l = some (ni ++ ei ++ t, []) :=
      derTake_iff.2 ⟨l, g1, by simp, by simp only [List.length_append]; omega⟩
    have d2 : derTakeInt (ni ++ ei ++ t) = some (n, nc, ei ++ t) := derTakeInt_iff.2 ⟨ni, g2, by simp, by omega, g4⟩
    have d3 : derTakeInt (ei ++ t) = some ((e : Int), ec, t) := derTakeInt_iff.2 ⟨ei, g3, rfl, by omega, g5⟩
    have := (derInteger_small g5 (by omega)).2 (by omega)
    simp only [d1, d2, d3]
    rw [if_neg (by omega), if_neg (by omega), if_neg (by omega)]
    simp

theorem alignedBits_length {bc bytes : GoString} (h : AlignedBits bc bytes) : bytes.length < bc.length := by
  obtain ⟨p, c, rfl, _, _, h, _⟩ := h
  simp [h]

theorem parsePKIX_rsa_iff {raw : GoString} {e : Nat} {n : Int} :
    (parsePKIX raw = .rsa e n → LooseSpki raw e n ∧ 0 < n ∧ 0 < e ∧ e < 2 ^ 63) ∧
    (raw.length < 2 ^ 31 → LooseSpki raw e n ∧ 0 < n ∧ 0 < e ∧ e < 2 ^ 63 → parsePKIX raw = .rsa e n) := by
  unfold parsePKIX
  constructor
  · intro h
    split at h
    · rename_i c hd
      obtain ⟨el, g1, g2, _⟩ := derTake_iff.1 hd
      rw [List.append_nil] at g2
      subst g2
      split at h
      · simp at h
      rename_i algc c' ha
      obtain ⟨alg, a1, a2, _⟩ := derTake_iff.1 ha
      split at h
      · simp at h
      rename_i oidc params ho
      obtain ⟨oid, o1, o2, _⟩ := derTake_iff.1 ho
      split at h
      · rename_i hoid
        subst hoid
        split at h
        · rename_i hpar
          obtain ⟨t2, ht2⟩ := List.isPrefixOf_iff_prefix.1 hpar
          split at h
          · simp at h
          rename_i bc t1 hb
          obtain ⟨bits, b1, b2, b3⟩ := derTake_iff.1 hb
          cases hbits : derBits bc with
          | none => rw [hbits] at h; simp at h
          | some inner =>
            rw [hbits] at h
            simp only [Option.bind_some] at h
            have hal := derBits_iff.1 hbits
            have l3 := alignedBits_length hal
            split at h
            · simp at h
            rename_i e' n' hin
            simp only [Pkix.rsa.injEq] at h
            obtain ⟨rfl, rfl⟩ := h
            obtain ⟨p1, p2, p3, ni, ei, nc, ec, t3, q1, q2, q3, q4, q5⟩ := (parseRsaInner_iff (by omega)).1 hin
            refine ⟨⟨alg, oid, bits, bc, inner, ni, ei, nc, ec, t1, t2, t3, ?_, ?_, o1, b1, hal, q1, q2, q3, q4, q5⟩, p1, p2, p3⟩
            · rw [List.append_assoc, ← b2, ← a2]; exact g1
            · rw [List.append_assoc, ht2, ← o2]; exact a1
        · simp at h
      · simp at h
    · simp at h
  · rintro hl ⟨⟨alg, oid, bits, bc, inner, ni, ei, nc, ec, t1, t2, t3, h1, h2, h3, h4, h5, h6, h7, h8, h9, h10⟩, p1, p2, p3⟩
    have l1 := isElement_length h1
    have l2 := isElement_length h2
    have l3 := isElement_length h3
    have l4 := isElement_length h4
    have l5 := alignedBits_length h5
    simp only [List.length_append] at l1 l2
    have d1 : derTake 0x30 raw = some (alg ++ bits ++ t1, []) :=
      derTake_iff.2 ⟨raw, h1, by simp, by simp only [List.length_append]; omega⟩
    have d2 : derTake 0x30 (alg ++ bits ++ t1) = some (oid ++ [0x05, 0x00] ++ t2, bits ++ t1) :=
      derTake_iff.2 ⟨alg, h2, by simp, by simp only [List.length_append]; omega⟩
    have d3 : derTake 0x06 (oid ++ [0x05, 0x00] ++ t2) = some (oidRSA, [0x05, 0x00] ++ t2) :=
      derTake_iff.2 ⟨oid, h3, by simp, by decide⟩
    have d4 : derTake 0x03 (bits ++ t1) = some (bc, t1) := derTake_iff.2 ⟨bits, h4, rfl, by omega⟩
    have d5 := (parseRsaInner_iff (l := inner) (e := e) (n := n) (by omega)).2 ⟨p1, p2, p3, ni, ei, nc, ec, t3, h6, h7, h8, h9, h10⟩
    have d6 := derBits_iff.2 h5
    have hpre : hasPrefix ([0x05, 0x00] ++ t2) [0x05, 0x00] = true := List.isPrefixOf_iff_prefix.2 (List.prefix_append _ _)
    simp only [d1, d2, d3, if_true, hpre, d4, d6, Option.bind_some, d5]

end GoIdentity
