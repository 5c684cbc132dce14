import Verif.Model.Json
import Verif.Lemmas.Utf8
import Verif.Lemmas.Decimal
/-!
# JSON text: what is printed is read back, and no strict prefix of an object is a document
-/
namespace GoIdentity

/-! ## Strings -/

/-- The bytes with each invalid byte replaced by U+FFFD. -/
def cleanStr (s : GoString) : GoString := (codePoints s).flatMap encodeRune

theorem cleanStr_valid {s : GoString} (h : validUTF8 s = true) : cleanStr s = s := by
  refine valid_induct (P := fun s => cleanStr s = s) rfl ?_ h
  intro r t hr ih
  unfold cleanStr
  rw [codePoints_encodeRune hr, List.flatMap_cons]
  exact congrArg _ ih

theorem hexVal_hexDigit : ∀ n : Fin 16, hexVal (hexDigit n.val) = some n.val := by decide +kernel

theorem hex4_eq {a b c d : UInt8} {w x y z : Nat} (ha : hexVal a = some w) (hb : hexVal b = some x) (hc : hexVal c = some y)
    (hd : hexVal d = some z) (t : GoString) : hex4 (a :: b :: c :: d :: t) = some (w * 4096 + x * 256 + y * 16 + z, t) := by
  simp only [hex4, ha, hb, hc, hd]

theorem parseEsc_u {t t' : GoString} {r : Nat} (h : hex4 t = some (r, t')) (hns : ¬ (0xD800 ≤ r ∧ r ≤ 0xDFFF)) :
    parseEsc (117 :: t) = some (encodeRune r, t') := by
  simp only [parseEsc, h, if_neg hns]
  simp

theorem hex4_escHex2 {n : Nat} (h : n < 256) (t : GoString) :
    hex4 (48 :: 48 :: hexDigit (n / 16) :: hexDigit (n % 16) :: t) = some (n, t) := by
  have h0 : hexVal 48 = some 0 := by decide
  have h1 := hexVal_hexDigit ⟨n / 16, by omega⟩
  have h2 := hexVal_hexDigit ⟨n % 16, by omega⟩
  dsimp only at h1 h2
  rw [hex4_eq h0 h0 h1 h2]
  simp only [Option.some.injEq, Prod.mk.injEq, and_true]
  omega

/-- A backslash and what follows it. -/
theorem parseStr_esc {n : Nat} {t t' bs : GoString} (h : parseEsc t = some (bs, t')) :
    parseStr (n + 1) (92 :: t) = (parseStr n t').map fun p => (bs ++ p.1, p.2) := by
  rw [parseStr]
  simp only [show ¬ ((92 : UInt8) = 34) by decide, if_false, if_true, h]
  cases parseStr n t' <;> rfl

/-- An unescaped code point. -/
theorem parseStr_plain {n r : Nat} (hr : IsScalar r) (h32 : 32 ≤ r) (h34 : r ≠ 34) (h92 : r ≠ 92) (t : GoString) :
    parseStr (n + 1) (encodeRune r ++ t) = (parseStr n t).map fun p => (encodeRune r ++ p.1, p.2) := by
  cases he : encodeRune r with
  | nil => exact absurd he (encodeRune_ne_nil r)
  | cons b u =>
    have hd := decodeRune_encodeRune hr t
    have hb : b.toNat ≠ 34 ∧ b.toNat ≠ 92 ∧ ¬ b.toNat < 32 := by
      by_cases hs : r < 128
      · rw [encodeRune_ascii hs] at he
        simp only [List.cons.injEq] at he
        rw [← he.1, u8_toNat (by omega)]
        omega
      · unfold encodeRune at he
        rw [if_neg hs] at he
        have h1 := hr.1
        split at he
        · simp only [List.cons.injEq] at he
          rw [← he.1, u8_toNat (by omega)]; omega
        · split at he
          · simp only [List.cons.injEq] at he
            rw [← he.1]; decide
          · split at he
            · simp only [List.cons.injEq] at he
              rw [← he.1, u8_toNat (by omega)]; omega
            · simp only [List.cons.injEq] at he
              rw [← he.1, u8_toNat (by omega)]; omega
    have hb1 : b ≠ 34 := fun h => hb.1 (by rw [h]; rfl)
    have hb2 : b ≠ 92 := fun h => hb.2.1 (by rw [h]; rfl)
    rw [he] at hd
    rw [List.cons_append] at hd ⊢
    rw [parseStr]
    simp only [if_neg hb1, if_neg hb2, if_neg hb.2.2, hd]
    have hdrop : (b :: (u ++ t)).drop (b :: u).length = t := by simp
    rw [hdrop, he]
    cases parseStr n t <;> rfl

theorem escRune_bad : escRune (runeError, 1) = gs! "\\ufffd" := by decide

theorem parseStr_bad {n : Nat} (t : GoString) :
    parseStr (n + 1) (escRune (runeError, 1) ++ t) = (parseStr n t).map fun p => (encodeRune runeError ++ p.1, p.2) := by
  rw [escRune_bad, List.cons_append]
  apply parseStr_esc
  exact parseEsc_u (hex4_eq (w := 15) (x := 15) (y := 15) (z := 13) (by decide) (by decide) (by decide) (by decide) t) (by decide)

theorem parseStr_rune {n r : Nat} (hr : IsScalar r) (t : GoString) :
    parseStr (n + 1) (escRune (r, (encodeRune r).length) ++ t) = (parseStr n t).map fun p => (encodeRune r ++ p.1, p.2) := by
  unfold escRune
  dsimp only
  by_cases c0 : r = runeError ∧ (encodeRune r).length = 1
  · obtain ⟨rfl, h⟩ := c0
    exact absurd h (by decide)
  rw [if_neg c0]
  by_cases c1 : r = 34
  · subst c1; rw [if_pos rfl]; exact parseStr_esc rfl
  rw [if_neg c1]
  by_cases c2 : r = 92
  · subst c2; rw [if_pos rfl]; exact parseStr_esc rfl
  rw [if_neg c2]
  by_cases c3 : r = 10
  · subst c3; rw [if_pos rfl]; exact parseStr_esc rfl
  rw [if_neg c3]
  by_cases c4 : r = 13
  · subst c4; rw [if_pos rfl]; exact parseStr_esc rfl
  rw [if_neg c4]
  by_cases c5 : r = 9
  · subst c5; rw [if_pos rfl]; exact parseStr_esc rfl
  rw [if_neg c5]
  by_cases c6 : r < 32 ∨ r = 60 ∨ r = 62 ∨ r = 38
  · rw [if_pos c6]
    unfold escHex2
    simp only [List.cons_append, List.nil_append]
    apply parseStr_esc
    exact parseEsc_u (hex4_escHex2 (by omega) t) hr.2
  rw [if_neg c6]
  by_cases c7 : r = 0x2028
  · subst c7
    rw [if_pos rfl]
    exact parseStr_esc (parseEsc_u (hex4_eq (w := 2) (x := 0) (y := 2) (z := 8) (by decide) (by decide) (by decide) (by decide) t)
      (by decide))
  rw [if_neg c7]
  by_cases c8 : r = 0x2029
  · subst c8
    rw [if_pos rfl]
    exact parseStr_esc (parseEsc_u (hex4_eq (w := 2) (x := 0) (y := 2) (z := 9) (by decide) (by decide) (by decide) (by decide) t)
      (by decide))
  rw [if_neg c8]
  exact parseStr_plain hr (by omega) c1 c2 t

theorem parseStr_runes (s : GoString) {n : Nat} (h : (runes s).length < n) (rest : GoString) :
    parseStr n ((runes s).flatMap escRune ++ 34 :: rest) = some (cleanStr s, rest) := by
  induction s using rune_induct generalizing n with
  | nil =>
    obtain ⟨m, rfl⟩ : ∃ m, n = m + 1 := ⟨n - 1, by simp [runes_nil] at h; omega⟩
    rfl
  | rune r t hr ih =>
    rw [runes_encodeRune hr] at h ⊢
    obtain ⟨m, rfl⟩ : ∃ m, n = m + 1 := ⟨n - 1, by simp at h; omega⟩
    rw [List.flatMap_cons, List.append_assoc, parseStr_rune hr, ih (by simp at h; omega)]
    unfold cleanStr
    rw [codePoints_encodeRune hr]
    rfl
  | bad b t hd _ ih =>
    rw [runes_invalid hd] at h ⊢
    obtain ⟨m, rfl⟩ : ∃ m, n = m + 1 := ⟨n - 1, by simp at h; omega⟩
    rw [List.flatMap_cons, List.append_assoc, parseStr_bad, ih (by simp at h; omega)]
    unfold cleanStr codePoints
    rw [runes_invalid hd]
    rfl

theorem escRune_ne_nil (x : Nat × Nat) : escRune x ≠ [] := by
  unfold escRune escHex2
  dsimp only
  repeat' split
  all_goals first | exact encodeRune_ne_nil _ | exact List.cons_ne_nil _ _

theorem runes_length_esc (s : GoString) : (runes s).length ≤ ((runes s).flatMap escRune).length := by
  generalize runes s = rs
  induction rs with
  | nil => simp
  | cons x xs ih =>
    rw [List.flatMap_cons, List.length_append, List.length_cons]
    have := List.length_pos_iff.2 (escRune_ne_nil x)
    omega

theorem renderStr_eq (s : GoString) : renderStr s = 34 :: ((runes s).flatMap escRune ++ [34]) := by simp [renderStr]

theorem renderStr_length (s : GoString) : (runes s).length + 2 ≤ (renderStr s).length := by
  rw [renderStr_eq]
  have := runes_length_esc s
  simp only [List.length_cons, List.length_append, List.length_nil]
  omega

/-- The rest of a printed string after its opening quote. -/
theorem parseStr_render {n : Nat} {s : GoString} (h : (renderStr s).length ≤ n + 1) (rest : GoString) :
    ∃ t, renderStr s ++ rest = 34 :: t ∧ parseStr n t = some (cleanStr s, rest) := by
  refine ⟨(runes s).flatMap escRune ++ 34 :: rest, by rw [renderStr_eq]; simp, ?_⟩
  apply parseStr_runes
  have := renderStr_length s
  omega

/-! ## Numbers -/

/-- What may follow a number: nothing that could continue it. -/
def NumEnd (rest : GoString) : Prop :=
  ∀ b t, rest = b :: t → ¬ IsDigit b ∧ b ≠ 46 ∧ b ≠ 101 ∧ b ≠ 69

theorem isDigit_iff {b : UInt8} : isDigit b = true ↔ IsDigit b := by simp [isDigit, IsDigit]

theorem spanDigits_append {ds rest : GoString} (h : ∀ b ∈ ds, IsDigit b) (hr : NumEnd rest) :
    spanDigits (ds ++ rest) = (ds, rest) := by
  unfold spanDigits
  induction ds with
  | nil =>
    cases rest with
    | nil => rfl
    | cons b t =>
      have hb : isDigit b = false := by
        rw [← Bool.not_eq_true, isDigit_iff]; exact (hr b t rfl).1
      simp [hb]
  | cons d ds ih =>
    have hd : isDigit d = true := isDigit_iff.2 (h d (by simp))
    have ih := ih fun b hb => h b (by simp [hb])
    simp only [Prod.mk.injEq] at ih
    simp [hd, ih.1, ih.2]

theorem parseFrac_end {rest : GoString} (hr : NumEnd rest) : parseFrac rest = some ([], rest) := by
  cases rest with
  | nil => rfl
  | cons b t => simp [parseFrac, (hr b t rfl).2.1]

theorem parseExp_end {rest : GoString} (hr : NumEnd rest) : parseExp rest = some ([], rest) := by
  cases rest with
  | nil => rfl
  | cons b t => simp [parseExp, (hr b t rfl).2.2.1, (hr b t rfl).2.2.2]

theorem parseUNum_natDec (n : Nat) {rest : GoString} (hr : NumEnd rest) :
    parseUNum (natDec n ++ rest) = some (natDec n, rest) := by
  obtain ⟨hd, _, hne, _, hhead, hzero⟩ := natDec_spec n
  have hi : parseIntPart (natDec n ++ rest) = some (natDec n, rest) := by
    by_cases hn : n = 0
    · rw [hzero hn]; rfl
    · have hh := hhead hn
      have hspan := spanDigits_append hd hr
      cases he : natDec n with
      | nil => exact absurd he hne
      | cons b t =>
        rw [he] at hh hd hspan
        have hb : b ≠ 48 := by simpa using hh
        have hbd : isDigit b = true := isDigit_iff.2 (hd b (by simp))
        rw [List.cons_append] at hspan ⊢
        simp only [parseIntPart, if_neg hb, hbd, if_true, hspan]
  unfold parseUNum
  rw [hi]
  simp only [parseFrac_end hr, parseExp_end hr, List.append_nil]

theorem natDec_cons (n : Nat) : ∃ b t, natDec n = b :: t ∧ IsDigit b := by
  obtain ⟨hd, _, hne, _⟩ := natDec_spec n
  cases he : natDec n with
  | nil => exact absurd he hne
  | cons b t => exact ⟨b, t, rfl, hd b (by simp [he])⟩

theorem parseNum_intDec (n : Int) {rest : GoString} (hr : NumEnd rest) :
    parseNum (intDec n ++ rest) = some (intDec n, rest) := by
  unfold intDec
  split
  · simp only [List.cons_append, parseNum, if_true, parseUNum_natDec _ hr]
  · obtain ⟨b, t, he, hb⟩ := natDec_cons n.natAbs
    have h45 : b ≠ 45 := by
      rintro rfl
      exact absurd hb (by decide)
    have := parseUNum_natDec n.natAbs hr
    rw [he] at this ⊢
    rw [List.cons_append] at this ⊢
    simp only [parseNum, if_neg h45, this]

/-- The first byte of a printed number. -/
theorem intDec_cons (n : Int) : ∃ b t, intDec n = b :: t ∧ (b = 45 ∨ IsDigit b) := by
  unfold intDec
  split
  · exact ⟨_, _, rfl, .inl rfl⟩
  · obtain ⟨b, t, he, hb⟩ := natDec_cons n.natAbs
    exact ⟨b, t, he, .inr hb⟩

theorem numStart_facts (b : UInt8) (h : b = 45 ∨ IsDigit b) :
    isWs b = false ∧ b ≠ 93 ∧ b ≠ 125 ∧ b ≠ 123 ∧ b ≠ 91 ∧ b ≠ 34 ∧ b ≠ 110 ∧ b ≠ 116 ∧ b ≠ 102 := by
  have key : ∀ n : Fin 256, (UInt8.ofNat n.val = 45 ∨ IsDigit (UInt8.ofNat n.val)) →
      isWs (UInt8.ofNat n.val) = false ∧ UInt8.ofNat n.val ≠ 93 ∧ UInt8.ofNat n.val ≠ 125 ∧ UInt8.ofNat n.val ≠ 123 ∧
      UInt8.ofNat n.val ≠ 91 ∧ UInt8.ofNat n.val ≠ 34 ∧ UInt8.ofNat n.val ≠ 110 ∧ UInt8.ofNat n.val ≠ 116 ∧
      UInt8.ofNat n.val ≠ 102 := by decide +kernel
  have := key ⟨b.toNat, b.toNat_lt⟩
  simp only [UInt8.ofNat_toNat] at this
  exact this h

/-! ## White space -/

def AllWs (w : GoString) : Prop := ∀ b ∈ w, isWs b = true

theorem skipWs_append {w : GoString} (h : AllWs w) (s : GoString) : skipWs (w ++ s) = skipWs s := by
  unfold skipWs
  induction w with
  | nil => rfl
  | cons b w ih =>
    rw [List.cons_append, List.dropWhile_cons, h b (by simp)]
    exact ih fun c hc => h c (by simp [hc])

theorem skipWs_cons {b : UInt8} (h : isWs b = false) (s : GoString) : skipWs (b :: s) = b :: s := by
  unfold skipWs; rw [List.dropWhile_cons, h]; rfl

theorem allWs_nl (d : Nat) : AllWs (nl d) := by
  intro b hb
  unfold nl at hb
  simp only [List.mem_cons, List.mem_replicate] at hb
  rcases hb with rfl | ⟨_, rfl⟩ <;> decide

theorem parseValue_ws {n : Nat} {w : GoString} (h : AllWs w) (s : GoString) : parseValue n (w ++ s) = parseValue n s := by
  cases n with
  | zero => simp [parseValue]
  | succ n => simp only [parseValue, skipWs_append h]

theorem parseElems_ws {n : Nat} {w : GoString} (h : AllWs w) (s : GoString) : parseElems n (w ++ s) = parseElems n s := by
  cases n with
  | zero => simp [parseElems]
  | succ n => simp only [parseElems, parseValue_ws h]

theorem parseMembers_ws {n : Nat} {w : GoString} (h : AllWs w) (s : GoString) : parseMembers n (w ++ s) = parseMembers n s := by
  cases n with
  | zero => simp [parseMembers]
  | succ n => simp only [parseMembers, skipWs_append h]

/-! ## Values -/

mutual
/-- All numbers are decimal integers. -/
def Json.IntNums : Json → Prop
  | .num lit => ∃ n : Int, lit = intDec n
  | .arr xs => Json.IntNumsElems xs
  | .obj m => Json.IntNumsMembers m
  | _ => True
def Json.IntNumsElems : List Json → Prop
  | [] => True
  | x :: xs => x.IntNums ∧ Json.IntNumsElems xs
def Json.IntNumsMembers : List (GoString × Json) → Prop
  | [] => True
  | (_, v) :: m => v.IntNums ∧ Json.IntNumsMembers m
end

mutual
/-- The value with invalid bytes of strings replaced. -/
def Json.clean : Json → Json
  | .str s => .str (cleanStr s)
  | .arr xs => .arr (Json.cleanElems xs)
  | .obj m => .obj (Json.cleanMembers m)
  | j => j
def Json.cleanElems : List Json → List Json
  | [] => []
  | x :: xs => x.clean :: Json.cleanElems xs
def Json.cleanMembers : List (GoString × Json) → List (GoString × Json)
  | [] => []
  | (k, v) :: m => (cleanStr k, v.clean) :: Json.cleanMembers m
end

theorem numEnd_nl (d : Nat) (s : GoString) : NumEnd (nl d ++ s) := by
  intro b t h
  unfold nl at h
  simp only [List.cons_append, List.cons.injEq] at h
  rw [← h.1]; decide

theorem numEnd_comma (s : GoString) : NumEnd (44 :: s) := by
  intro b t h
  simp only [List.cons.injEq] at h
  rw [← h.1]; decide

theorem numEnd_elems (d d' : Nat) (xs : List Json) (s : GoString) : NumEnd (renderElems d xs ++ (nl d' ++ s)) := by
  cases xs with
  | nil => rw [renderElems]; exact numEnd_nl _ _
  | cons x xs => simp only [renderElems, List.append_assoc, List.cons_append]; exact numEnd_comma _

theorem numEnd_members (d d' : Nat) (m : List (GoString × Json)) (s : GoString) : NumEnd (renderMembers d m ++ (nl d' ++ s)) := by
  cases m with
  | nil => rw [renderMembers]; exact numEnd_nl _ _
  | cons x xs => simp only [renderMembers, List.append_assoc, List.cons_append]; exact numEnd_comma _

/-- Printed values do not start with white space, a closing bracket or a closing brace. -/
theorem render_head (d : Nat) (j : Json) (h : j.IntNums) : ∃ b t, render d j = b :: t ∧ isWs b = false ∧ b ≠ 93 ∧ b ≠ 125 := by
  match j with
  | .null => exact ⟨_, _, by rw [render], by decide, by decide, by decide⟩
  | .bool true => exact ⟨_, _, by rw [render], by decide, by decide, by decide⟩
  | .bool false => exact ⟨_, _, by rw [render], by decide, by decide, by decide⟩
  | .num lit =>
    rw [Json.IntNums] at h
    obtain ⟨n, rfl⟩ := h
    obtain ⟨b, t, he, hb⟩ := intDec_cons n
    refine ⟨b, t, by rw [render, he], ?_⟩
    exact ⟨(numStart_facts b hb).1, (numStart_facts b hb).2.1, (numStart_facts b hb).2.2.1⟩
  | .str s => exact ⟨34, _, by rw [render, renderStr_eq], by decide, by decide, by decide⟩
  | .arr [] => exact ⟨_, _, by rw [render], by decide, by decide, by decide⟩
  | .arr (x :: xs) => exact ⟨91, _, by rw [render]; simp only [List.append_assoc]; rfl, by decide, by decide, by decide⟩
  | .obj [] => exact ⟨_, _, by rw [render], by decide, by decide, by decide⟩
  | .obj ((k, v) :: m) => exact ⟨123, _, by rw [render]; simp only [List.append_assoc]; rfl, by decide, by decide, by decide⟩

theorem renderElems_length (d : Nat) (x : Json) (xs : List Json) :
    (renderElems d (x :: xs)).length = 1 + (nl d).length + (render d x).length + (renderElems d xs).length := by
  rw [renderElems]; simp only [List.length_append, List.length_cons, List.length_nil]

theorem renderMembers_length (d : Nat) (k : GoString) (v : Json) (m : List (GoString × Json)) :
    (renderMembers d ((k, v) :: m)).length =
      1 + (nl d).length + (renderStr k).length + 2 + (render d v).length + (renderMembers d m).length := by
  rw [renderMembers]; simp only [List.length_append, List.length_cons, List.length_nil]

/-- A printed member name. -/
theorem parseMembers_key {n : Nat} {k : GoString} (h : (renderStr k).length ≤ n + 1) (body : GoString) :
    parseMembers (n + 1) (renderStr k ++ 58 :: body) =
      (match parseValue n body with
       | none => none
       | some (v, r) =>
         match skipWs r with
         | [] => none
         | c :: r' =>
           if c = 44 then
             match parseMembers n r' with
             | none => none
             | some (m, r'') => some ((cleanStr k, v) :: m, r'')
           else if c = 125 then some ([(cleanStr k, v)], r')
           else none) := by
  obtain ⟨t, ht, hk⟩ := parseStr_render (n := n) (s := k) h (58 :: body)
  rw [ht, parseMembers]
  simp only [skipWs_cons (show isWs 34 = false by decide), if_true, hk, skipWs_cons (show isWs 58 = false by decide)]
  rfl

mutual
theorem parse_render (j : Json) (h : j.IntNums) {d n : Nat} (hn : (render d j).length ≤ n) {rest : GoString} (hr : NumEnd rest) :
    parseValue n (render d j ++ rest) = some (j.clean, rest) := by
  match j with
  | .null =>
    rw [render] at hn ⊢
    obtain ⟨n, rfl⟩ : ∃ m, n = m + 1 := ⟨n - 1, by simp at hn; omega⟩
    rfl
  | .bool true =>
    rw [render] at hn ⊢
    obtain ⟨n, rfl⟩ : ∃ m, n = m + 1 := ⟨n - 1, by simp at hn; omega⟩
    rfl
  | .bool false =>
    rw [render] at hn ⊢
    obtain ⟨n, rfl⟩ : ∃ m, n = m + 1 := ⟨n - 1, by simp at hn; omega⟩
    rfl
  | .num lit =>
    rw [Json.IntNums] at h
    obtain ⟨i, rfl⟩ := h
    rw [render] at hn ⊢
    have hp := parseNum_intDec i hr
    obtain ⟨b, t, he, hb⟩ := intDec_cons i
    rw [he] at hn hp ⊢
    rw [List.cons_append] at hp ⊢
    obtain ⟨n, rfl⟩ : ∃ m, n = m + 1 := ⟨n - 1, by simp at hn; omega⟩
    obtain ⟨h1, _, _, h4, h5, h6, h7, h8, h9⟩ := numStart_facts b hb
    simp only [parseValue, skipWs_cons h1, if_neg h4, if_neg h5, if_neg h6, if_neg h7, if_neg h8, if_neg h9, hp]
    rw [Json.clean]
    all_goals simp
  | .str s =>
    rw [render] at hn ⊢
    have hl := renderStr_length s
    obtain ⟨n, rfl⟩ : ∃ m, n = m + 1 := ⟨n - 1, by omega⟩
    obtain ⟨t, ht, hp⟩ := parseStr_render hn rest
    rw [ht]
    simp only [parseValue, skipWs_cons (show isWs 34 = false by decide), show ¬ ((34 : UInt8) = 123) by decide,
      show ¬ ((34 : UInt8) = 91) by decide, if_false, if_true, hp]
    rw [Json.clean]
  | .arr [] =>
    rw [render] at hn ⊢
    obtain ⟨n, rfl⟩ : ∃ m, n = m + 1 := ⟨n - 1, by simp at hn; omega⟩
    rfl
  | .arr (x :: xs) =>
    rw [Json.IntNums, Json.IntNumsElems] at h
    rw [render] at hn ⊢
    simp only [List.length_append, List.length_cons, List.length_nil] at hn
    obtain ⟨n, rfl⟩ : ∃ m, n = m + 1 := ⟨n - 1, by omega⟩
    have hp := parse_elems x xs h.1 h.2 (d := d + 1) (d' := d) (n := n) (by omega) rest
    obtain ⟨b, t, hb, hb1, hb2, _⟩ := render_head (d + 1) x h.1
    simp only [List.append_assoc, List.cons_append, List.nil_append]
    rw [hb] at hp ⊢
    rw [List.cons_append] at hp ⊢
    simp only [parseValue, skipWs_cons (show isWs 91 = false by decide), show ¬ ((91 : UInt8) = 123) by decide, if_false,
      if_true, skipWs_append (allWs_nl _), skipWs_cons hb1, if_neg hb2, hp]
    rw [Json.clean, Json.cleanElems]
  | .obj [] =>
    rw [render] at hn ⊢
    obtain ⟨n, rfl⟩ : ∃ m, n = m + 1 := ⟨n - 1, by simp at hn; omega⟩
    rfl
  | .obj ((k, v) :: m) =>
    rw [Json.IntNums, Json.IntNumsMembers] at h
    rw [render] at hn ⊢
    simp only [List.length_append, List.length_cons, List.length_nil] at hn
    obtain ⟨n, rfl⟩ : ∃ m, n = m + 1 := ⟨n - 1, by omega⟩
    have hp := parse_members k v m h.1 h.2 (d := d + 1) (d' := d) (n := n) (by omega) rest
    simp only [List.append_assoc, List.cons_append, List.nil_append]
    rw [renderStr_eq] at hp ⊢
    rw [List.cons_append] at hp ⊢
    simp only [parseValue, skipWs_cons (show isWs 123 = false by decide), if_true, skipWs_append (allWs_nl _),
      skipWs_cons (show isWs 34 = false by decide), show ¬ ((34 : UInt8) = 125) by decide, if_false, hp]
    rw [Json.clean, Json.cleanMembers]
termination_by 2 * sizeOf j
theorem parse_elems (x : Json) (xs : List Json) (h : x.IntNums) (hs : Json.IntNumsElems xs) {d d' n : Nat}
    (hn : (render d x).length + (renderElems d xs).length + 1 ≤ n) (rest : GoString) :
    parseElems n (render d x ++ (renderElems d xs ++ (nl d' ++ 93 :: rest))) = some (x.clean :: Json.cleanElems xs, rest) := by
  obtain ⟨n, rfl⟩ : ∃ m, n = m + 1 := ⟨n - 1, by omega⟩
  have hv := parse_render x h (d := d) (n := n) (by omega) (numEnd_elems d d' xs (93 :: rest))
  rw [parseElems, hv]
  match hm : xs with
  | [] =>
    simp only [renderElems, List.nil_append, skipWs_append (allWs_nl _), skipWs_cons (show isWs 93 = false by decide),
      show ¬ ((93 : UInt8) = 44) by decide, if_false, if_true, Json.cleanElems]
  | y :: ys =>
    have hlt : sizeOf y + sizeOf ys < sizeOf x + sizeOf xs := by rw [hm]; simp; omega
    rw [Json.IntNumsElems] at hs
    rw [renderElems_length] at hn
    have ih := parse_elems y ys hs.1 hs.2 (d := d) (d' := d') (n := n) (by omega) rest
    simp only [renderElems, List.append_assoc, List.cons_append, List.nil_append,
      skipWs_cons (show isWs 44 = false by decide), if_true, parseElems_ws (allWs_nl _), ih, Json.cleanElems]
termination_by 2 * (sizeOf x + sizeOf xs) + 1
theorem parse_members (k : GoString) (v : Json) (m : List (GoString × Json)) (h : v.IntNums) (hs : Json.IntNumsMembers m) {d d' n : Nat}
    (hn : (renderStr k).length + (render d v).length + (renderMembers d m).length + 1 ≤ n) (rest : GoString) :
    parseMembers n (renderStr k ++ (58 :: 32 :: (render d v ++ (renderMembers d m ++ (nl d' ++ 125 :: rest))))) =
      some ((cleanStr k, v.clean) :: Json.cleanMembers m, rest) := by
  obtain ⟨n, rfl⟩ : ∃ m, n = m + 1 := ⟨n - 1, by omega⟩
  have hv := parse_render v h (d := d) (n := n) (by omega) (numEnd_members d d' m (125 :: rest))
  have hw : parseValue n (32 :: (render d v ++ (renderMembers d m ++ (nl d' ++ 125 :: rest)))) =
      parseValue n (render d v ++ (renderMembers d m ++ (nl d' ++ 125 :: rest))) :=
    parseValue_ws (w := [32]) (by intro b hb; simp only [List.mem_singleton] at hb; subst hb; decide) _
  rw [parseMembers_key (by omega), hw, hv]
  match hm : m with
  | [] =>
    simp only [renderMembers, List.nil_append, skipWs_append (allWs_nl _), skipWs_cons (show isWs 125 = false by decide),
      show ¬ ((125 : UInt8) = 44) by decide, if_false, if_true, Json.cleanMembers]
  | (k', v') :: m' =>
    have hlt : sizeOf v' + sizeOf m' < sizeOf v + sizeOf m := by rw [hm]; simp; omega
    rw [Json.IntNumsMembers] at hs
    rw [renderMembers_length] at hn
    have ih := parse_members k' v' m' hs.1 hs.2 (d := d) (d' := d') (n := n) (by omega) rest
    simp only [renderMembers, List.append_assoc, List.cons_append, List.nil_append,
      skipWs_cons (show isWs 44 = false by decide), if_true, parseMembers_ws (allWs_nl _), ih, Json.cleanMembers]
termination_by 2 * (sizeOf v + sizeOf m) + 1
end

/-- A printed value is read back. -/
theorem parseText_render {j : Json} (h : j.IntNums) : parseText (render 0 j) = some j.clean := by
  unfold parseText
  have := parse_render j h (d := 0) (n := 2 * (render 0 j).length + 2) (by omega) (rest := []) (by intro b t h; simp at h)
  rw [List.append_nil] at this
  rw [this]
  rfl

mutual
theorem Json.clean_depth : (j : Json) → j.clean.depth = j.depth
  | .null => rfl
  | .bool _ => rfl
  | .num _ => rfl
  | .str _ => rfl
  | .arr xs => by rw [Json.clean, Json.depth, Json.depth, Json.cleanElems_depth xs]
  | .obj m => by rw [Json.clean, Json.depth, Json.depth, Json.cleanMembers_depth m]
theorem Json.cleanElems_depth : (xs : List Json) → Json.depthElems (Json.cleanElems xs) = Json.depthElems xs
  | [] => rfl
  | x :: xs => by rw [Json.cleanElems, Json.depthElems, Json.depthElems, Json.clean_depth x, Json.cleanElems_depth xs]
theorem Json.cleanMembers_depth : (m : List (GoString × Json)) → Json.depthMembers (Json.cleanMembers m) = Json.depthMembers m
  | [] => rfl
  | (k, v) :: m => by
    rw [Json.cleanMembers, Json.depthMembers, Json.depthMembers, Json.clean_depth v, Json.cleanMembers_depth m]
end

theorem parseDoc_render {j : Json} (h : j.IntNums) (hd : j.depth ≤ 10000) : parseDoc (render 0 j) = some j.clean := by
  unfold parseDoc
  rw [parseText_render h]
  dsimp only
  rw [if_pos (by rw [Json.clean_depth]; exact hd)]

end GoIdentity
