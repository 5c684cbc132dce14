import Verif.Lemmas.Format
/-!
# `strconv.Quote`
-/
namespace GoIdentity

/-! ## Hexadecimal digits -/

/-- The digits of `hexPad`. -/
def nibbles : Nat → Nat → List Nat
  | 0, _ => []
  | k + 1, n => nibbles k (n / 16) ++ [n % 16]

theorem nibbles_lt (k n : Nat) : ∀ x ∈ nibbles k n, x < 16 := by
  induction k generalizing n with
  | zero => simp [nibbles]
  | succ k ih =>
    intro x hx
    rcases List.mem_append.1 hx with hx | hx
    · exact ih _ x hx
    · obtain rfl := List.mem_singleton.1 hx
      omega

theorem nibbles_length (k n : Nat) : (nibbles k n).length = k := by
  induction k generalizing n with
  | zero => rfl
  | succ k ih => simp [nibbles, ih]

theorem nibbles_value (k n : Nat) (h : n < 16 ^ k) : (nibbles k n).foldl (fun a x => 16 * a + x) 0 = n := by
  induction k generalizing n with
  | zero => simp at h; subst h; rfl
  | succ k ih =>
    rw [nibbles, List.foldl_append, ih _ (by rw [Nat.pow_succ] at h; omega)]
    simp only [List.foldl_cons, List.foldl_nil]
    omega

theorem hexDigit_eq {n : Nat} (h : n < 16) : hexDigit n = (gs! "0123456789abcdef").getD n 0 := by
  have : ∀ m : Fin 16, hexDigit m.val = (gs! "0123456789abcdef").getD m.val 0 := by decide
  exact this ⟨n, h⟩

theorem hexVal_of_digit {n : Nat} (h : n < 16) : hexVal (hexDigit n) = some n := by
  have : ∀ m : Fin 16, hexVal (hexDigit m.val) = some m.val := by decide
  exact this ⟨n, h⟩

theorem hexPad_eq (k n : Nat) : hexPad k n = (nibbles k n).map (fun x => (gs! "0123456789abcdef").getD x 0) := by
  induction k generalizing n with
  | zero => rfl
  | succ k ih => rw [hexPad, nibbles, List.map_append, ih, hexDigit_eq (Nat.mod_lt _ (by decide))]; rfl

theorem hexPad_text {k n : Nat} (h : n < 16 ^ k) : HexText (hexPad k n) n :=
  ⟨_, nibbles_lt k n, hexPad_eq k n, nibbles_value k n h⟩

theorem hexPad_length (k n : Nat) : (hexPad k n).length = k := by rw [hexPad_eq, List.length_map, nibbles_length]

theorem foldl_hex_start (l : List Nat) (a : Nat) :
    l.foldl (fun a x => 16 * a + x) a = a * 16 ^ l.length + l.foldl (fun a x => 16 * a + x) 0 := by
  induction l generalizing a with
  | nil => simp
  | cons b l ih =>
    simp only [List.foldl_cons, List.length_cons]
    rw [ih (16 * a + b), ih (16 * 0 + b), Nat.pow_succ]
    generalize 16 ^ l.length = p
    generalize List.foldl _ 0 l = z
    rw [Nat.add_mul, Nat.mul_zero, Nat.zero_add, ← Nat.add_assoc]
    congr 2
    rw [Nat.mul_comm 16 a, Nat.mul_assoc, Nat.mul_comm 16 p]

theorem foldl_hex_lt (l : List Nat) (h : ∀ x ∈ l, x < 16) : l.foldl (fun a x => 16 * a + x) 0 < 16 ^ l.length := by
  induction l with
  | nil => simp
  | cons b l ih =>
    have hb := h b (by simp)
    have := ih fun x hx => h x (by simp [hx])
    simp only [List.foldl_cons, List.length_cons]
    rw [foldl_hex_start, Nat.pow_succ]
    generalize 16 ^ l.length = p at *
    generalize List.foldl _ 0 l = z at *
    have h9 : (16 * 0 + b) * p ≤ 15 * p := Nat.mul_le_mul_right p (by omega)
    omega

theorem hex_unique {s t : List Nat} (hl : s.length = t.length) (hs : ∀ b ∈ s, b < 16) (ht : ∀ b ∈ t, b < 16)
    (h : s.foldl (fun a x => 16 * a + x) 0 = t.foldl (fun a x => 16 * a + x) 0) : s = t := by
  induction s generalizing t with
  | nil => cases t with
    | nil => rfl
    | cons => simp at hl
  | cons a s ih =>
    cases t with
    | nil => simp at hl
    | cons b t =>
      simp only [List.length_cons, Nat.add_right_cancel_iff] at hl
      have ha := hs a (by simp)
      have hb := ht b (by simp)
      have h1 := foldl_hex_lt s fun x hx => hs x (by simp [hx])
      have h2 := foldl_hex_lt t fun x hx => ht x (by simp [hx])
      simp only [List.foldl_cons, Nat.mul_zero, Nat.zero_add] at h
      rw [foldl_hex_start s, foldl_hex_start t] at h
      have ih := @ih t hl (fun x hx => hs x (by simp [hx])) (fun x hx => ht x (by simp [hx]))
      rw [hl] at h h1
      generalize 16 ^ t.length = p at *
      generalize List.foldl _ 0 s = z at *
      generalize List.foldl _ 0 t = w at *
      have hd1 : (a * p + z) / p = a := by rw [Nat.mul_comm, Nat.mul_add_div (by omega), Nat.div_eq_of_lt h1]; rfl
      have hd2 : (b * p + w) / p = b := by rw [Nat.mul_comm, Nat.mul_add_div (by omega), Nat.div_eq_of_lt h2]; rfl
      rw [h, hd2] at hd1
      subst hd1
      rw [ih (by omega)]

theorem hexText_iff {ds : GoString} {n : Nat} : HexText ds n ↔ n < 16 ^ ds.length ∧ ds = hexPad ds.length n := by
  constructor
  · rintro ⟨xs, h1, h2, h3⟩
    have hl : ds.length = xs.length := by rw [h2, List.length_map]
    have hn : n < 16 ^ ds.length := by rw [hl, ← h3]; exact foldl_hex_lt xs h1
    refine ⟨hn, ?_⟩
    rw [hexPad_eq]
    have : xs = nibbles ds.length n := hex_unique (by rw [nibbles_length, hl]) h1 (nibbles_lt _ _) (by rw [h3, nibbles_value _ _ hn])
    rw [← this]
    exact h2
  · rintro ⟨h1, h2⟩
    rw [h2]
    exact hexPad_text h1

/-! ## The loop -/

variable {q : QuoteTables}

theorem isPrint_iff {r : Nat} : q.isPrint r = true ↔ q.Printable r := by
  unfold QuoteTables.isPrint QuoteTables.Printable
  split
  · rw [decide_eq_true_eq]; omega
  · constructor
    · intro h; exact .inr (.inr ⟨by omega, h⟩)
    · rintro (h | h | h)
      · omega
      · omega
      · exact h.2

theorem loop_fuel {n m : Nat} {s : GoString} (hn : s.length ≤ n) (hm : s.length ≤ m) : q.loop n s = q.loop m s := by
  induction n generalizing m s with
  | zero =>
    have : s = [] := List.length_eq_zero_iff.1 (by omega)
    subst this
    cases m <;> rfl
  | succ n ih =>
    cases s with
    | nil => cases m <;> rfl
    | cons b t =>
      cases m with
      | zero => simp at hm
      | succ m =>
        unfold QuoteTables.loop
        dsimp only
        have hw := decodeRune_width b t
        simp only [List.length_cons] at hn hm
        rw [ih (m := m) (by rw [List.length_drop, List.length_cons]; omega) (by rw [List.length_drop, List.length_cons]; omega)]

/-- What stands between the quotes. -/
def QuoteTables.body (q : QuoteTables) (s : GoString) : GoString := q.loop s.length s

theorem body_nil : q.body [] = [] := rfl

theorem body_cons (b : UInt8) (t : GoString) :
    q.body (b :: t) = (if (decodeRune (b :: t)).2 = 1 ∧ (decodeRune (b :: t)).1 = runeError then 92 :: 120 :: hexPad 2 b.toNat
      else q.rune (decodeRune (b :: t)).1) ++ q.body ((b :: t).drop (decodeRune (b :: t)).2) := by
  have hw := decodeRune_width b t
  rw [QuoteTables.body, List.length_cons, QuoteTables.loop]
  dsimp only
  rw [QuoteTables.body, loop_fuel (n := t.length) (m := ((b :: t).drop (decodeRune (b :: t)).2).length)
    (by rw [List.length_drop, List.length_cons]; omega) (Nat.le_refl _)]

theorem body_rune {r : Nat} (h : IsScalar r) (t : GoString) : q.body (encodeRune r ++ t) = q.rune r ++ q.body t := by
  have hd := decodeRune_encodeRune h t
  have hne := encodeRune_ne_nil r
  cases he : encodeRune r with
  | nil => exact absurd he hne
  | cons b u =>
    rw [he] at hd
    rw [List.cons_append] at hd ⊢
    rw [body_cons, hd]
    dsimp only
    rw [if_neg]
    · congr 1
      rw [← List.cons_append, List.drop_left]
    · rintro ⟨h1, h2⟩
      subst h2
      rw [← he] at h1
      revert h1
      decide

theorem body_bad {b : UInt8} {t : GoString} (h : decodeRune (b :: t) = (runeError, 1)) :
    q.body (b :: t) = 92 :: 120 :: (hexPad 2 b.toNat ++ q.body t) := by
  rw [body_cons, h]
  rfl

/-- A byte below 128 is a character by itself. -/
theorem encodeRune_byte {b : UInt8} (h : b.toNat < 128) : encodeRune b.toNat = [b] := by
  rw [encodeRune_ascii h, UInt8.ofNat_toNat]

theorem scalar_small {r : Nat} (h : r < 0xD800) : IsScalar r := ⟨by omega, by omega⟩

theorem body_byte {b : UInt8} (h : b.toNat < 128) (t : GoString) : q.body (b :: t) = q.rune b.toNat ++ q.body t := by
  have := body_rune (q := q) (r := b.toNat) (scalar_small (by omega)) t
  rwa [encodeRune_byte h] at this

theorem not_char_iff {b : UInt8} {t : GoString} :
    (∀ r u, IsScalar r → b :: t ≠ encodeRune r ++ u) ↔ decodeRune (b :: t) = (runeError, 1) := by
  constructor
  · intro h
    rcases decodeRune_cases b t with ⟨r, u, hr, hu, _⟩ | ⟨h1, _⟩
    · exact absurd hu (h r u hr)
    · exact h1
  · intro h r u hr e
    rw [e, decodeRune_encodeRune hr] at h
    simp only [Prod.mk.injEq] at h
    obtain ⟨rfl, h⟩ := h
    revert h
    decide

theorem symbol_rune {b c : UInt8} (h : (b, c) ∈ quoteSymbols) : b.toNat < 128 ∧ q.rune b.toNat = [92, c] := by
  have hp : ∀ r, r < 32 → q.isPrint r = false := by
    intro r hr
    rw [← Bool.not_eq_true, isPrint_iff]
    unfold QuoteTables.Printable
    omega
  simp only [quoteSymbols, List.mem_cons, Prod.mk.injEq, List.not_mem_nil, or_false] at h
  rcases h with ⟨rfl, rfl⟩ | ⟨rfl, rfl⟩ | ⟨rfl, rfl⟩ | ⟨rfl, rfl⟩ | ⟨rfl, rfl⟩ | ⟨rfl, rfl⟩ | ⟨rfl, rfl⟩ | ⟨rfl, rfl⟩ | ⟨rfl, rfl⟩ <;>
    refine ⟨by decide, ?_⟩ <;> simp [QuoteTables.rune, hp]

theorem body_sound (s : GoString) : Quotes q s (q.body s) := by
  induction s using rune_induct with
  | nil => exact .nil
  | bad b t h h128 ih =>
    rw [body_bad h]
    exact .noCharacter (not_char_iff.2 h) (hexPad_length _ _) (hexPad_text (UInt8.toNat_lt b)) ih
  | rune r t hr ih =>
    rw [body_rune hr]
    have sym : ∀ b c : UInt8, (b, c) ∈ quoteSymbols → r = b.toNat → Quotes q (encodeRune r ++ t) (q.rune r ++ q.body t) := by
      intro b c hc hb
      obtain ⟨h1, h2⟩ := symbol_rune (q := q) hc
      rw [hb, h2, encodeRune_byte h1]
      exact .symbol hc ih
    by_cases hs : ∃ b c : UInt8, (b, c) ∈ quoteSymbols ∧ r = b.toNat
    · obtain ⟨b, c, h1, h2⟩ := hs
      exact sym b c h1 h2
    · have no : ∀ b c : UInt8, (b, c) ∈ quoteSymbols → r ≠ b.toNat := fun b c h e => hs ⟨b, c, h, e⟩
      have n1 := no 7 97 (by decide)
      have n2 := no 8 98 (by decide)
      have n3 := no 9 116 (by decide)
      have n4 := no 10 110 (by decide)
      have n5 := no 11 118 (by decide)
      have n6 := no 12 102 (by decide)
      have n7 := no 13 114 (by decide)
      have n8 := no 34 34 (by decide)
      have n9 := no 92 92 (by decide)
      change r ≠ 7 at n1
      change r ≠ 8 at n2
      change r ≠ 9 at n3
      change r ≠ 10 at n4
      change r ≠ 11 at n5
      change r ≠ 12 at n6
      change r ≠ 13 at n7
      change r ≠ 34 at n8
      change r ≠ 92 at n9
      unfold QuoteTables.rune
      rw [if_neg (by omega)]
      split
      · rename_i hp
        exact .plain hr (isPrint_iff.1 hp) n8 n9 ih
      · rename_i hp
        rw [isPrint_iff] at hp
        split
        · rename_i hc
          have hlt : r < 128 := by omega
          have hb : (UInt8.ofNat r).toNat = r := u8_toNat (by omega)
          have he : encodeRune r = [UInt8.ofNat r] := encodeRune_ascii hlt
          rw [he]
          have := Quotes.control (q := q) (b := UInt8.ofNat r) (ds := hexPad 2 r) (t := t) (o := q.body t) (by
            rw [hb]
            rcases hc with hc | hc
            · exact .inl hc
            · exact .inr ⟨UInt8.toNat_inj.1 (by rw [hb, hc.1]; rfl), hc.2⟩) (fun c h => no _ _ h hb.symm) (hexPad_length _ _) (by
              rw [hb]; exact hexPad_text (by omega)) ih
          exact this
        · rename_i hc
          have hge : 127 ≤ r := by
            unfold QuoteTables.Printable at hp
            omega
          split
          · rename_i h4
            exact .short hr hp hge (fun e => by
              have : ¬ q.shortDel = true := fun h => hc (.inr ⟨e, h⟩)
              simpa using this) h4 (hexPad_length _ _) (hexPad_text (by omega)) ih
          · rename_i h4
            exact .long hr hp (by omega) (hexPad_length _ _) (hexPad_text (by have := hr.1; omega)) ih

theorem body_iff {s o : GoString} : q.body s = o ↔ Quotes q s o := by
  constructor
  · rintro rfl
    exact body_sound s
  · intro h
    induction h with
    | nil => rfl
    | plain hr hp h1 h2 _ ih =>
      rw [body_rune hr, ih, QuoteTables.rune, if_neg (by omega), if_pos (isPrint_iff.2 hp)]
    | symbol hc _ ih =>
      obtain ⟨h1, h2⟩ := symbol_rune (q := q) hc
      rw [body_byte h1, h2, ih]
      rfl
    | @control b ds t o hb hs hl hd _ ih =>
      have h128 : b.toNat < 128 := by
        rcases hb with hb | ⟨rfl, _⟩
        · omega
        · decide
      have hp : ¬ q.Printable b.toNat := by
        unfold QuoteTables.Printable
        rcases hb with hb | ⟨rfl, _⟩
        · omega
        · simp
      have no : ∀ c d : UInt8, (c, d) ∈ quoteSymbols → b.toNat ≠ c.toNat := by
        intro c d h e
        rw [← UInt8.toNat_inj.1 e] at h
        exact hs d h
      have n1 := no 7 97 (by decide)
      have n2 := no 8 98 (by decide)
      have n3 := no 9 116 (by decide)
      have n4 := no 10 110 (by decide)
      have n5 := no 11 118 (by decide)
      have n6 := no 12 102 (by decide)
      have n7 := no 13 114 (by decide)
      have n8 := no 34 34 (by decide)
      have n9 := no 92 92 (by decide)
      change b.toNat ≠ 7 at n1
      change b.toNat ≠ 8 at n2
      change b.toNat ≠ 9 at n3
      change b.toNat ≠ 10 at n4
      change b.toNat ≠ 11 at n5
      change b.toNat ≠ 12 at n6
      change b.toNat ≠ 13 at n7
      change b.toNat ≠ 34 at n8
      change b.toNat ≠ 92 at n9
      rw [hexText_iff, hl] at hd
      rw [body_byte h128, ih, QuoteTables.rune, if_neg (fun h => h.elim n8 n9), if_neg (by rw [isPrint_iff]; exact hp),
        if_neg n1, if_neg n2, if_neg n6, if_neg n4, if_neg n7, if_neg n3, if_neg n5, if_pos (by
          rcases hb with hb | ⟨rfl, h⟩
          · exact .inl hb
          · exact .inr ⟨rfl, h⟩), ← hd.2]
      rfl
    | noCharacter hb hl hd _ ih =>
      rw [hexText_iff, hl] at hd
      rw [body_bad (not_char_iff.1 hb), ih, ← hd.2]
    | @short r ds t o hr hp h1 h2 h3 hl hd _ ih =>
      rw [hexText_iff, hl] at hd
      rw [body_rune hr, ih, QuoteTables.rune, if_neg (by omega), if_neg (by rw [isPrint_iff]; exact hp), if_neg (by omega), if_neg (by omega),
        if_neg (by omega), if_neg (by omega), if_neg (by omega), if_neg (by omega), if_neg (by omega), if_neg (by
          rintro (h | ⟨h, h'⟩)
          · omega
          · rw [h2 h] at h'; cases h'), if_pos h3, ← hd.2]
      rfl
    | @long r ds t o hr hp h1 hl hd _ ih =>
      rw [hexText_iff, hl] at hd
      rw [body_rune hr, ih, QuoteTables.rune, if_neg (by omega), if_neg (by rw [isPrint_iff]; exact hp), if_neg (by omega), if_neg (by omega),
        if_neg (by omega), if_neg (by omega), if_neg (by omega), if_neg (by omega), if_neg (by omega), if_neg (by omega), if_neg (by omega),
        ← hd.2]
      rfl

/-! ## Reading it back -/

theorem hexText_vals {ds : GoString} {n : Nat} (h : HexText ds n) :
    ∃ xs, ds.mapM hexVal = some xs ∧ xs.length = ds.length ∧ xs.foldl (fun n x => 16 * n + x) 0 = n := by
  obtain ⟨xs, h1, rfl, h3⟩ := h
  refine ⟨xs, ?_, by simp, h3⟩
  clear h3
  induction xs with
  | nil => rfl
  | cons x xs ih =>
    have hx := h1 x (by simp)
    rw [List.map_cons, List.mapM_cons, ← hexDigit_eq hx, hexVal_of_digit hx, ih fun y hy => h1 y (by simp [hy])]
    rfl

theorem quotes_unquotes {s o : GoString} (h : Quotes q s o) : Tag.Unquotes o s := by
  induction h with
  | nil => exact .nil
  | @plain r t o hr hp h1 h2 _ ih =>
    by_cases h128 : r < 128
    · have hb : (UInt8.ofNat r).toNat = r := u8_toNat (by omega)
      rw [encodeRune_ascii h128]
      refine .ascii (by rw [hb]; exact h128) ?_ ?_ ?_ ih
      · intro e; rw [e] at hb; exact h1 hb.symm
      · intro e; rw [e] at hb
        unfold QuoteTables.Printable at hp
        have : (10 : UInt8).toNat = 10 := rfl
        omega
      · intro e; rw [e] at hb; exact h2 hb.symm
    · have hd := decodeRune_encodeRune hr o
      cases he : encodeRune r with
      | nil => exact absurd he (encodeRune_ne_nil r)
      | cons b u =>
        have hb : 128 ≤ b.toNat := by
          by_cases hlt : b.toNat < 128
          · exfalso
            rw [he, List.cons_append] at hd
            unfold decodeRune at hd
            dsimp only at hd
            rw [if_pos hlt] at hd
            simp only [Prod.mk.injEq] at hd
            omega
          · omega
        rw [he] at hd
        rw [List.cons_append] at hd
        have := Tag.Unquotes.other (b := b) (t := u ++ o) (v := t) hb (by
          rw [hd]
          dsimp only
          rw [← List.cons_append, List.drop_left]
          exact ih)
        rw [hd] at this
        dsimp only at this
        rw [he] at this
        exact this
  | @symbol b c t o hc _ ih =>
    refine Tag.Unquotes.escape (e := [c]) (x := [b]) (.symbol ?_) ih
    simp only [quoteSymbols, List.mem_cons, Prod.mk.injEq, List.not_mem_nil, or_false] at hc
    rcases hc with ⟨rfl, rfl⟩ | ⟨rfl, rfl⟩ | ⟨rfl, rfl⟩ | ⟨rfl, rfl⟩ | ⟨rfl, rfl⟩ | ⟨rfl, rfl⟩ | ⟨rfl, rfl⟩ | ⟨rfl, rfl⟩ | ⟨rfl, rfl⟩ <;>
      decide
  | @control b ds t o hb hs hl hd _ ih =>
    obtain ⟨xs, h1, h2, h3⟩ := hexText_vals hd
    match ds, hl, xs, h2, h1, h3 with
    | [a, c], _, [x, y], _, h1, h3 =>
      have h := Tag.Unquotes.escape (e := [120, a, c]) (x := [UInt8.ofNat (16 * x + y)]) (.byte (byte_vals h1).1 (byte_vals h1).2) ih
      have e : UInt8.ofNat (16 * x + y) = b := u8_ofNat (by simpa using h3)
      rw [e] at h
      exact h
  | @noCharacter b ds t o hb hl hd _ ih =>
    obtain ⟨xs, h1, h2, h3⟩ := hexText_vals hd
    match ds, hl, xs, h2, h1, h3 with
    | [a, c], _, [x, y], _, h1, h3 =>
      have h := Tag.Unquotes.escape (e := [120, a, c]) (x := [UInt8.ofNat (16 * x + y)]) (.byte (byte_vals h1).1 (byte_vals h1).2) ih
      have e : UInt8.ofNat (16 * x + y) = b := u8_ofNat (by simpa using h3)
      rw [e] at h
      exact h
  | @short r ds t o hr hp h1 h2 h3 hl hd _ ih =>
    obtain ⟨xs, x1, x2, x3⟩ := hexText_vals hd
    have := Tag.Unquotes.escape (.short hl x1 (by rw [x3]; exact hr.2)) ih
    rw [x3] at this
    exact this
  | @long r ds t o hr hp h1 hl hd _ ih =>
    obtain ⟨xs, x1, x2, x3⟩ := hexText_vals hd
    have := Tag.Unquotes.escape (.long hl x1 (by rw [x3]; exact hr.2) (by rw [x3]; exact hr.1)) ih
    rw [x3] at this
    exact this
where
  byte_vals {a c : UInt8} {x y : Nat} (h : [a, c].mapM hexVal = some [x, y]) : hexVal a = some x ∧ hexVal c = some y := by
    simp only [List.mapM_cons, List.mapM_nil] at h
    cases ha : hexVal a with
    | none => rw [ha] at h; cases h
    | some x' =>
      cases hc : hexVal c with
      | none => rw [ha, hc] at h; cases h
      | some y' =>
        rw [ha, hc] at h
        simpa using h

end GoIdentity
