import Verif.Lemmas.JsonText
/-!
# Reading more text than needed: a value that has been read completely is read the same if more text follows
-/
namespace GoIdentity

theorem hex4_ext {t t' : GoString} {r : Nat} (h : hex4 t = some (r, t')) (q : GoString) :
    hex4 (t ++ q) = some (r, t' ++ q) ∧ t' <:+ t := by
  match t with
  | a :: b :: c :: d :: u =>
    simp only [hex4, List.cons_append] at h ⊢
    split at h
    · simp only [Option.some.injEq, Prod.mk.injEq] at h
      obtain ⟨rfl, rfl⟩ := h
      simp only [true_and]
      exact ⟨[a, b, c, d], rfl⟩
    · simp at h
  | [] => simp [hex4] at h
  | [_] => simp [hex4] at h
  | [_, _] => simp [hex4] at h
  | [_, _, _] => simp [hex4] at h

theorem lowSurrogate_suffix {t t' : GoString} {r : Nat} (h : lowSurrogate t = some (r, t')) : t' <:+ t := by
  unfold lowSurrogate at h
  split at h
  · rename_i a b u
    split at h
    · split at h
      · rename_i r1 u1 hx
        split at h
        · simp only [Option.some.injEq, Prod.mk.injEq] at h
          obtain ⟨rfl, rfl⟩ := h
          exact List.IsSuffix.trans (hex4_ext hx []).2 ⟨[a, b], rfl⟩
        · simp at h
      · simp at h
    · simp at h
  · simp at h

theorem parseEsc_suffix {t t' bs : GoString} (h : parseEsc t = some (bs, t')) : t' <:+ t := by
  match t with
  | [] => simp [parseEsc] at h
  | c :: u =>
    have hu : u <:+ c :: u := ⟨[c], rfl⟩
    rw [parseEsc] at h
    iterate 6
      split at h
      · simp only [Option.some.injEq, Prod.mk.injEq] at h; obtain ⟨_, rfl⟩ := h; exact hu
    split at h
    · split at h
      · simp at h
      · rename_i r u1 hx
        have hs := (hex4_ext hx []).2
        split at h
        · split at h
          · rename_i r1 u2 hl
            simp only [Option.some.injEq, Prod.mk.injEq] at h
            obtain ⟨_, rfl⟩ := h
            split at hl
            · exact (lowSurrogate_suffix hl).trans (hs.trans hu)
            · simp at hl
          · simp only [Option.some.injEq, Prod.mk.injEq] at h
            obtain ⟨_, rfl⟩ := h
            exact hs.trans hu
        · simp only [Option.some.injEq, Prod.mk.injEq] at h
          obtain ⟨_, rfl⟩ := h
          exact hs.trans hu
    · simp at h

/-- A string literal that is read completely contains its closing quote. -/
theorem quote_mem {n : Nat} {t s r : GoString} (h : parseStr n t = some (s, r)) : (34 : UInt8) ∈ t := by
  induction n generalizing t s r with
  | zero => simp [parseStr] at h
  | succ n ih =>
    match t with
    | [] => simp [parseStr] at h
    | b :: t =>
      rw [parseStr] at h
      split at h
      · rename_i hb; simp [hb]
      · split at h
        · split at h
          · simp at h
          · rename_i bs t' he
            split at h
            · simp at h
            · rename_i s' r' hp
              exact List.mem_cons_of_mem _ ((parseEsc_suffix he).subset (ih hp))
        · split at h
          · simp at h
          · dsimp only at h
            split at h
            · simp at h
            · rename_i s' r' hp
              exact (List.drop_suffix _ _).subset (ih hp)

theorem lowSurrogate_ext {n : Nat} {t s r : GoString} (h : parseStr n t = some (s, r)) (q : GoString) :
    lowSurrogate (t ++ q) = (lowSurrogate t).map fun p => (p.1, p.2 ++ q) := by
  match t with
  | [] => have := quote_mem h; simp at this
  | [a] =>
    have := quote_mem h
    simp only [List.mem_singleton] at this
    subst this
    cases q with
    | nil => rfl
    | cons b q => simp [lowSurrogate]
  | a :: b :: u =>
    simp only [lowSurrogate, List.cons_append]
    by_cases hab : a = 92 ∧ b = 117
    · rw [if_pos hab, if_pos hab]
      obtain ⟨rfl, rfl⟩ := hab
      have hx : ∃ p, hex4 u = some p := by
        cases n with
        | zero => simp [parseStr] at h
        | succ n =>
          rw [parseStr] at h
          simp only [show ¬ ((92 : UInt8) = 34) by decide, if_false, if_true, parseEsc] at h
          cases hu : hex4 u with
          | none => simp [hu] at h
          | some p => exact ⟨p, rfl⟩
      obtain ⟨⟨r, u'⟩, hx⟩ := hx
      rw [hx, (hex4_ext hx q).1]
      dsimp only
      split <;> rfl
    · rw [if_neg hab, if_neg hab]; rfl

theorem parseEsc_ext {n : Nat} {t t' bs s r : GoString} (h : parseEsc t = some (bs, t')) (hp : parseStr n t' = some (s, r))
    (q : GoString) : parseEsc (t ++ q) = some (bs, t' ++ q) := by
  match t with
  | [] => simp [parseEsc] at h
  | c :: u =>
    rw [List.cons_append]
    rw [parseEsc] at h ⊢
    by_cases c1 : c = 34 ∨ c = 92 ∨ c = 47
    · rw [if_pos c1] at h ⊢
      simp only [Option.some.injEq, Prod.mk.injEq] at h
      simp [h.1, ← h.2]
    rw [if_neg c1] at h ⊢
    by_cases c2 : c = 98
    · rw [if_pos c2] at h ⊢
      simp only [Option.some.injEq, Prod.mk.injEq] at h
      simp [h.1, ← h.2]
    rw [if_neg c2] at h ⊢
    by_cases c3 : c = 102
    · rw [if_pos c3] at h ⊢
      simp only [Option.some.injEq, Prod.mk.injEq] at h
      simp [h.1, ← h.2]
    rw [if_neg c3] at h ⊢
    by_cases c4 : c = 110
    · rw [if_pos c4] at h ⊢
      simp only [Option.some.injEq, Prod.mk.injEq] at h
      simp [h.1, ← h.2]
    rw [if_neg c4] at h ⊢
    by_cases c5 : c = 114
    · rw [if_pos c5] at h ⊢
      simp only [Option.some.injEq, Prod.mk.injEq] at h
      simp [h.1, ← h.2]
    rw [if_neg c5] at h ⊢
    by_cases c6 : c = 116
    · rw [if_pos c6] at h ⊢
      simp only [Option.some.injEq, Prod.mk.injEq] at h
      simp [h.1, ← h.2]
    rw [if_neg c6] at h ⊢
    by_cases c7 : c = 117
    · rw [if_pos c7] at h ⊢
      cases hx : hex4 u with
      | none => simp [hx] at h
      | some p =>
        obtain ⟨x, u1⟩ := p
        rw [hx] at h
        rw [(hex4_ext hx q).1]
        dsimp only at h ⊢
        by_cases c8 : 0xD800 ≤ x ∧ x ≤ 0xDFFF
        · rw [if_pos c8] at h ⊢
          by_cases c9 : x ≤ 0xDBFF
          · rw [if_pos c9] at h ⊢
            cases hl : lowSurrogate u1 with
            | none =>
              rw [hl] at h
              simp only [Option.some.injEq, Prod.mk.injEq] at h
              obtain ⟨rfl, rfl⟩ := h
              rw [lowSurrogate_ext hp, hl]
              rfl
            | some p =>
              obtain ⟨y, u2⟩ := p
              rw [hl] at h
              simp only [Option.some.injEq, Prod.mk.injEq] at h
              obtain ⟨rfl, rfl⟩ := h
              have : lowSurrogate (u1 ++ q) = some (y, u2 ++ q) := by
                unfold lowSurrogate at hl
                split at hl
                · rename_i a b v
                  split at hl
                  · rename_i hab
                    split at hl
                    · rename_i r1 v1 hv
                      split at hl
                      · rename_i hr
                        simp only [Option.some.injEq, Prod.mk.injEq] at hl
                        obtain ⟨rfl, rfl⟩ := hl
                        simp only [lowSurrogate, List.cons_append, if_pos hab, (hex4_ext hv q).1, if_pos hr]
                      · simp at hl
                    · simp at hl
                  · simp at hl
                · simp at hl
              rw [this]
          · rw [if_neg c9] at h ⊢
            simp only [Option.some.injEq, Prod.mk.injEq] at h
            simp [h.1, ← h.2]
        · rw [if_neg c8] at h ⊢
          simp only [Option.some.injEq, Prod.mk.injEq] at h
          simp [h.1, ← h.2]
    · rw [if_neg c7] at h; simp at h

theorem encodeRune_high {r : Nat} (h : 128 ≤ r) : ∀ b ∈ encodeRune r, 128 ≤ b.toNat := by
  intro b hb
  unfold encodeRune at hb
  rw [if_neg (by omega)] at hb
  split at hb
  · simp only [List.mem_cons, List.not_mem_nil, or_false] at hb
    rcases hb with rfl | rfl <;> (rw [u8_toNat (by omega)]; omega)
  · split at hb
    · simp only [List.mem_cons, List.not_mem_nil, or_false] at hb
      rcases hb with rfl | rfl | rfl <;> decide
    · split at hb
      · simp only [List.mem_cons, List.not_mem_nil, or_false] at hb
        rcases hb with rfl | rfl | rfl <;> (rw [u8_toNat (by omega)]; omega)
      · simp only [List.mem_cons, List.not_mem_nil, or_false] at hb
        rcases hb with rfl | rfl | rfl | rfl <;> (rw [u8_toNat (by omega)]; omega)

/-- Text after an ASCII byte does not change how a byte before it is decoded. -/
theorem decodeRune_ext {b c : UInt8} {t : GoString} (hc : c ∈ t) (hc' : c.toNat < 128) (q : GoString) :
    decodeRune (b :: (t ++ q)) = decodeRune (b :: t) := by
  rcases decodeRune_cases b t with ⟨r, u, hr, hu, hd⟩ | ⟨hd, h128⟩
  · rw [hd, ← List.cons_append, hu, List.append_assoc, decodeRune_encodeRune hr]
  · rw [hd]
    rcases decodeRune_cases b (t ++ q) with ⟨r, u, hr, hu, hd'⟩ | ⟨hd', _⟩
    · exfalso
      rw [← List.cons_append] at hu
      rcases List.append_eq_append_iff.1 hu with ⟨w, hw, _⟩ | ⟨w, hw, _⟩
      · -- the encoding extends beyond `t`
        have h128r : 128 ≤ r := by
          apply Nat.le_of_not_lt
          intro hlt
          rw [encodeRune_ascii hlt] at hw
          simp only [List.cons_append, List.cons.injEq] at hw
          have h2 := congrArg List.length hw.2
          have h3 := List.length_pos_of_mem hc
          simp at h2
          omega
        have := encodeRune_high h128r c (by rw [hw]; simp [hc])
        omega
      · have := decodeRune_encodeRune hr w
        rw [← hw, hd] at this
        simp only [Prod.mk.injEq] at this
        rw [← this.1] at this
        exact absurd this.2 (by decide)
    · exact hd'

theorem parseStr_ext {n n' : Nat} {t s r : GoString} (h : parseStr n t = some (s, r)) (hn : n ≤ n') (q : GoString) :
    parseStr n' (t ++ q) = some (s, r ++ q) := by
  induction n generalizing n' t s r with
  | zero => simp [parseStr] at h
  | succ n ih =>
    obtain ⟨n', rfl⟩ : ∃ m, n' = m + 1 := ⟨n' - 1, by omega⟩
    match t with
    | [] => simp [parseStr] at h
    | b :: t =>
      rw [List.cons_append]
      rw [parseStr] at h ⊢
      by_cases c1 : b = 34
      · rw [if_pos c1] at h ⊢
        simp only [Option.some.injEq, Prod.mk.injEq] at h
        simp [← h.1, ← h.2]
      rw [if_neg c1] at h ⊢
      by_cases c2 : b = 92
      · rw [if_pos c2] at h ⊢
        cases he : parseEsc t with
        | none => simp [he] at h
        | some p =>
          obtain ⟨bs, t'⟩ := p
          rw [he] at h
          dsimp only at h
          cases hp : parseStr n t' with
          | none => simp [hp] at h
          | some p =>
            obtain ⟨s', r'⟩ := p
            rw [hp] at h
            simp only [Option.some.injEq, Prod.mk.injEq] at h
            obtain ⟨rfl, rfl⟩ := h
            rw [parseEsc_ext he hp q]
            dsimp only
            rw [ih hp (by omega)]
      rw [if_neg c2] at h ⊢
      by_cases c3 : b.toNat < 32
      · rw [if_pos c3] at h; simp at h
      rw [if_neg c3] at h ⊢
      dsimp only at h ⊢
      cases hp : parseStr n ((b :: t).drop (decodeRune (b :: t)).2) with
      | none => simp [hp] at h
      | some p =>
        obtain ⟨s', r'⟩ := p
        rw [hp] at h
        simp only [Option.some.injEq, Prod.mk.injEq] at h
        obtain ⟨rfl, rfl⟩ := h
        have hq := (List.drop_suffix _ _).subset (quote_mem hp)
        have hq : (34 : UInt8) ∈ t := by
          rcases List.mem_cons.1 hq with h | h
          · exact absurd h.symm c1
          · exact h
        rw [decodeRune_ext hq (by decide)]
        have hle : (decodeRune (b :: t)).2 ≤ (b :: t).length := by
          rcases decodeRune_cases b t with ⟨r, u, _, hu, hd⟩ | ⟨hd, _⟩
          · rw [hd, hu]; simp
          · rw [hd]; simp
        have : (b :: (t ++ q)).drop (decodeRune (b :: t)).2 = (b :: t).drop (decodeRune (b :: t)).2 ++ q := by
          rw [← List.cons_append, List.drop_append_of_le_length hle]
        rw [this, ih hp (by omega)]

/-! ## Numbers -/

theorem spanDigits_ext {s q : GoString} (h : (spanDigits s).2 ≠ []) :
    spanDigits (s ++ q) = ((spanDigits s).1, (spanDigits s).2 ++ q) := by
  unfold spanDigits at h ⊢
  induction s with
  | nil => simp at h
  | cons b s ih =>
    by_cases hb : isDigit b = true
    · rw [List.dropWhile_cons, if_pos hb] at h
      have := ih h
      simp only [Prod.mk.injEq] at this
      simp [hb, this.1, this.2]
    · simp [hb]

theorem parseIntPart_ext {s i r : GoString} (h : parseIntPart s = some (i, r)) (hr : r ≠ []) (q : GoString) :
    parseIntPart (s ++ q) = some (i, r ++ q) := by
  match s with
  | [] => simp [parseIntPart] at h
  | b :: t =>
    rw [List.cons_append]
    rw [parseIntPart] at h ⊢
    split at h
    · rename_i hb
      simp only [Option.some.injEq, Prod.mk.injEq] at h
      rw [if_pos hb]; simp [h.1, ← h.2]
    · rename_i hb
      rw [if_neg hb]
      split at h
      · rename_i hd
        rw [if_pos hd]
        simp only [Option.some.injEq] at h
        rw [← List.cons_append, spanDigits_ext (by rw [h]; exact hr), h]
      · simp at h

theorem parseFrac_ext {s f r : GoString} (h : parseFrac s = some (f, r)) (hr : r ≠ []) (q : GoString) :
    parseFrac (s ++ q) = some (f, r ++ q) ∧ s ≠ [] := by
  match s with
  | [] => simp only [parseFrac, Option.some.injEq, Prod.mk.injEq] at h; exact absurd h.2.symm hr
  | b :: t =>
    refine ⟨?_, by simp⟩
    rw [List.cons_append]
    rw [parseFrac] at h ⊢
    split at h
    · rename_i hb
      rw [if_pos hb]
      dsimp only at h ⊢
      split at h
      · simp at h
      · rename_i hne
        simp only [Option.some.injEq, Prod.mk.injEq] at h
        rw [spanDigits_ext (by rw [h.2]; exact hr), if_neg hne]
        simp [h.1, h.2]
    · rename_i hb
      simp only [Option.some.injEq, Prod.mk.injEq] at h
      rw [if_neg hb]; simp [← h.1, ← h.2]

theorem parseExp_ext {s f r : GoString} (h : parseExp s = some (f, r)) (hr : r ≠ []) (q : GoString) :
    parseExp (s ++ q) = some (f, r ++ q) ∧ s ≠ [] := by
  match s with
  | [] => simp only [parseExp, Option.some.injEq, Prod.mk.injEq] at h; exact absurd h.2.symm hr
  | b :: t =>
    refine ⟨?_, by simp⟩
    rw [List.cons_append]
    unfold parseExp at h ⊢
    dsimp only at h ⊢
    split at h
    · rename_i hb
      rw [if_pos hb]
      match t with
      | [] => simp at h
      | c :: t' =>
        rw [List.cons_append]
        dsimp only at h ⊢
        split at h
        · rename_i hc
          rw [if_pos hc]
          split at h
          · simp at h
          · rename_i hne
            simp only [Option.some.injEq, Prod.mk.injEq] at h
            rw [spanDigits_ext (by rw [h.2]; exact hr), if_neg hne]
            simp [h.1, h.2]
        · rename_i hc
          rw [if_neg hc]
          split at h
          · simp at h
          · rename_i hne
            simp only [Option.some.injEq, Prod.mk.injEq] at h
            rw [← List.cons_append, spanDigits_ext (by rw [h.2]; exact hr), if_neg hne]
            simp [h.1, h.2]
    · rename_i hb
      simp only [Option.some.injEq, Prod.mk.injEq] at h
      rw [if_neg hb]; simp [← h.1, ← h.2]

theorem parseUNum_ext {s l r : GoString} (h : parseUNum s = some (l, r)) (hr : r ≠ []) (q : GoString) :
    parseUNum (s ++ q) = some (l, r ++ q) := by
  unfold parseUNum at h
  split at h
  · simp at h
  · rename_i i r1 h1
    split at h
    · simp at h
    · rename_i f r2 h2
      split at h
      · simp at h
      · rename_i e r3 h3
        simp only [Option.some.injEq, Prod.mk.injEq] at h
        obtain ⟨rfl, rfl⟩ := h
        obtain ⟨h3', hr2⟩ := parseExp_ext h3 hr q
        obtain ⟨h2', hr1⟩ := parseFrac_ext h2 hr2 q
        unfold parseUNum
        rw [parseIntPart_ext h1 hr1 q]
        simp only [h2', h3']

theorem parseNum_ext {s l r : GoString} (h : parseNum s = some (l, r)) (hr : r ≠ []) (q : GoString) :
    parseNum (s ++ q) = some (l, r ++ q) := by
  match s with
  | [] => simp [parseNum] at h
  | b :: t =>
    rw [List.cons_append]
    rw [parseNum] at h ⊢
    split at h
    · rename_i hb
      rw [if_pos hb]
      split at h
      · simp at h
      · rename_i l' r' h'
        simp only [Option.some.injEq, Prod.mk.injEq] at h
        obtain ⟨rfl, rfl⟩ := h
        rw [parseUNum_ext h' hr q]
    · rename_i hb
      rw [if_neg hb, ← List.cons_append, parseUNum_ext h hr q]

/-! ## Values -/

theorem skipWs_ext {s : GoString} {c : UInt8} {t : GoString} (h : skipWs s = c :: t) (q : GoString) :
    skipWs (s ++ q) = c :: (t ++ q) := by
  unfold skipWs at h ⊢
  induction s with
  | nil => simp at h
  | cons b s ih =>
    rw [List.cons_append]
    rw [List.dropWhile_cons] at h ⊢
    split at h
    · rename_i hb; rw [if_pos hb]; exact ih h
    · rename_i hb
      rw [if_neg hb]
      simp only [List.cons.injEq] at h
      simp [h.1, h.2]

/-- Is the value a number? -/
def Json.isNum : Json → Bool
  | .num _ => true
  | _ => false

theorem parse_ext (n : Nat) :
    (∀ s v r n' q, parseValue n s = some (v, r) → n ≤ n' → (r ≠ [] ∨ v.isNum = false) →
      parseValue n' (s ++ q) = some (v, r ++ q)) ∧
    (∀ s vs r n' q, parseElems n s = some (vs, r) → n ≤ n' → parseElems n' (s ++ q) = some (vs, r ++ q)) ∧
    (∀ s m r n' q, parseMembers n s = some (m, r) → n ≤ n' → parseMembers n' (s ++ q) = some (m, r ++ q)) := by
  induction n with
  | zero => simp [parseValue, parseElems, parseMembers]
  | succ n ih =>
    obtain ⟨ihv, ihe, ihm⟩ := ih
    refine ⟨?_, ?_, ?_⟩
    · intro s v r n' q h hn hend
      obtain ⟨n', rfl⟩ : ∃ m, n' = m + 1 := ⟨n' - 1, by omega⟩
      rw [parseValue] at h
      cases hs : skipWs s with
      | nil => simp [hs] at h
      | cons b t =>
        rw [hs] at h
        rw [parseValue, skipWs_ext hs]
        dsimp only at h ⊢
        by_cases c1 : b = 123
        · rw [if_pos c1] at h ⊢
          cases ht : skipWs t with
          | nil => simp [ht] at h
          | cons c t' =>
            rw [ht] at h
            rw [skipWs_ext ht]
            dsimp only at h ⊢
            by_cases c2 : c = 125
            · rw [if_pos c2] at h ⊢
              simp only [Option.some.injEq, Prod.mk.injEq] at h
              simp [← h.1, ← h.2]
            · rw [if_neg c2] at h ⊢
              cases hm : parseMembers n (c :: t') with
              | none => simp [hm] at h
              | some p =>
                obtain ⟨m, r'⟩ := p
                rw [hm] at h
                simp only [Option.some.injEq, Prod.mk.injEq] at h
                obtain ⟨rfl, rfl⟩ := h
                rw [← List.cons_append, ihm _ _ _ _ q hm (by omega : n ≤ n')]
        rw [if_neg c1] at h ⊢
        by_cases c2 : b = 91
        · rw [if_pos c2] at h ⊢
          cases ht : skipWs t with
          | nil => simp [ht] at h
          | cons c t' =>
            rw [ht] at h
            rw [skipWs_ext ht]
            dsimp only at h ⊢
            by_cases c2 : c = 93
            · rw [if_pos c2] at h ⊢
              simp only [Option.some.injEq, Prod.mk.injEq] at h
              simp [← h.1, ← h.2]
            · rw [if_neg c2] at h ⊢
              cases hm : parseElems n (c :: t') with
              | none => simp [hm] at h
              | some p =>
                obtain ⟨m, r'⟩ := p
                rw [hm] at h
                simp only [Option.some.injEq, Prod.mk.injEq] at h
                obtain ⟨rfl, rfl⟩ := h
                rw [← List.cons_append, ihe _ _ _ _ q hm (by omega : n ≤ n')]
        rw [if_neg c2] at h ⊢
        by_cases c3 : b = 34
        · rw [if_pos c3] at h ⊢
          cases hm : parseStr n t with
          | none => simp [hm] at h
          | some p =>
            obtain ⟨m, r'⟩ := p
            rw [hm] at h
            simp only [Option.some.injEq, Prod.mk.injEq] at h
            obtain ⟨rfl, rfl⟩ := h
            rw [parseStr_ext hm (by omega : n ≤ n')]
        rw [if_neg c3] at h ⊢
        by_cases c4 : b = 110
        · rw [if_pos c4] at h ⊢
          split at h
          · simp only [Option.some.injEq, Prod.mk.injEq] at h
            obtain ⟨rfl, rfl⟩ := h
            rfl
          · simp at h
        rw [if_neg c4] at h ⊢
        by_cases c5 : b = 116
        · rw [if_pos c5] at h ⊢
          split at h
          · simp only [Option.some.injEq, Prod.mk.injEq] at h
            obtain ⟨rfl, rfl⟩ := h
            rfl
          · simp at h
        rw [if_neg c5] at h ⊢
        by_cases c6 : b = 102
        · rw [if_pos c6] at h ⊢
          split at h
          · simp only [Option.some.injEq, Prod.mk.injEq] at h
            obtain ⟨rfl, rfl⟩ := h
            rfl
          · simp at h
        rw [if_neg c6] at h ⊢
        cases hm : parseNum (b :: t) with
        | none => simp [hm] at h
        | some p =>
          obtain ⟨m, r'⟩ := p
          rw [hm] at h
          simp only [Option.some.injEq, Prod.mk.injEq] at h
          obtain ⟨rfl, rfl⟩ := h
          have hne : r' ≠ [] := by
            rcases hend with h | h
            · exact h
            · simp [Json.isNum] at h
          rw [← List.cons_append, parseNum_ext hm hne q]
    · intro s vs r n' q h hn
      obtain ⟨n', rfl⟩ : ∃ m, n' = m + 1 := ⟨n' - 1, by omega⟩
      rw [parseElems] at h ⊢
      cases hv : parseValue n s with
      | none => simp [hv] at h
      | some p =>
        obtain ⟨v, r1⟩ := p
        rw [hv] at h
        dsimp only at h
        cases hs : skipWs r1 with
        | nil => simp [hs] at h
        | cons c r2 =>
          rw [hs] at h
          dsimp only at h
          have hne : r1 ≠ [] := by rintro rfl; simp [skipWs] at hs
          rw [ihv _ _ _ _ q hv (by omega : n ≤ n') (.inl hne)]
          dsimp only
          rw [skipWs_ext hs]
          dsimp only
          by_cases c1 : c = 44
          · rw [if_pos c1] at h ⊢
            cases he : parseElems n r2 with
            | none => simp [he] at h
            | some p =>
              obtain ⟨vs', r3⟩ := p
              rw [he] at h
              simp only [Option.some.injEq, Prod.mk.injEq] at h
              obtain ⟨rfl, rfl⟩ := h
              rw [ihe _ _ _ _ q he (by omega : n ≤ n')]
          · rw [if_neg c1] at h ⊢
            by_cases c2 : c = 93
            · rw [if_pos c2] at h ⊢
              simp only [Option.some.injEq, Prod.mk.injEq] at h
              simp [← h.1, ← h.2]
            · rw [if_neg c2] at h; simp at h
    · intro s m r n' q h hn
      obtain ⟨n', rfl⟩ : ∃ m, n' = m + 1 := ⟨n' - 1, by omega⟩
      rw [parseMembers] at h ⊢
      cases hs : skipWs s with
      | nil => simp [hs] at h
      | cons b t =>
        rw [hs] at h
        rw [skipWs_ext hs]
        dsimp only at h ⊢
        by_cases c0 : b = 34
        · rw [if_pos c0] at h ⊢
          cases hk : parseStr n t with
          | none => simp [hk] at h
          | some p =>
            obtain ⟨k, r1⟩ := p
            rw [hk] at h
            rw [parseStr_ext hk (by omega : n ≤ n')]
            dsimp only at h ⊢
            cases hc : skipWs r1 with
            | nil => simp [hc] at h
            | cons c r2 =>
              rw [hc] at h
              rw [skipWs_ext hc]
              dsimp only at h ⊢
              by_cases c1 : c = 58
              · rw [if_pos c1] at h ⊢
                cases hv : parseValue n r2 with
                | none => simp [hv] at h
                | some p =>
                  obtain ⟨v, r3⟩ := p
                  rw [hv] at h
                  dsimp only at h
                  cases hs : skipWs r3 with
                  | nil => simp [hs] at h
                  | cons c r4 =>
                    rw [hs] at h
                    dsimp only at h
                    have hne : r3 ≠ [] := by rintro rfl; simp [skipWs] at hs
                    rw [ihv _ _ _ _ q hv (by omega : n ≤ n') (.inl hne)]
                    dsimp only
                    rw [skipWs_ext hs]
                    dsimp only
                    by_cases c1 : c = 44
                    · rw [if_pos c1] at h ⊢
                      cases he : parseMembers n r4 with
                      | none => simp [he] at h
                      | some p =>
                        obtain ⟨vs', r5⟩ := p
                        rw [he] at h
                        simp only [Option.some.injEq, Prod.mk.injEq] at h
                        obtain ⟨rfl, rfl⟩ := h
                        rw [ihm _ _ _ _ q he (by omega : n ≤ n')]
                    · rw [if_neg c1] at h ⊢
                      by_cases c2 : c = 125
                      · rw [if_pos c2] at h ⊢
                        simp only [Option.some.injEq, Prod.mk.injEq] at h
                        simp [← h.1, ← h.2]
                      · rw [if_neg c2] at h; simp at h
              · rw [if_neg c1] at h; simp at h
        · rw [if_neg c0] at h; simp at h

/-- What starts with an opening brace is read as an object. -/
theorem parseValue_brace {n : Nat} {t r : GoString} {v : Json} (h : parseValue n (123 :: t) = some (v, r)) : v.isNum = false := by
  cases n with
  | zero => simp [parseValue] at h
  | succ n =>
    rw [parseValue, skipWs_cons (by decide)] at h
    dsimp only at h
    rw [if_pos rfl] at h
    split at h
    · simp at h
    · split at h
      · simp only [Option.some.injEq, Prod.mk.injEq] at h; rw [← h.1]; rfl
      · split at h
        · simp at h
        · simp only [Option.some.injEq, Prod.mk.injEq] at h; rw [← h.1]; rfl

/-- No strict prefix of a printed object is a document. -/
theorem parseText_strict_prefix {m : List (GoString × Json)} (h : (Json.obj m).IntNums) {p q : GoString}
    (he : render 0 (.obj m) = p ++ q) (hq : q ≠ []) : parseText p = none := by
  cases hd : parseValue (2 * p.length + 2) p with
  | none => simp [parseText, hd]
  | some x =>
    obtain ⟨v, r⟩ := x
    exfalso
    have hv : v.isNum = false := by
      cases p with
      | nil => simp [parseValue, skipWs] at hd
      | cons b p =>
        have hb : b = 123 := by
          match m with
          | [] => rw [render] at he; simp at he; exact he.1.symm
          | (k, w) :: m => rw [render] at he; simp at he; exact he.1.symm
        subst hb
        exact parseValue_brace hd
    have hfull := parse_render (.obj m) h (d := 0) (n := 2 * (render 0 (.obj m)).length + 2) (by omega) (rest := [])
      (by intro b t h; simp at h)
    rw [List.append_nil] at hfull
    have := (parse_ext _).1 p v r (2 * (render 0 (.obj m)).length + 2) q hd (by rw [he]; simp; omega) (.inr hv)
    rw [← he, hfull] at this
    simp only [Option.some.injEq, Prod.mk.injEq] at this
    have := congrArg List.length this.2
    simp only [List.length_nil, List.length_append] at this
    exact hq (List.length_eq_zero_iff.1 (by omega))

theorem parseDoc_strict_prefix {m : List (GoString × Json)} (h : (Json.obj m).IntNums) {p q : GoString}
    (he : render 0 (.obj m) = p ++ q) (hq : q ≠ []) : parseDoc p = none := by
  unfold parseDoc
  rw [parseText_strict_prefix h he hq]

end GoIdentity
