import Verif.Spec.JsonGrammar
import Verif.Lemmas.JsonPrefix
/-!
# The JSON parser accepts exactly the grammar
-/
namespace GoIdentity.JsonGrammar
open GoIdentity

/-! ## White space -/

theorem isWs_iff {b : UInt8} : isWs b = true ↔ b = 0x20 ∨ b = 0x09 ∨ b = 0x0A ∨ b = 0x0D := by
  simp [isWs, or_assoc]

theorem ws_iff {w : GoString} : Ws w ↔ AllWs w := by
  simp only [Ws, AllWs, isWs_iff]

theorem mem_takeWhile {p : UInt8 → Bool} {s : GoString} {b : UInt8} (h : b ∈ s.takeWhile p) : p b = true := by
  induction s with
  | nil => simp at h
  | cons c s ih =>
    rw [List.takeWhile_cons] at h
    split at h
    · rename_i hc
      rcases List.mem_cons.1 h with rfl | h
      · exact hc
      · exact ih h
    · simp at h

theorem skipWs_split (s : GoString) : ∃ w, Ws w ∧ s = w ++ skipWs s := by
  refine ⟨s.takeWhile isWs, ?_, ?_⟩
  · rw [ws_iff]; intro b hb; exact (mem_takeWhile hb)
  · exact (List.takeWhile_append_dropWhile).symm

theorem skipWs_nil {s : GoString} (h : skipWs s = []) : Ws s := by
  obtain ⟨w, hw, he⟩ := skipWs_split s
  rw [h, List.append_nil] at he
  rw [he]; exact hw

theorem ws_skip {w : GoString} (h : Ws w) : skipWs w = [] := by
  have := skipWs_append (ws_iff.1 h) []
  rw [List.append_nil] at this
  rw [this]; rfl

theorem ws_nil : Ws [] := by intro b hb; simp at hb

/-! ## Numbers -/

theorem digit_iff {b : UInt8} : isDigit b = true ↔ 0x30 ≤ b ∧ b ≤ 0x39 := by
  simp [isDigit, UInt8.le_iff_toNat_le]

theorem isDigit_of {b : UInt8} (h : 0x30 ≤ b ∧ b ≤ 0x39) : IsDigit b := isDigit_iff.1 (digit_iff.2 h)

theorem digits_iff {ds : GoString} : Digits ds ↔ ds ≠ [] ∧ ∀ b ∈ ds, IsDigit b := by
  constructor
  · rintro ⟨h1, h2⟩; exact ⟨h1, fun b hb => isDigit_of (h2 b hb)⟩
  · rintro ⟨h1, h2⟩; exact ⟨h1, fun b hb => digit_iff.1 (isDigit_iff.2 (h2 b hb))⟩

theorem spanDigits_spec (s : GoString) :
    s = (spanDigits s).1 ++ (spanDigits s).2 ∧ (∀ b ∈ (spanDigits s).1, IsDigit b) := by
  refine ⟨(List.takeWhile_append_dropWhile).symm, fun b hb => isDigit_iff.1 (mem_takeWhile hb)⟩

theorem parseIntPart_sound {s i r : GoString} (h : parseIntPart s = some (i, r)) : s = i ++ r ∧ IntPart i := by
  unfold parseIntPart at h
  split at h
  · simp at h
  · rename_i b t
    split at h
    · rename_i hb
      simp only [Option.some.injEq, Prod.mk.injEq] at h
      obtain ⟨rfl, rfl⟩ := h
      exact ⟨by simp [hb], .inl rfl⟩
    · rename_i hb
      split at h
      · rename_i hd
        simp only [Option.some.injEq] at h
        obtain ⟨h1, h2⟩ := spanDigits_spec (b :: t)
        rw [h] at h1 h2
        refine ⟨h1, .inr ⟨digits_iff.2 ⟨?_, h2⟩, ?_⟩⟩
        · intro hi
          have : (spanDigits (b :: t)).1 = [] := by rw [h]; exact hi
          simp [spanDigits, hd] at this
        · intro hi
          have : (spanDigits (b :: t)).1.head? = some 0x30 := by rw [h]; exact hi
          simp [spanDigits, hd] at this
          exact hb this
      · simp at h

theorem parseFrac_sound {s f r : GoString} (h : parseFrac s = some (f, r)) : s = f ++ r ∧ Frac f := by
  unfold parseFrac at h
  split at h
  · simp only [Option.some.injEq, Prod.mk.injEq] at h
    obtain ⟨rfl, rfl⟩ := h
    exact ⟨rfl, .inl rfl⟩
  · rename_i b t
    split at h
    · rename_i hb
      dsimp only at h
      split at h
      · simp at h
      · rename_i hne
        simp only [Option.some.injEq, Prod.mk.injEq] at h
        obtain ⟨h1, h2⟩ := spanDigits_spec t
        obtain ⟨rfl, rfl⟩ := h
        exact ⟨by rw [List.cons_append, ← h1, hb], .inr ⟨_, digits_iff.2 ⟨hne, h2⟩, rfl⟩⟩
    · simp only [Option.some.injEq, Prod.mk.injEq] at h
      obtain ⟨rfl, rfl⟩ := h
      exact ⟨rfl, .inl rfl⟩

theorem parseExp_sound {s f r : GoString} (h : parseExp s = some (f, r)) : s = f ++ r ∧ Exp f := by
  unfold parseExp at h
  split at h
  · simp only [Option.some.injEq, Prod.mk.injEq] at h
    obtain ⟨rfl, rfl⟩ := h
    exact ⟨rfl, .inl rfl⟩
  · rename_i b t
    split at h
    · rename_i hb
      split at h
      · simp at h
      · rename_i c t'
        split at h
        · rename_i hc
          dsimp only at h
          split at h
          · simp at h
          · rename_i hne
            simp only [Option.some.injEq, Prod.mk.injEq] at h
            obtain ⟨h1, h2⟩ := spanDigits_spec t'
            obtain ⟨rfl, rfl⟩ := h
            refine ⟨by rw [List.cons_append, List.cons_append, ← h1],
              .inr ⟨b, [c], _, hb, .inr ?_, digits_iff.2 ⟨hne, h2⟩, rfl⟩⟩
            rcases hc with rfl | rfl
            · exact .inl rfl
            · exact .inr rfl
        · dsimp only at h
          split at h
          · simp at h
          · rename_i hne
            simp only [Option.some.injEq, Prod.mk.injEq] at h
            obtain ⟨h1, h2⟩ := spanDigits_spec (c :: t')
            obtain ⟨rfl, rfl⟩ := h
            exact ⟨by rw [List.cons_append, ← h1], .inr ⟨b, [], _, hb, .inl rfl, digits_iff.2 ⟨hne, h2⟩, rfl⟩⟩
    · simp only [Option.some.injEq, Prod.mk.injEq] at h
      obtain ⟨rfl, rfl⟩ := h
      exact ⟨rfl, .inl rfl⟩

theorem parseUNum_sound {s l r : GoString} (h : parseUNum s = some (l, r)) :
    s = l ++ r ∧ ∃ i f e, IntPart i ∧ Frac f ∧ Exp e ∧ l = i ++ f ++ e := by
  unfold parseUNum at h
  split at h
  · simp at h
  · rename_i i r1 h1
    split at h
    · simp at h
    · rename_i f r2 h2
      split at h
      · simp at h
      · rename_i e r3 h3
        simp only [Option.some.injEq, Prod.mk.injEq] at h
        obtain ⟨rfl, rfl⟩ := h
        obtain ⟨rfl, hi⟩ := parseIntPart_sound h1
        obtain ⟨rfl, hf⟩ := parseFrac_sound h2
        obtain ⟨rfl, he⟩ := parseExp_sound h3
        exact ⟨by simp, i, f, e, hi, hf, he, rfl⟩

theorem parseNum_sound {s l r : GoString} (h : parseNum s = some (l, r)) : s = l ++ r ∧ Number l := by
  unfold parseNum at h
  split at h
  · simp at h
  · rename_i b t
    split at h
    · rename_i hb
      split at h
      · simp at h
      · rename_i l' r' h1
        simp only [Option.some.injEq, Prod.mk.injEq] at h
        obtain ⟨rfl, rfl⟩ := h
        obtain ⟨rfl, i, f, e, hi, hf, he, rfl⟩ := parseUNum_sound h1
        exact ⟨by simp [hb], [0x2D], i, f, e, .inr rfl, hi, hf, he, by simp⟩
    · obtain ⟨h1, i, f, e, hi, hf, he, h2⟩ := parseUNum_sound h
      exact ⟨h1, [], i, f, e, .inl rfl, hi, hf, he, by simp [h2]⟩

/-- The text does not start with a digit. -/
def NoDigit (r : GoString) : Prop := ∀ b t, r = b :: t → ¬ IsDigit b

theorem spanDigits_stop {ds rest : GoString} (h : ∀ b ∈ ds, IsDigit b) (hr : NoDigit rest) :
    spanDigits (ds ++ rest) = (ds, rest) := by
  unfold spanDigits
  induction ds with
  | nil =>
    cases rest with
    | nil => rfl
    | cons b t =>
      have hb : isDigit b = false := by
        rw [← Bool.not_eq_true, isDigit_iff]; exact hr b t rfl
      simp [hb]
  | cons d ds ih =>
    have hd : isDigit d = true := isDigit_iff.2 (h d (by simp))
    have ih := ih fun b hb => h b (by simp [hb])
    simp only [Prod.mk.injEq] at ih
    simp [hd, ih.1, ih.2]

theorem parseIntPart_complete {i r : GoString} (hi : IntPart i) (hr : NoDigit r) :
    parseIntPart (i ++ r) = some (i, r) := by
  rcases hi with rfl | ⟨hd, hz⟩
  · rfl
  · obtain ⟨hne, hd⟩ := digits_iff.1 hd
    have hs := spanDigits_stop hd hr
    cases i with
    | nil => exact absurd rfl hne
    | cons b t =>
      have hb : b ≠ 48 := by intro h; exact hz (by simp [h])
      have hdb : isDigit b = true := isDigit_iff.2 (hd b (by simp))
      rw [List.cons_append] at hs ⊢
      rw [parseIntPart, if_neg hb, if_pos hdb, hs]

theorem exp_head {e : GoString} (he : Exp e) : ∀ b t, e = b :: t → b = 0x65 ∨ b = 0x45 := by
  rintro b t rfl
  rcases he with h | ⟨e, sign, ds, hE, _, _, h⟩
  · simp at h
  · injection h with h1 h2
    rw [h1]; exact hE

theorem frac_head {e : GoString} (he : Frac e) : ∀ b t, e = b :: t → b = 0x2E := by
  rintro b t rfl
  rcases he with h | ⟨ds, _, h⟩
  · simp at h
  · injection h

theorem numEnd_noDigit {r : GoString} (h : NumEnd r) : NoDigit r := fun b t he => (h b t he).1

theorem notDigit : ¬ IsDigit 0x65 ∧ ¬ IsDigit 0x45 ∧ ¬ IsDigit 0x2E := by decide

theorem exp_append {e r : GoString} (he : Exp e) (hr : NumEnd r) :
    ∀ b t, e ++ r = b :: t → ¬ IsDigit b ∧ b ≠ 0x2E := by
  intro b t h
  cases e with
  | nil => exact ⟨(hr b t h).1, (hr b t h).2.1⟩
  | cons c e' =>
    injection h with h1 h2
    subst h1
    rcases exp_head he _ _ rfl with rfl | rfl <;> decide

theorem parseExp_complete {e r : GoString} (he : Exp e) (hr : NumEnd r) : parseExp (e ++ r) = some (e, r) := by
  rcases he with rfl | ⟨c, sign, ds, hc, hs, hd, rfl⟩
  · exact parseExp_end hr
  · obtain ⟨hne, hd⟩ := digits_iff.1 hd
    have hsp := spanDigits_stop hd (numEnd_noDigit hr)
    cases ds with
    | nil => exact absurd rfl hne
    | cons d ds =>
      have hdd := hd d (by simp)
      have h43 : d ≠ 43 := by rintro rfl; exact absurd hdd (by decide)
      have h45 : d ≠ 45 := by rintro rfl; exact absurd hdd (by decide)
      rcases hs with rfl | rfl | rfl
      · simp only [List.nil_append, List.cons_append] at hsp ⊢
        unfold parseExp
        dsimp only
        rw [if_pos hc, if_neg (by simp [h43, h45]), hsp]
        simp
      · simp only [List.cons_append, List.nil_append] at hsp ⊢
        unfold parseExp
        dsimp only
        rw [if_pos hc, if_pos (by simp), hsp]
        simp
      · simp only [List.cons_append, List.nil_append] at hsp ⊢
        unfold parseExp
        dsimp only
        rw [if_pos hc, if_pos (by simp), hsp]
        simp

theorem parseFrac_complete {f e r : GoString} (hf : Frac f) (he : Exp e) (hr : NumEnd r) :
    parseFrac (f ++ (e ++ r)) = some (f, e ++ r) := by
  have hx := exp_append he hr
  rcases hf with rfl | ⟨ds, hd, rfl⟩
  · rw [List.nil_append]
    cases h : e ++ r with
    | nil => rfl
    | cons b t => rw [parseFrac, if_neg (hx b t h).2]
  · obtain ⟨hne, hd⟩ := digits_iff.1 hd
    have hsp := spanDigits_stop hd (fun b t h => (hx b t h).1)
    rw [List.cons_append, parseFrac, if_pos rfl, hsp]
    simp [hne]

theorem parseUNum_complete {i f e r : GoString} (hi : IntPart i) (hf : Frac f) (he : Exp e) (hr : NumEnd r) :
    parseUNum (i ++ f ++ e ++ r) = some (i ++ f ++ e, r) := by
  have h1 : NoDigit (f ++ (e ++ r)) := by
    intro b t h
    cases f with
    | nil => exact (exp_append he hr b t h).1
    | cons c f' =>
      injection h with h1 h2
      subst h1
      rw [frac_head hf _ _ rfl]; decide
  rw [List.append_assoc, List.append_assoc, parseUNum, parseIntPart_complete hi h1]
  dsimp only
  rw [parseFrac_complete hf he hr]
  dsimp only
  rw [parseExp_complete he hr]

theorem int_head {i : GoString} (hi : IntPart i) : ∃ b t, i = b :: t ∧ IsDigit b := by
  rcases hi with rfl | ⟨hd, _⟩
  · exact ⟨_, _, rfl, by decide⟩
  · obtain ⟨hne, hd⟩ := digits_iff.1 hd
    cases i with
    | nil => exact absurd rfl hne
    | cons b t => exact ⟨b, t, rfl, hd b (by simp)⟩

theorem number_head {l : GoString} (h : Number l) : ∃ b t, l = b :: t ∧ (b = 45 ∨ IsDigit b) := by
  obtain ⟨sign, i, f, e, hs, hi, _, _, rfl⟩ := h
  rcases hs with rfl | rfl
  · obtain ⟨b, t, rfl, hb⟩ := int_head hi
    exact ⟨b, t ++ f ++ e, by simp, .inr hb⟩
  · exact ⟨45, i ++ f ++ e, by simp, .inl rfl⟩

theorem parseNum_complete {l r : GoString} (h : Number l) (hr : NumEnd r) : parseNum (l ++ r) = some (l, r) := by
  obtain ⟨sign, i, f, e, hs, hi, hf, he, rfl⟩ := h
  rcases hs with rfl | rfl
  · have h2 := parseUNum_complete hi hf he hr
    obtain ⟨b, t, rfl, hb⟩ := int_head hi
    have : b ≠ 45 := by rintro rfl; exact absurd hb (by decide)
    simp only [List.nil_append, List.cons_append] at h2 ⊢
    rw [parseNum, if_neg this, h2]
  · have h2 := parseUNum_complete hi hf he hr
    simp only [List.cons_append, List.nil_append]
    rw [parseNum, if_pos rfl, h2]

/-! ## Strings -/

theorem hexVal_table : ∀ i : Fin 256, ∀ n : Fin 16,
    hexVal (UInt8.ofNat i.val) = some n.val ↔
      (gs! "0123456789abcdef"[n.val]? = some (UInt8.ofNat i.val) ∨ gs! "0123456789ABCDEF"[n.val]? = some (UInt8.ofNat i.val)) := by
  decide +kernel

theorem hexVal_lt : ∀ i : Fin 256, (hexVal (UInt8.ofNat i.val)).getD 0 < 16 := by decide +kernel

theorem hexVal_iff {b : UInt8} {n : Nat} : hexVal b = some n ↔ HexDigit n b := by
  have hb := b.toNat_lt
  have e : UInt8.ofNat b.toNat = b := by simp
  constructor
  · intro h
    have h16 := hexVal_lt ⟨b.toNat, hb⟩
    simp only [e, h, Option.getD_some] at h16
    have := (hexVal_table ⟨b.toNat, hb⟩ ⟨n, h16⟩).1 (by simp only [e]; exact h)
    simp only [e] at this
    exact ⟨h16, this⟩
  · rintro ⟨h16, h⟩
    have := (hexVal_table ⟨b.toNat, hb⟩ ⟨n, h16⟩).2 (by simp only [e]; exact h)
    simp only [e] at this
    exact this

theorem hex4_complete {n : Nat} {x : GoString} (h : Hex4 n x) (t : GoString) : hex4 (x ++ t) = some (n, t) := by
  obtain ⟨w, x, y, z, a, b, c, d, ha, hb, hc, hd, rfl, rfl⟩ := h
  simp only [List.cons_append, List.nil_append]
  rw [hex4_eq (hexVal_iff.2 ha) (hexVal_iff.2 hb) (hexVal_iff.2 hc) (hexVal_iff.2 hd)]
  congr 2; omega

theorem hex4_sound {n : Nat} {s t : GoString} (h : hex4 s = some (n, t)) : ∃ x, Hex4 n x ∧ s = x ++ t := by
  unfold hex4 at h
  split at h
  · rename_i a b c d u
    split at h
    · rename_i w x y z ha hb hc hd
      simp only [Option.some.injEq, Prod.mk.injEq] at h
      obtain ⟨rfl, rfl⟩ := h
      exact ⟨[a, b, c, d], ⟨w, x, y, z, a, b, c, d, hexVal_iff.1 ha, hexVal_iff.1 hb, hexVal_iff.1 hc, hexVal_iff.1 hd,
        by omega, rfl⟩, rfl⟩
    · simp at h
  · simp at h

theorem hex4_length {n : Nat} {x : GoString} (h : Hex4 n x) : x.length = 4 := by
  obtain ⟨w, x, y, z, a, b, c, d, _, _, _, _, _, rfl⟩ := h
  rfl

theorem lowSurrogate_sound {s t : GoString} {m : Nat} (h : lowSurrogate s = some (m, t)) :
    ∃ y, Hex4 m y ∧ Low m ∧ s = 0x5C :: 0x75 :: (y ++ t) := by
  unfold lowSurrogate at h
  split at h
  · rename_i a b u
    split at h
    · rename_i hab
      split at h
      · rename_i r1 u1 hx
        split at h
        · rename_i hl
          simp only [Option.some.injEq, Prod.mk.injEq] at h
          obtain ⟨rfl, rfl⟩ := h
          obtain ⟨y, hy, rfl⟩ := hex4_sound hx
          exact ⟨y, hy, hl, by rw [hab.1, hab.2]⟩
        · simp at h
      · simp at h
    · simp at h
  · simp at h

theorem lowSurrogate_complete {y t : GoString} {m : Nat} (hy : Hex4 m y) (hm : Low m) :
    lowSurrogate (0x5C :: 0x75 :: (y ++ t)) = some (m, t) := by
  unfold lowSurrogate
  dsimp only
  rw [if_pos ⟨rfl, rfl⟩, hex4_complete hy]
  dsimp only
  exact if_pos hm

theorem quote_mem_str {v t : GoString} (h : Str v t) : (0x22 : UInt8) ∈ t := by
  induction h with
  | close => simp
  | char _ _ _ _ _ ih => simp [ih]
  | bad _ _ _ ih => simp [ih]
  | short _ _ ih => simp [ih]
  | unicode _ _ _ _ ih => simp [ih]
  | pair _ _ _ _ _ ih => simp [ih]
  | lone _ _ _ _ ih => simp [ih]

theorem short_esc {c d : UInt8} (h : (c, d) ∈ shortEscapes) (t : GoString) : parseEsc (c :: t) = some ([d], t) := by
  simp only [shortEscapes, List.mem_cons, Prod.mk.injEq, List.not_mem_nil, or_false] at h
  rcases h with ⟨rfl, rfl⟩ | ⟨rfl, rfl⟩ | ⟨rfl, rfl⟩ | ⟨rfl, rfl⟩ | ⟨rfl, rfl⟩ | ⟨rfl, rfl⟩ | ⟨rfl, rfl⟩ | ⟨rfl, rfl⟩ <;>
    simp [parseEsc]

/-- What `parseEsc` reads. -/
inductive EscSpec : GoString → GoString → GoString → Prop
  | short {c d : UInt8} {t : GoString} (hc : (c, d) ∈ shortEscapes) : EscSpec [d] (c :: t) t
  | unicode {n : Nat} {x t : GoString} (hx : Hex4 n x) (hn : ¬ High n) (hl : ¬ Low n) : EscSpec (encodeRune n) (0x75 :: (x ++ t)) t
  | pair {n m : Nat} {x y t : GoString} (hx : Hex4 n x) (hn : High n) (hy : Hex4 m y) (hm : Low m) :
      EscSpec (encodeRune (0x10000 + (n - 0xD800) * 0x400 + (m - 0xDC00))) (0x75 :: (x ++ 0x5C :: 0x75 :: (y ++ t))) t
  | lone {n : Nat} {x t : GoString} (hx : Hex4 n x) (hs : High n ∨ Low n)
      (hn : High n → ∀ m y u, Hex4 m y → Low m → t ≠ 0x5C :: 0x75 :: (y ++ u)) :
      EscSpec (encodeRune 0xFFFD) (0x75 :: (x ++ t)) t

theorem parseEsc_spec {s bs t : GoString} (h : parseEsc s = some (bs, t)) : EscSpec bs s t := by
  match s with
  | [] => simp [parseEsc] at h
  | c :: u =>
    rw [parseEsc] at h
    split at h
    · rename_i hc
      simp only [Option.some.injEq, Prod.mk.injEq] at h
      obtain ⟨rfl, rfl⟩ := h
      refine .short ?_
      rcases hc with rfl | rfl | rfl <;> simp [shortEscapes]
    iterate 5
      split at h
      · rename_i hc
        simp only [Option.some.injEq, Prod.mk.injEq] at h
        obtain ⟨rfl, rfl⟩ := h
        subst hc
        exact .short (by simp [shortEscapes])
    split at h
    · rename_i hc
      subst hc
      split at h
      · simp at h
      · rename_i n u1 hx0
        obtain ⟨x, hx, rfl⟩ := hex4_sound hx0
        split at h
        · rename_i hsur
          split at h
          · rename_i m u2 hl
            simp only [Option.some.injEq, Prod.mk.injEq] at h
            obtain ⟨rfl, rfl⟩ := h
            split at hl
            · rename_i hdb
              obtain ⟨y, hy, hm, rfl⟩ := lowSurrogate_sound hl
              exact .pair hx ⟨hsur.1, hdb⟩ hy hm
            · simp at hl
          · rename_i hl
            simp only [Option.some.injEq, Prod.mk.injEq] at h
            obtain ⟨rfl, rfl⟩ := h
            refine .lone hx ?_ ?_
            · by_cases hd : n ≤ 0xDBFF
              · exact .inl ⟨hsur.1, hd⟩
              · exact .inr ⟨by omega, hsur.2⟩
            · intro hh m y u hy hm he
              rw [if_pos hh.2, he, lowSurrogate_complete hy hm] at hl
              simp at hl
        · rename_i hsur
          simp only [Option.some.injEq, Prod.mk.injEq] at h
          obtain ⟨rfl, rfl⟩ := h
          exact .unicode hx (fun hh => hsur ⟨hh.1, by have := hh.2; omega⟩) (fun hh => hsur ⟨by have := hh.1; omega, hh.2⟩)
    · simp at h

theorem parseEsc_complete {s bs t : GoString} (h : EscSpec bs s t) : parseEsc s = some (bs, t) := by
  cases h with
  | short hc => exact short_esc hc t
  | @unicode n x _ hx hn hl =>
    apply parseEsc_u (hex4_complete hx t)
    rintro ⟨h1, h2⟩
    by_cases hd : n ≤ 0xDBFF
    · exact hn ⟨h1, hd⟩
    · exact hl ⟨by omega, h2⟩
  | pair hx hn hy hm =>
    simp only [parseEsc, hex4_complete hx]
    rw [if_neg (by decide), if_neg (by decide), if_neg (by decide), if_neg (by decide), if_neg (by decide),
      if_neg (by decide), if_pos (by decide), if_pos ⟨hn.1, by have := hn.2; omega⟩, if_pos hn.2, lowSurrogate_complete hy hm]
  | @lone n x _ hx hs hn =>
    have hsur : 0xD800 ≤ n ∧ n ≤ 0xDFFF := by
      rcases hs with h | h
      · exact ⟨h.1, by have := h.2; omega⟩
      · exact ⟨by have := h.1; omega, h.2⟩
    simp only [parseEsc, hex4_complete hx]
    rw [if_neg (by decide), if_neg (by decide), if_neg (by decide), if_neg (by decide), if_neg (by decide),
      if_neg (by decide), if_pos (by decide), if_pos hsur]
    have : (if n ≤ 0xDBFF then lowSurrogate t else none) = none := by
      split
      · rename_i hd
        cases hl : lowSurrogate t with
        | none => rfl
        | some p =>
          obtain ⟨m, u⟩ := p
          obtain ⟨y, hy, hm, he⟩ := lowSurrogate_sound hl
          exact absurd he (hn ⟨hsur.1, hd⟩ m y u hy hm)
      · rfl
    rw [this]
    rfl

theorem parseStr_sound {n : Nat} {s v r : GoString} (h : parseStr n s = some (v, r)) : ∃ t, s = t ++ r ∧ Str v t := by
  induction n generalizing s v r with
  | zero => simp [parseStr] at h
  | succ n ih =>
    match s with
    | [] => simp [parseStr] at h
    | b :: s =>
      rw [parseStr] at h
      by_cases c1 : b = 34
      · rw [if_pos c1] at h
        simp only [Option.some.injEq, Prod.mk.injEq] at h
        obtain ⟨rfl, rfl⟩ := h
        exact ⟨[34], by simp [c1], .close⟩
      rw [if_neg c1] at h
      by_cases c2 : b = 92
      · rw [if_pos c2] at h
        cases he : parseEsc s with
        | none => simp [he] at h
        | some p =>
          obtain ⟨bs, t'⟩ := p
          rw [he] at h
          dsimp only at h
          cases hp : parseStr n t' with
          | none => simp [hp] at h
          | some p =>
            obtain ⟨v', r'⟩ := p
            rw [hp] at h
            simp only [Option.some.injEq, Prod.mk.injEq] at h
            obtain ⟨rfl, rfl⟩ := h
            obtain ⟨t, rfl, ht⟩ := ih hp
            have hs := parseEsc_spec he
            subst c2
            generalize hu : t ++ r' = u at hs
            cases hs with
            | @short c d _ hc => subst hu; exact ⟨0x5C :: c :: t, by simp, .short hc ht⟩
            | @unicode m x _ hx hn hl => subst hu; exact ⟨0x5C :: 0x75 :: (x ++ t), by simp, .unicode hx hn hl ht⟩
            | @pair m m' x y _ hx hn hy hm =>
              subst hu
              exact ⟨0x5C :: 0x75 :: (x ++ 0x5C :: 0x75 :: (y ++ t)), by simp, .pair hx hn hy hm ht⟩
            | @lone m x _ hx hs hn =>
              subst hu
              refine ⟨0x5C :: 0x75 :: (x ++ t), by simp, .lone hx hs ?_ ht⟩
              intro hh k y w hy hk he'
              exact hn hh k y (w ++ r') hy hk (by simp [he'])
      rw [if_neg c2] at h
      by_cases c3 : b.toNat < 32
      · rw [if_pos c3] at h; simp at h
      rw [if_neg c3] at h
      dsimp only at h
      cases hp : parseStr n ((b :: s).drop (decodeRune (b :: s)).2) with
      | none => simp [hp] at h
      | some p =>
        obtain ⟨v', r'⟩ := p
        rw [hp] at h
        simp only [Option.some.injEq, Prod.mk.injEq] at h
        obtain ⟨rfl, rfl⟩ := h
        obtain ⟨t, hd, ht⟩ := ih hp
        rcases decodeRune_cases b s with ⟨c, u, hc, hu, hdec⟩ | ⟨hdec, h128⟩
        · rw [hdec] at hd ⊢
          rw [hu, List.drop_left] at hd
          refine ⟨encodeRune c ++ t, by rw [hu, hd]; simp, .char hc ?_ ?_ ?_ ht⟩
          · by_cases h128 : c < 128
            · rw [encodeRune_ascii h128] at hu
              simp only [List.cons_append, List.cons.injEq] at hu
              rw [hu.1, u8_toNat (by omega)] at c3
              omega
            · omega
          · rintro rfl
            rw [encodeRune_ascii (by decide)] at hu
              
            simp only [List.cons_append, List.cons.injEq] at hu
            exact c1 hu.1
          · rintro rfl
            rw [encodeRune_ascii (by decide)] at hu
            simp only [List.cons_append, List.cons.injEq] at hu
            exact c2 hu.1
        · rw [hdec] at hd ⊢
          simp only [List.drop_succ_cons, List.drop_zero] at hd
          refine ⟨b :: t, by rw [hd]; simp, .bad h128 ?_ ht⟩
          intro c u hc he
          have h1 : b :: s = encodeRune c ++ (u ++ r') := by rw [hd, ← List.cons_append, he, List.append_assoc]
          have h2 := decodeRune_encodeRune hc (u ++ r')
          rw [← h1, hdec] at h2
          simp only [Prod.mk.injEq] at h2
          rw [← h2.1] at h2
          exact absurd h2.2 (by decide)

theorem encodeRune_length_pos (r : Nat) : 1 ≤ (encodeRune r).length := (encodeRune_length r).1

theorem parseStr_complete {v t : GoString} (h : Str v t) : ∀ n, t.length ≤ n → parseStr n t = some (v, []) := by
  induction h with
  | close =>
    intro n hn
    obtain ⟨n, rfl⟩ : ∃ m, n = m + 1 := ⟨n - 1, by simp at hn; omega⟩
    simp [parseStr]
  | @char r v t hr h1 h2 h3 _ ih =>
    intro n hn
    have := encodeRune_length_pos r
    rw [List.length_append] at hn
    obtain ⟨n, rfl⟩ : ∃ m, n = m + 1 := ⟨n - 1, by omega⟩
    rw [parseStr_plain hr h1 h2 h3, ih n (by omega)]
    rfl
  | @bad b v t hb hn _ ih =>
    intro n hl
    obtain ⟨n, rfl⟩ : ∃ m, n = m + 1 := ⟨n - 1, by simp at hl; omega⟩
    have hdec : decodeRune (b :: t) = (runeError, 1) := by
      rcases decodeRune_cases b t with ⟨c, u, hc, hu, _⟩ | ⟨hdec, _⟩
      · exact absurd hu (hn c u hc)
      · exact hdec
    have h34 : b ≠ 34 := by rintro rfl; exact absurd hb (by decide)
    have h92 : b ≠ 92 := by rintro rfl; exact absurd hb (by decide)
    rw [parseStr, if_neg h34, if_neg h92, if_neg (by omega)]
    dsimp only
    rw [hdec]
    simp only [List.drop_succ_cons, List.drop_zero]
    rw [ih n (by simp at hl; omega)]
    rfl
  | @short c d v t hc _ ih =>
    intro n hl
    obtain ⟨n, rfl⟩ : ∃ m, n = m + 1 := ⟨n - 1, by simp at hl; omega⟩
    rw [parseStr_esc (parseEsc_complete (.short hc)), ih n (by simp at hl; omega)]
    rfl
  | @unicode m x v t hx hn hlo _ ih =>
    intro n hl
    obtain ⟨n, rfl⟩ : ∃ m, n = m + 1 := ⟨n - 1, by simp at hl; omega⟩
    rw [parseStr_esc (parseEsc_complete (.unicode hx hn hlo)), ih n (by simp at hl; omega)]
    rfl
  | @pair m m' x y v t hx hn hy hm _ ih =>
    intro n hl
    obtain ⟨n, rfl⟩ : ∃ m, n = m + 1 := ⟨n - 1, by simp at hl; omega⟩
    rw [parseStr_esc (parseEsc_complete (.pair hx hn hy hm)), ih n (by simp at hl; omega)]
    rfl
  | @lone m x v t hx hs hn _ ih =>
    intro n hl
    obtain ⟨n, rfl⟩ : ∃ m, n = m + 1 := ⟨n - 1, by simp at hl; omega⟩
    rw [parseStr_esc (parseEsc_complete (.lone hx hs hn)), ih n (by simp at hl; omega)]
    rfl

/-! ## Values -/

theorem ws_append {a b : GoString} (ha : Ws a) (hb : Ws b) : Ws (a ++ b) := by
  intro c hc
  rcases List.mem_append.1 hc with h | h
  · exact ha c h
  · exact hb c h

theorem elems_ws {w t : GoString} {xs : List Json} (hw : Ws w) (h : Elems xs t) : Elems xs (w ++ t) := by
  cases h with
  | one h1 h2 h3 => rw [← List.append_assoc, ← List.append_assoc, ← List.append_assoc]; exact .one (ws_append hw h1) h2 h3
  | cons h1 h2 h3 h4 => rw [← List.append_assoc, ← List.append_assoc, ← List.append_assoc]; exact .cons (ws_append hw h1) h2 h3 h4

theorem members_ws {w t : GoString} {m : List (GoString × Json)} (hw : Ws w) (h : Members m t) : Members m (w ++ t) := by
  cases h with
  | one h1 h2 h3 h4 h5 h6 => rw [← List.append_assoc]; exact .one (ws_append hw h1) h2 h3 h4 h5 h6
  | cons h1 h2 h3 h4 h5 h6 h7 => rw [← List.append_assoc]; exact .cons (ws_append hw h1) h2 h3 h4 h5 h6 h7

theorem parse_sound (n : Nat) :
    (∀ s j r, parseValue n s = some (j, r) → ∃ w t, Ws w ∧ Value j t ∧ s = w ++ t ++ r) ∧
    (∀ s xs r, parseElems n s = some (xs, r) → ∃ t, Elems xs t ∧ s = t ++ r) ∧
    (∀ s m r, parseMembers n s = some (m, r) → ∃ t, Members m t ∧ s = t ++ r) := by
  induction n with
  | zero => simp [parseValue, parseElems, parseMembers]
  | succ n ih =>
    obtain ⟨ihv, ihe, ihm⟩ := ih
    refine ⟨?_, ?_, ?_⟩
    · intro s j r h
      rw [parseValue] at h
      obtain ⟨w, hw, hs⟩ := skipWs_split s
      generalize skipWs s = s' at h hs
      subst hs
      refine ⟨w, ?_⟩
      suffices ∃ t, Value j t ∧ s' = t ++ r by
        obtain ⟨t, ht, rfl⟩ := this
        exact ⟨t, hw, ht, by simp⟩
      match s', h with
      | [], h => simp at h
      | b :: t, h =>
        dsimp only at h
        by_cases c1 : b = 123
        · rw [if_pos c1] at h
          subst c1
          obtain ⟨w1, hw1, ht⟩ := skipWs_split t
          generalize skipWs t = t' at h ht
          subst ht
          match t', h with
          | [], h => simp at h
          | c :: t', h =>
            dsimp only at h
            split at h
            · rename_i hc
              simp only [Option.some.injEq, Prod.mk.injEq] at h
              obtain ⟨rfl, rfl⟩ := h
              exact ⟨123 :: (w1 ++ [125]), .emptyObj hw1, by simp [hc]⟩
            · split at h
              · simp at h
              · rename_i m r' hm
                simp only [Option.some.injEq, Prod.mk.injEq] at h
                obtain ⟨rfl, rfl⟩ := h
                obtain ⟨u, hu, he⟩ := ihm _ _ _ hm
                refine ⟨123 :: (w1 ++ u), .obj ?_, by simp [he]⟩
                exact members_ws hw1 hu
        rw [if_neg c1] at h
        by_cases c2 : b = 91
        · rw [if_pos c2] at h
          subst c2
          obtain ⟨w1, hw1, ht⟩ := skipWs_split t
          generalize skipWs t = t' at h ht
          subst ht
          match t', h with
          | [], h => simp at h
          | c :: t', h =>
            dsimp only at h
            split at h
            · rename_i hc
              simp only [Option.some.injEq, Prod.mk.injEq] at h
              obtain ⟨rfl, rfl⟩ := h
              exact ⟨91 :: (w1 ++ [93]), .emptyArr hw1, by simp [hc]⟩
            · split at h
              · simp at h
              · rename_i m r' hm
                simp only [Option.some.injEq, Prod.mk.injEq] at h
                obtain ⟨rfl, rfl⟩ := h
                obtain ⟨u, hu, he⟩ := ihe _ _ _ hm
                refine ⟨91 :: (w1 ++ u), .arr ?_, by simp [he]⟩
                exact elems_ws hw1 hu
        rw [if_neg c2] at h
        by_cases c3 : b = 34
        · rw [if_pos c3] at h
          subst c3
          split at h
          · simp at h
          · rename_i x r' hp
            simp only [Option.some.injEq, Prod.mk.injEq] at h
            obtain ⟨rfl, rfl⟩ := h
            obtain ⟨u, rfl, hu⟩ := parseStr_sound hp
            exact ⟨34 :: u, .str hu, rfl⟩
        rw [if_neg c3] at h
        by_cases c4 : b = 110
        · rw [if_pos c4] at h
          subst c4
          split at h
          · simp only [Option.some.injEq, Prod.mk.injEq] at h
            obtain ⟨rfl, rfl⟩ := h
            exact ⟨_, .null, rfl⟩
          · simp at h
        rw [if_neg c4] at h
        by_cases c5 : b = 116
        · rw [if_pos c5] at h
          subst c5
          split at h
          · simp only [Option.some.injEq, Prod.mk.injEq] at h
            obtain ⟨rfl, rfl⟩ := h
            exact ⟨_, .true, rfl⟩
          · simp at h
        rw [if_neg c5] at h
        by_cases c6 : b = 102
        · rw [if_pos c6] at h
          subst c6
          split at h
          · simp only [Option.some.injEq, Prod.mk.injEq] at h
            obtain ⟨rfl, rfl⟩ := h
            exact ⟨_, .false, rfl⟩
          · simp at h
        rw [if_neg c6] at h
        split at h
        · simp at h
        · rename_i l r' hp
          simp only [Option.some.injEq, Prod.mk.injEq] at h
          obtain ⟨rfl, rfl⟩ := h
          obtain ⟨he, hl⟩ := parseNum_sound hp
          exact ⟨l, .num hl, he⟩
    · intro s xs r h
      rw [parseElems] at h
      split at h
      · simp at h
      · rename_i v r1 hv
        obtain ⟨w, t, hw, ht, rfl⟩ := ihv _ _ _ hv
        obtain ⟨w1, hw1, hs⟩ := skipWs_split r1
        generalize skipWs r1 = r1' at h hs
        subst hs
        match r1', h with
        | [], h => simp at h
        | c :: r', h =>
          dsimp only at h
          split at h
          · rename_i hc
            split at h
            · simp at h
            · rename_i vs r'' hvs
              simp only [Option.some.injEq, Prod.mk.injEq] at h
              obtain ⟨rfl, rfl⟩ := h
              obtain ⟨u, hu, rfl⟩ := ihe _ _ _ hvs
              exact ⟨_, .cons hw ht hw1 hu, by simp [hc]⟩
          · split at h
            · rename_i hc
              simp only [Option.some.injEq, Prod.mk.injEq] at h
              obtain ⟨rfl, rfl⟩ := h
              exact ⟨_, .one hw ht hw1, by simp [hc]⟩
            · simp at h
    · intro s m r h
      rw [parseMembers] at h
      obtain ⟨w, hw, hs⟩ := skipWs_split s
      generalize skipWs s = s' at h hs
      subst hs
      match s', h with
      | [], h => simp at h
      | q :: t, h =>
        dsimp only at h
        split at h
        · rename_i hq
          subst hq
          split at h
          · simp at h
          · rename_i k r1 hk
            obtain ⟨qs, rfl, hqs⟩ := parseStr_sound hk
            obtain ⟨w1, hw1, hs⟩ := skipWs_split r1
            generalize skipWs r1 = r1' at h hs
            subst hs
            match r1', h with
            | [], h => simp at h
            | c :: r2, h =>
              dsimp only at h
              split at h
              · rename_i hc
                subst hc
                split at h
                · simp at h
                · rename_i v r3 hv
                  obtain ⟨w2, t2, hw2, ht2, rfl⟩ := ihv _ _ _ hv
                  obtain ⟨w3, hw3, hs⟩ := skipWs_split r3
                  generalize skipWs r3 = r3' at h hs
                  subst hs
                  match r3', h with
                  | [], h => simp at h
                  | c :: r4, h =>
                    dsimp only at h
                    split at h
                    · rename_i hc
                      split at h
                      · simp at h
                      · rename_i m' r'' hm
                        simp only [Option.some.injEq, Prod.mk.injEq] at h
                        obtain ⟨rfl, rfl⟩ := h
                        obtain ⟨u, hu, rfl⟩ := ihm _ _ _ hm
                        exact ⟨_, .cons hw hqs hw1 hw2 ht2 hw3 hu, by simp [hc]⟩
                    · split at h
                      · rename_i hc
                        simp only [Option.some.injEq, Prod.mk.injEq] at h
                        obtain ⟨rfl, rfl⟩ := h
                        exact ⟨_, .one hw hqs hw1 hw2 ht2 hw3, by simp [hc]⟩
                      · simp at h
              · simp at h
        · simp at h

/-- What may follow a value: the end of the text, white space, a comma or a closing bracket. -/
def Follow (r : GoString) : Prop := ∀ b u, r = b :: u → isWs b = true ∨ b = 44 ∨ b = 93 ∨ b = 125

theorem follow_numEnd {r : GoString} (h : Follow r) : NumEnd r := by
  intro b t he
  rcases h b t he with h | rfl | rfl | rfl
  · rcases isWs_iff.1 h with rfl | rfl | rfl | rfl <;> decide
  all_goals decide

theorem follow_ws {w r : GoString} (hw : Ws w) (hr : Follow r) : Follow (w ++ r) := by
  cases w with
  | nil => exact hr
  | cons c w =>
    intro b u he
    injection he with h1 h2
    subst h1
    exact .inl (isWs_iff.2 (hw c (by simp)))

theorem value_head {j : Json} {t : GoString} (h : Value j t) :
    ∃ b u, t = b :: u ∧ isWs b = false ∧ b ≠ 93 ∧ b ≠ 125 := by
  cases h with
  | null => exact ⟨_, _, rfl, by decide⟩
  | true => exact ⟨_, _, rfl, by decide⟩
  | false => exact ⟨_, _, rfl, by decide⟩
  | num h =>
    obtain ⟨b, u, rfl, hb⟩ := number_head h
    obtain ⟨h1, h2, h3, _⟩ := numStart_facts b hb
    exact ⟨b, u, rfl, h1, h2, h3⟩
  | str h => exact ⟨_, _, rfl, by decide⟩
  | emptyArr => exact ⟨_, _, rfl, by decide⟩
  | arr => exact ⟨_, _, rfl, by decide⟩
  | emptyObj => exact ⟨_, _, rfl, by decide⟩
  | obj => exact ⟨_, _, rfl, by decide⟩

theorem skip_at {w : GoString} (hw : Ws w) {b : UInt8} (hb : isWs b = false) (u : GoString) : skipWs (w ++ b :: u) = b :: u := by
  rw [skipWs_append (ws_iff.1 hw), skipWs_cons hb]

theorem elems_head {xs : List Json} {t : GoString} (h : Elems xs t) (r : GoString) :
    ∃ b u, skipWs (t ++ r) = b :: u ∧ b ≠ 93 := by
  cases h with
  | one hw hv hw' =>
    obtain ⟨b, u, rfl, h1, h2, _⟩ := value_head hv
    exact ⟨b, _, by simp only [List.append_assoc, List.cons_append]; exact skip_at hw h1 _, h2⟩
  | cons hw hv hw' _ =>
    obtain ⟨b, u, rfl, h1, h2, _⟩ := value_head hv
    exact ⟨b, _, by simp only [List.append_assoc, List.cons_append]; exact skip_at hw h1 _, h2⟩

theorem members_head {m : List (GoString × Json)} {t : GoString} (h : Members m t) (r : GoString) :
    ∃ b u, skipWs (t ++ r) = b :: u ∧ b ≠ 125 := by
  cases h with
  | one hw =>
    exact ⟨34, _, by simp only [List.append_assoc, List.cons_append]; exact skip_at hw (by decide) _, by decide⟩
  | cons hw =>
    exact ⟨34, _, by simp only [List.append_assoc, List.cons_append]; exact skip_at hw (by decide) _, by decide⟩

theorem parseElems_skip (n : Nat) (s : GoString) : parseElems n (skipWs s) = parseElems n s := by
  obtain ⟨w, hw, he⟩ := skipWs_split s
  conv => rhs; rw [he]
  rw [parseElems_ws (ws_iff.1 hw)]

theorem parseMembers_skip (n : Nat) (s : GoString) : parseMembers n (skipWs s) = parseMembers n s := by
  obtain ⟨w, hw, he⟩ := skipWs_split s
  conv => rhs; rw [he]
  cases n with
  | zero => simp [parseMembers]
  | succ n =>
    rw [parseMembers, parseMembers, skipWs_append (ws_iff.1 hw)]

theorem parse_complete (n : Nat) :
    (∀ j t r, Value j t → 2 * t.length ≤ n → Follow r → parseValue n (t ++ r) = some (j, r)) ∧
    (∀ xs t r, Elems xs t → 2 * t.length ≤ n → parseElems n (t ++ r) = some (xs, r)) ∧
    (∀ m t r, Members m t → 2 * t.length ≤ n → parseMembers n (t ++ r) = some (m, r)) := by
  induction n with
  | zero =>
    refine ⟨?_, ?_, ?_⟩
    · intro j t r h hl
      obtain ⟨b, u, rfl, _⟩ := value_head h
      simp at hl
    · intro xs t r h hl
      obtain ⟨b, u, hs, _⟩ := elems_head h []
      have : t = [] := List.length_eq_zero_iff.1 (by omega)
      subst this
      simp [skipWs] at hs
    · intro xs t r h hl
      obtain ⟨b, u, hs, _⟩ := members_head h []
      have : t = [] := List.length_eq_zero_iff.1 (by omega)
      subst this
      simp [skipWs] at hs
  | succ n ih =>
    obtain ⟨ihv, ihe, ihm⟩ := ih
    refine ⟨?_, ?_, ?_⟩
    · intro j t r h hl hr
      cases h with
      | null => simp [parseValue, skipWs, isWs]
      | true => simp [parseValue, skipWs, isWs]
      | false => simp [parseValue, skipWs, isWs]
      | num h =>
        have hp := parseNum_complete h (follow_numEnd hr)
        obtain ⟨b, u, rfl, hb⟩ := number_head h
        obtain ⟨h1, h2, h3, h4, h5, h6, h7, h8, h9⟩ := numStart_facts b hb
        rw [List.cons_append] at hp ⊢
        rw [parseValue, skipWs_cons h1]
        dsimp only
        rw [if_neg h4, if_neg h5, if_neg h6, if_neg h7, if_neg h8, if_neg h9, hp]
      | @str v t h =>
        have hp := parseStr_ext (parseStr_complete h n (by simp at hl; omega)) (Nat.le_refl _) r
        rw [List.cons_append, parseValue, skipWs_cons (by decide)]
        dsimp only
        rw [if_neg (by decide), if_neg (by decide), if_pos rfl, hp]
        rfl
      | @emptyArr w hw =>
        rw [List.cons_append, parseValue, skipWs_cons (by decide)]
        dsimp only
        rw [if_neg (by decide), if_pos rfl, List.append_assoc, List.singleton_append, skip_at hw (by decide)]
        rfl
      | @arr xs t h =>
        have hp := ihe xs t r h (by simp at hl; omega)
        obtain ⟨b, u, hs, hb⟩ := elems_head h r
        rw [← parseElems_skip, hs] at hp
        rw [List.cons_append, parseValue, skipWs_cons (by decide)]
        dsimp only
        rw [if_neg (by decide), if_pos rfl, hs]
        dsimp only
        rw [if_neg hb, hp]
      | @emptyObj w hw =>
        rw [List.cons_append, parseValue, skipWs_cons (by decide)]
        dsimp only
        rw [if_pos rfl, List.append_assoc, List.singleton_append, skip_at hw (by decide)]
        rfl
      | @obj m t h =>
        have hp := ihm m t r h (by simp at hl; omega)
        obtain ⟨b, u, hs, hb⟩ := members_head h r
        rw [← parseMembers_skip, hs] at hp
        rw [List.cons_append, parseValue, skipWs_cons (by decide)]
        dsimp only
        rw [if_pos rfl, hs]
        dsimp only
        rw [if_neg hb, hp]
    · intro xs t r h hl
      cases h with
      | @one x w t w' hw hv hw' =>
        have hp := ihv x t (w' ++ 93 :: r) hv (by simp at hl; omega) (follow_ws hw' (by intro b u he; injection he with h; simp [← h]))
        have e : w ++ t ++ w' ++ [0x5D] ++ r = w ++ (t ++ (w' ++ 93 :: r)) := by simp
        rw [e, parseElems, parseValue_ws (ws_iff.1 hw), hp]
        dsimp only
        rw [skip_at hw' (by decide)]
        dsimp only
        rw [if_neg (by decide), if_pos rfl]
      | @cons x xs w t w' u hw hv hw' hs =>
        have hp := ihv x t (w' ++ 44 :: (u ++ r)) hv (by simp at hl; omega)
          (follow_ws hw' (by intro b u he; injection he with h; simp [← h]))
        have e : w ++ t ++ w' ++ 0x2C :: u ++ r = w ++ (t ++ (w' ++ 44 :: (u ++ r))) := by simp
        rw [e, parseElems, parseValue_ws (ws_iff.1 hw), hp]
        dsimp only
        rw [skip_at hw' (by decide)]
        dsimp only
        rw [if_pos rfl, ihe xs u r hs (by simp at hl; omega)]
    · intro xs t r h hl
      cases h with
      | @one k x w q w1 w2 t w' hw hk hw1 hw2 hv hw' =>
        have hp := ihv x t (w' ++ 125 :: r) hv (by simp at hl; omega) (follow_ws hw' (by intro b u he; injection he with h; simp [← h]))
        have e : w ++ 0x22 :: (q ++ w1 ++ 0x3A :: (w2 ++ t ++ w' ++ [0x7D])) ++ r =
          w ++ 34 :: (q ++ (w1 ++ 58 :: (w2 ++ (t ++ (w' ++ 125 :: r))))) := by simp
        have hq := parseStr_ext (parseStr_complete hk n (by simp at hl; omega)) (Nat.le_refl _)
          (w1 ++ 58 :: (w2 ++ (t ++ (w' ++ 125 :: r))))
        rw [e, parseMembers, skip_at hw (by decide)]
        dsimp only
        rw [if_pos rfl, hq]
        dsimp only
        rw [List.nil_append, skip_at hw1 (by decide)]
        dsimp only
        rw [if_pos rfl, parseValue_ws (ws_iff.1 hw2), hp]
        dsimp only
        rw [skip_at hw' (by decide)]
        dsimp only
        rw [if_neg (by decide), if_pos rfl]
      | @cons k x m w q w1 w2 t w' u hw hk hw1 hw2 hv hw' hs =>
        have hp := ihv x t (w' ++ 44 :: (u ++ r)) hv (by simp at hl; omega)
          (follow_ws hw' (by intro b u he; injection he with h; simp [← h]))
        have e : w ++ 0x22 :: (q ++ w1 ++ 0x3A :: (w2 ++ t ++ w' ++ 0x2C :: u)) ++ r =
          w ++ 34 :: (q ++ (w1 ++ 58 :: (w2 ++ (t ++ (w' ++ 44 :: (u ++ r)))))) := by simp
        have hq := parseStr_ext (parseStr_complete hk n (by simp at hl; omega)) (Nat.le_refl _)
          (w1 ++ 58 :: (w2 ++ (t ++ (w' ++ 44 :: (u ++ r)))))
        rw [e, parseMembers, skip_at hw (by decide)]
        dsimp only
        rw [if_pos rfl, hq]
        dsimp only
        rw [List.nil_append, skip_at hw1 (by decide)]
        dsimp only
        rw [if_pos rfl, parseValue_ws (ws_iff.1 hw2), hp]
        dsimp only
        rw [skip_at hw' (by decide)]
        dsimp only
        rw [if_pos rfl, ihm m u r hs (by simp at hl; omega)]

theorem parseText_iff {s : GoString} {j : Json} : parseText s = some j ↔ Doc j s := by
  constructor
  · intro h
    unfold parseText at h
    split at h
    · simp at h
    · rename_i j' r hp
      split at h
      · rename_i hr
        simp only [Option.some.injEq] at h
        subst h
        obtain ⟨w, t, hw, ht, rfl⟩ := (parse_sound _).1 _ _ _ hp
        exact ⟨w, t, r, hw, ht, skipWs_nil hr, rfl⟩
      · simp at h
  · rintro ⟨w, t, w', hw, ht, hw', rfl⟩
    have hp := (parse_complete (2 * (w ++ t ++ w').length + 2)).1 j t w' ht (by simp; omega)
      (by have := follow_ws (r := []) hw' (by intro b u h; simp at h); simpa using this)
    unfold parseText
    rw [List.append_assoc] at hp ⊢
    rw [parseValue_ws (ws_iff.1 hw), hp]
    dsimp only
    rw [if_pos (ws_skip hw')]

theorem depthElems_le {n : Nat} {xs : List Json} : Json.depthElems xs ≤ n ↔ ∀ x ∈ xs, x.depth ≤ n := by
  induction xs with
  | nil => simp [Json.depthElems]
  | cons x xs ih => rw [Json.depthElems, Nat.max_le, ih]; simp

theorem depthMembers_le {n : Nat} {m : List (GoString × Json)} :
    Json.depthMembers m ≤ n ↔ ∀ kv ∈ m, kv.2.depth ≤ n := by
  induction m with
  | nil => simp [Json.depthMembers]
  | cons x m ih => obtain ⟨k, v⟩ := x; rw [Json.depthMembers, Nat.max_le, ih]; simp

theorem nests_of_depth : ∀ {n : Nat} {j : Json}, j.depth ≤ n → Nests n j
  | _, .null, _ => .null
  | _, .bool _, _ => .bool
  | _, .num _, _ => .num
  | _, .str _, _ => .str
  | 0, .arr xs, h => by rw [Json.depth] at h; omega
  | 0, .obj m, h => by rw [Json.depth] at h; omega
  | n + 1, .arr xs, h => by
    rw [Json.depth] at h
    have h := depthElems_le.1 (Nat.le_of_succ_le_succ h)
    exact .arr fun x hx => nests_of_depth (h x hx)
  | n + 1, .obj m, h => by
    rw [Json.depth] at h
    have h := depthMembers_le.1 (Nat.le_of_succ_le_succ h)
    exact .obj fun x hx => nests_of_depth (h x hx)

/-- The computed depth is the least nesting bound. -/
theorem nests_iff {n : Nat} {j : Json} : Nests n j ↔ j.depth ≤ n := by
  refine ⟨fun h => ?_, nests_of_depth⟩
  induction h with
  | null => simp [Json.depth]
  | bool => simp [Json.depth]
  | num => simp [Json.depth]
  | str => simp [Json.depth]
  | arr _ ih => rw [Json.depth]; exact Nat.succ_le_succ (depthElems_le.2 ih)
  | obj _ ih => rw [Json.depth]; exact Nat.succ_le_succ (depthMembers_le.2 ih)

theorem parseDoc_iff {s : GoString} {j : Json} : parseDoc s = some j ↔ Doc j s ∧ Nests 10000 j := by
  rw [← parseText_iff, nests_iff]
  unfold parseDoc
  constructor
  · intro h
    split at h
    · simp at h
    · rename_i j' hp
      split at h
      · rename_i hd
        cases h
        exact ⟨hp, hd⟩
      · simp at h
  · rintro ⟨h, hd⟩
    rw [h]
    dsimp only
    rw [if_pos hd]
end GoIdentity.JsonGrammar
