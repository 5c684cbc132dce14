import Verif.Spec.Regex
import Verif.Model.Small
import Verif.Model.Policy
import Verif.Lemmas.Split
/-!
# Languages of the repository's patterns
-/
namespace GoIdentity

def InCls (items : List ClsItem) (c : Nat) : Prop := ∃ i ∈ items, i.has c

instance (items : List ClsItem) (c : Nat) : Decidable (InCls items c) := by unfold InCls; infer_instance

theorem pieces_of {Q : Nat → Prop} {ls : List (List Nat)} (h : ∀ l ∈ ls, ∃ c, l = [c] ∧ Q c) :
    ls.flatten.length = ls.length ∧ ∀ c ∈ ls.flatten, Q c := by
  induction ls with
  | nil => simp
  | cons l ls ih =>
    obtain ⟨h1, h2⟩ := ih fun x hx => h x (by simp [hx])
    obtain ⟨c, rfl, hc⟩ := h l (by simp)
    simp only [List.flatten_cons, List.singleton_append, List.length_cons, h1, true_and, List.mem_cons]
    rintro x (rfl | hx)
    · exact hc
    · exact h2 x hx

theorem singles {Q : Nat → Prop} {s : List Nat} (h : ∀ c ∈ s, Q c) :
    ∀ l ∈ s.map (fun c => [c]), ∃ c, l = [c] ∧ Q c := by
  intro l hl
  obtain ⟨c, hc, rfl⟩ := List.mem_map.1 hl
  exact ⟨c, rfl, h c hc⟩

theorem flatten_singles (s : List Nat) : (s.map fun c => [c]).flatten = s := by
  induction s with
  | nil => rfl
  | cons c s ih => simp [ih]

theorem lang_plus_cls {items : List ClsItem} {s : List Nat} :
    (Rx.plus (.cls items)).lang s ↔ s ≠ [] ∧ ∀ c ∈ s, InCls items c := by
  constructor
  · rintro ⟨ls, hne, hl, rfl⟩
    obtain ⟨h1, h2⟩ := pieces_of (Q := InCls items) hl
    refine ⟨?_, h2⟩
    intro e
    rw [e] at h1
    exact hne (List.length_eq_zero_iff.1 h1.symm)
  · rintro ⟨h1, h2⟩
    refine ⟨s.map fun c => [c], by simpa using h1, singles h2, (flatten_singles s).symm⟩

theorem lang_rep_cls {items : List ClsItem} {lo hi : Int} {s : List Nat} :
    (Rx.rep (.cls items) lo hi).lang s ↔ (lo ≤ s.length ∧ (s.length : Int) ≤ hi) ∧ ∀ c ∈ s, InCls items c := by
  constructor
  · rintro ⟨ls, hlen, hl, rfl⟩
    obtain ⟨h1, h2⟩ := pieces_of (Q := InCls items) hl
    rw [h1]
    exact ⟨hlen, h2⟩
  · rintro ⟨h1, h2⟩
    exact ⟨s.map fun c => [c], by simpa using h1, singles h2, (flatten_singles s).symm⟩

theorem lang_rep_any {lo hi : Int} {s : List Nat} :
    (Rx.rep .any lo hi).lang s ↔ (lo ≤ s.length ∧ (s.length : Int) ≤ hi) ∧ ∀ c ∈ s, c ≠ 10 := by
  constructor
  · rintro ⟨ls, hlen, hl, rfl⟩
    obtain ⟨h1, h2⟩ := pieces_of (Q := fun c => c ≠ 10) hl
    rw [h1]
    exact ⟨hlen, h2⟩
  · rintro ⟨h1, h2⟩
    exact ⟨s.map fun c => [c], by simpa using h1, singles h2, (flatten_singles s).symm⟩

/-! ## The email pattern -/

def alnumItems : List ClsItem := [.range 97 122, .range 65 90, .range 48 57]
def atextItems : List ClsItem := alnumItems ++ (gs! ".!#$%&'*+/=?^_`{|}~-").map .one
def labelItems : List ClsItem := alnumItems ++ [.one 45]

/-- `[a-zA-Z0-9](?:[a-zA-Z0-9-]{0,61}[a-zA-Z0-9])?` -/
def labelRx : Rx := .cat (.cls alnumItems) (.opt (.group (.cat (.rep (.cls labelItems) 0 61) (.cls alnumItems))))

/-- The expression of email.go:26-30 between its anchors. -/
def emailRx : Rx := .cat (.plus (.cls atextItems)) (.cat (.lit 64) (.cat labelRx (.star (.group (.cat (.esc 46) labelRx)))))

theorem inAlnum_iff (b : UInt8) : InCls alnumItems b.toNat ↔ isAlnum b = true := by
  have key : ∀ n : Fin 256, InCls alnumItems (UInt8.ofNat n.val).toNat ↔ isAlnum (UInt8.ofNat n.val) = true := by decide +kernel
  have := key ⟨b.toNat, b.toNat_lt⟩
  simpa using this

theorem inAtext_iff (b : UInt8) : InCls atextItems b.toNat ↔ isAtext b = true := by
  have key : ∀ n : Fin 256, InCls atextItems (UInt8.ofNat n.val).toNat ↔ isAtext (UInt8.ofNat n.val) = true := by decide +kernel
  have := key ⟨b.toNat, b.toNat_lt⟩
  simpa using this

theorem inLabel_iff (b : UInt8) : InCls labelItems b.toNat ↔ isLabelChar b = true := by
  have key : ∀ n : Fin 256, InCls labelItems (UInt8.ofNat n.val).toNat ↔ isLabelChar (UInt8.ofNat n.val) = true := by decide +kernel
  have := key ⟨b.toNat, b.toNat_lt⟩
  simpa using this

theorem ascii_items {items : List ClsItem} (h : items.all fun i => match i with | .range _ hi => decide (hi.toNat < 128) | .one b => decide (b.toNat < 128))
    {c : Nat} (hc : InCls items c) : c < 128 := by
  obtain ⟨i, hi, hh⟩ := hc
  rw [List.all_eq_true] at h
  have := h i hi
  cases i with
  | range lo hi => simp only [decide_eq_true_eq] at this; have := hh.2; omega
  | one b => simp only [decide_eq_true_eq] at this; have : c = b.toNat := hh; omega

/-- Expressions without `.` and with ASCII characters only. -/
def Rx.ascii : Rx → Bool
  | .cls items => items.all fun i => match i with | .range _ hi => decide (hi.toNat < 128) | .one b => decide (b.toNat < 128)
  | .lit b | .esc b => decide (b.toNat < 128)
  | .any => false
  | .cat a b => a.ascii && b.ascii
  | .group r | .opt r | .star r | .plus r | .rep r _ _ => r.ascii

theorem lang_ascii {r : Rx} (h : r.ascii = true) {s : List Nat} (hs : r.lang s) : ∀ c ∈ s, c < 128 := by
  have many : ∀ {r : Rx} {ls : List (List Nat)}, (∀ {s}, r.lang s → ∀ c ∈ s, c < 128) → (∀ l ∈ ls, r.lang l) →
      ∀ c ∈ ls.flatten, c < 128 := by
    intro r ls ih hl c hc
    obtain ⟨l, hl', hc'⟩ := List.mem_flatten.1 hc
    exact ih (hl l hl') c hc'
  induction r generalizing s with
  | cls items =>
    obtain ⟨c, rfl, hc⟩ := hs
    intro x hx
    simp only [List.mem_singleton] at hx
    subst hx
    exact ascii_items h hc
  | lit b =>
    have hs : s = [b.toNat] := hs
    subst hs
    simpa [Rx.ascii] using h
  | esc b =>
    have hs : s = [b.toNat] := hs
    subst hs
    simpa [Rx.ascii] using h
  | any => simp [Rx.ascii] at h
  | cat a b iha ihb =>
    simp only [Rx.ascii, Bool.and_eq_true] at h
    obtain ⟨u, v, rfl, hu, hv⟩ := hs
    intro c hc
    rcases List.mem_append.1 hc with hc | hc
    · exact iha h.1 hu c hc
    · exact ihb h.2 hv c hc
  | group r ih => exact ih h hs
  | opt r ih =>
    rcases hs with rfl | hs
    · simp
    · exact ih h hs
  | star r ih =>
    obtain ⟨ls, hl, rfl⟩ := hs
    exact many (ih h) hl
  | plus r ih =>
    obtain ⟨ls, _, hl, rfl⟩ := hs
    exact many (ih h) hl
  | rep r lo hi ih =>
    obtain ⟨ls, _, hl, rfl⟩ := hs
    exact many (ih h) hl

/-- Membership for ASCII expressions can be decided on the bytes. -/
theorem lang_codePoints {r : Rx} (h : r.ascii = true) (s : GoString) : r.lang (codePoints s) ↔ r.lang (s.map UInt8.toNat) := by
  constructor
  · intro hs
    have := ascii_of_codePoints (lang_ascii h hs)
    rwa [codePoints_ascii this] at hs
  · intro hs
    have := lang_ascii h hs
    rw [codePoints_ascii]
    · exact hs
    · intro b hb
      exact this _ (List.mem_map_of_mem hb)

theorem all_map {Q : Nat → Prop} {f : UInt8 → Bool} (hf : ∀ b : UInt8, Q b.toNat ↔ f b = true) {s : GoString} :
    (∀ c ∈ s.map UInt8.toNat, Q c) ↔ s.all f = true := by
  rw [List.all_eq_true]
  constructor
  · intro h b hb; exact (hf b).1 (h _ (List.mem_map_of_mem hb))
  · intro h c hc
    obtain ⟨b, hb, rfl⟩ := List.mem_map.1 hc
    exact (hf b).2 (h b hb)

/-- A label, as the expression has it. -/
def LabelShape (s : GoString) : Prop :=
  ∃ c rest, s = c :: rest ∧ isAlnum c = true ∧
    (rest = [] ∨ ∃ mid d, rest = mid ++ [d] ∧ mid.length ≤ 61 ∧ mid.all isLabelChar = true ∧ isAlnum d = true)

theorem lang_label (s : GoString) : labelRx.lang (s.map UInt8.toNat) ↔ LabelShape s := by
  unfold labelRx LabelShape
  constructor
  · rintro ⟨u, v, huv, ⟨c, rfl, hc⟩, hv⟩
    rw [List.singleton_append, List.map_eq_cons_iff] at huv
    obtain ⟨b, t, rfl, rfl, rfl⟩ := huv
    refine ⟨b, t, rfl, (inAlnum_iff b).1 hc, ?_⟩
    rcases hv with hv | hv
    · left; simpa using hv
    · right
      obtain ⟨m, w, hmw, hm, d, rfl, hd⟩ := hv
      rw [List.map_eq_append_iff] at hmw
      obtain ⟨mid, w', rfl, rfl, hw'⟩ := hmw
      rw [List.map_eq_cons_iff] at hw'
      obtain ⟨d', t', rfl, rfl, ht'⟩ := hw'
      have : t' = [] := by simpa using ht'
      subst this
      rw [lang_rep_cls] at hm
      refine ⟨mid, d', rfl, ?_, (all_map inLabel_iff).1 hm.2, (inAlnum_iff d').1 hd⟩
      have := hm.1.2
      rw [List.length_map] at this
      omega
  · rintro ⟨c, rest, rfl, hc, hr⟩
    refine ⟨[c.toNat], rest.map UInt8.toNat, rfl, ⟨_, rfl, (inAlnum_iff c).2 hc⟩, ?_⟩
    rcases hr with rfl | ⟨mid, d, rfl, hl, hm, hd⟩
    · left; rfl
    · right
      refine ⟨mid.map UInt8.toNat, [d.toNat], by simp, ?_, ⟨_, rfl, (inAlnum_iff d).2 hd⟩⟩
      rw [lang_rep_cls, List.length_map]
      exact ⟨⟨by omega, by omega⟩, (all_map inLabel_iff).2 hm⟩

theorem isLabelChar_of_alnum {b : UInt8} (h : isAlnum b = true) : isLabelChar b = true := by simp [isLabelChar, h]

theorem isLabel_iff (s : GoString) : isLabel s = true ↔ LabelShape s := by
  unfold isLabel LabelShape
  simp only [Bool.and_eq_true, decide_eq_true_eq]
  constructor
  · rintro ⟨⟨⟨⟨h1, h2⟩, h3⟩, h4⟩, h5⟩
    match s with
    | [] => simp at h1
    | c :: rest =>
      simp only [List.head?_cons] at h4
      refine ⟨c, rest, rfl, h4, ?_⟩
      rcases List.eq_nil_or_concat rest with rfl | ⟨mid, d, rfl⟩
      · exact .inl rfl
      · right
        rw [List.all_cons, List.concat_eq_append, List.all_append, Bool.and_eq_true, Bool.and_eq_true] at h3
        have hlast : (c :: mid.concat d).getLast? = some d := by simp [List.getLast?_cons]
        rw [hlast] at h5
        refine ⟨mid, d, by simp, ?_, h3.2.1, h5⟩
        simp only [List.length_cons, List.concat_eq_append, List.length_append, List.length_nil] at h2
        omega
  · rintro ⟨c, rest, rfl, hc, rfl | ⟨mid, d, rfl, hl, hm, hd⟩⟩
    · simp [hc, isLabelChar_of_alnum hc]
    · refine ⟨⟨⟨⟨by simp, by simp; omega⟩, ?_⟩, by simpa using hc⟩, ?_⟩
      · rw [List.all_cons, List.all_append, hm]
        simp [isLabelChar_of_alnum hc, isLabelChar_of_alnum hd]
      · have hlast : (c :: (mid ++ [d])).getLast? = some d := by simp [List.getLast?_cons]
        rw [hlast]; exact hd

theorem label_no_dot {s : GoString} (h : isLabel s = true) : (46 : UInt8) ∉ s := by
  intro hm
  unfold isLabel at h
  simp only [Bool.and_eq_true] at h
  have := (List.all_eq_true.1 h.1.1.2) 46 hm
  exact absurd this (by decide)

theorem join_flatten (p : GoString) (ps : List GoString) : joinWith [46] (p :: ps) = p ++ (ps.map (46 :: ·)).flatten := by
  induction ps generalizing p with
  | nil => simp [joinWith]
  | cons q qs ih => rw [joinWith_cons (by simp), ih q]; simp

theorem split_join {sep : UInt8} {p : GoString} {ps : List GoString} (h : ∀ q ∈ p :: ps, sep ∉ q) :
    splitByte sep (joinWith [sep] (p :: ps)) = p :: ps := by
  induction ps generalizing p with
  | nil => exact splitByte_no_sep (h p (by simp))
  | cons q qs ih =>
    rw [joinWith_cons (by simp), List.append_assoc, List.singleton_append, splitByte_append (h p (by simp)),
      ih fun x hx => h x (by simp only [List.mem_cons] at hx ⊢; exact .inr hx)]

/-- An address, as the expression has it. -/
def EmailShape (s : GoString) : Prop :=
  ∃ (loc lab : GoString) (labs : List GoString), loc ≠ [] ∧ loc.all isAtext = true ∧ (∀ l ∈ lab :: labs, isLabel l = true) ∧
    s = loc ++ 64 :: joinWith [46] (lab :: labs)

theorem lang_email (s : GoString) : emailRx.lang (s.map UInt8.toNat) ↔ EmailShape s := by
  unfold emailRx EmailShape
  constructor
  · rintro ⟨u, v, huv, hu, w, x, rfl, hw, y, z, rfl, hy, ls, hls, rfl⟩
    rw [List.map_eq_append_iff] at huv
    obtain ⟨loc, r, rfl, rfl, hr⟩ := huv
    have hw : w = [64] := hw
    subst hw
    rw [List.singleton_append, List.map_eq_cons_iff] at hr
    obtain ⟨a, r', rfl, ha, hr'⟩ := hr
    have ha : a = 64 := by
      have : a.toNat = (64 : UInt8).toNat := ha
      exact UInt8.toNat_inj.1 this
    subst ha
    rw [List.map_eq_append_iff] at hr'
    obtain ⟨lab, rest, rfl, rfl, hrest⟩ := hr'
    rw [lang_plus_cls] at hu
    rw [lang_label] at hy
    have key : ∀ (ls : List (List Nat)) (rest : GoString), (∀ l ∈ ls, (Rx.group (.cat (.esc 46) labelRx)).lang l) →
        rest.map UInt8.toNat = ls.flatten →
        ∃ labs : List GoString, (∀ l ∈ labs, isLabel l = true) ∧ rest = (labs.map (46 :: ·)).flatten := by
      intro ls
      induction ls with
      | nil => intro rest _ h; exact ⟨[], by simp, by simpa using h⟩
      | cons l ls ih =>
        intro rest hl h
        obtain ⟨p, q, rfl, hp, hq⟩ := hl l (by simp)
        have hp : p = [46] := hp
        subst hp
        rw [List.flatten_cons, List.append_assoc, List.singleton_append, List.map_eq_cons_iff] at h
        obtain ⟨a, r', rfl, ha, hr'⟩ := h
        have ha : a = 46 := by
          have : a.toNat = (46 : UInt8).toNat := ha
          exact UInt8.toNat_inj.1 this
        subst ha
        rw [List.map_eq_append_iff] at hr'
        obtain ⟨lab, rest', rfl, rfl, hrest'⟩ := hr'
        obtain ⟨labs, h1, h2⟩ := ih rest' (fun x hx => hl x (by simp [hx])) hrest'
        refine ⟨lab :: labs, ?_, by simp [h2]⟩
        intro x hx
        simp only [List.mem_cons] at hx
        rcases hx with rfl | hx
        · exact (isLabel_iff x).2 ((lang_label x).1 hq)
        · exact h1 x hx
    obtain ⟨labs, h1, h2⟩ := key ls rest hls hrest
    refine ⟨loc, lab, labs, by simpa using hu.1, (all_map inAtext_iff).1 hu.2, ?_, by rw [join_flatten, h2]⟩
    intro x hx
    simp only [List.mem_cons] at hx
    rcases hx with rfl | hx
    · exact (isLabel_iff x).2 hy
    · exact h1 x hx
  · rintro ⟨loc, lab, labs, h1, h2, h3, rfl⟩
    refine ⟨loc.map UInt8.toNat, (64 :: joinWith [46] (lab :: labs)).map UInt8.toNat, by simp, ?_, [64],
      (joinWith [46] (lab :: labs)).map UInt8.toNat, by simp, rfl, lab.map UInt8.toNat,
      ((labs.map (46 :: ·)).flatten).map UInt8.toNat, by rw [join_flatten, List.map_append], ?_,
      labs.map fun l => (46 :: l).map UInt8.toNat, ?_, ?_⟩
    · rw [lang_plus_cls]
      exact ⟨by simpa using h1, (all_map inAtext_iff).2 h2⟩
    · exact (lang_label lab).2 ((isLabel_iff lab).1 (h3 lab (by simp)))
    · intro l hl
      obtain ⟨x, hx, rfl⟩ := List.mem_map.1 hl
      exact ⟨[46], x.map UInt8.toNat, by simp, rfl, (lang_label x).2 ((isLabel_iff x).1 (h3 x (by simp [hx])))⟩
    · rw [List.map_flatten, List.map_map]; rfl

theorem emailMatch_iff (s : GoString) : emailMatch s = true ↔ EmailShape s := by
  have hat : isAtext 64 = false := by decide
  unfold emailMatch EmailShape
  constructor
  · intro h
    dsimp only at h
    have hs := List.takeWhile_append_dropWhile (p := (· != (64 : UInt8))) (l := s)
    cases hd : s.dropWhile (· != 64) with
    | nil => rw [hd] at h; simp at h
    | cons a dom =>
      rw [hd] at h
      simp only [Bool.and_eq_true, Bool.not_eq_true', List.isEmpty_eq_false_iff] at h
      obtain ⟨⟨h1, h2⟩, h3⟩ := h
      have ha : a = 64 := by
        have := List.head_dropWhile_not (p := (· != (64 : UInt8))) (l := s) (by rw [hd]; simp)
        simp only [hd, List.head_cons] at this
        simpa using this
      subst ha
      obtain ⟨lab, labs, hl⟩ : ∃ lab labs, splitByte 46 dom = lab :: labs := by
        cases hsp : splitByte 46 dom with
        | nil => exact absurd hsp (split_ne_nil 46 dom)
        | cons x y => exact ⟨x, y, rfl⟩
      refine ⟨s.takeWhile (· != 64), lab, labs, h1, h2, ?_, ?_⟩
      · rw [← hl]; exact List.all_eq_true.1 h3
      · rw [← hl, join_split, ← hd]; exact hs.symm
  · rintro ⟨loc, lab, labs, h1, h2, h3, rfl⟩
    have hne : ∀ b ∈ loc, (b != 64) = true := by
      intro b hb
      have := List.all_eq_true.1 h2 b hb
      simp only [bne_iff_ne]
      rintro rfl
      rw [hat] at this
      simp at this
    have ht : (loc ++ 64 :: joinWith [46] (lab :: labs)).takeWhile (· != 64) = loc := by
      rw [List.takeWhile_append_of_pos hne]; simp
    have hd : (loc ++ 64 :: joinWith [46] (lab :: labs)).dropWhile (· != 64) = 64 :: joinWith [46] (lab :: labs) := by
      rw [List.dropWhile_append_of_pos hne]; simp
    dsimp only
    rw [ht, hd]
    simp only [Bool.and_eq_true, Bool.not_eq_true', List.isEmpty_eq_false_iff]
    refine ⟨⟨h1, h2⟩, ?_⟩
    rw [split_join fun q hq => label_no_dot (h3 q hq), List.all_eq_true]
    exact h3

end GoIdentity
