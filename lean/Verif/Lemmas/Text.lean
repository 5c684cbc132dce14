import Verif.Lemmas.Shape
import Verif.Lemmas.Split
import Verif.Spec.Utf8World
/-!
# Cutting valid UTF-8 gives valid UTF-8, and so everything stored is valid
-/
set_option linter.unusedSectionVars false
namespace GoIdentity

/-! ## Cutting -/

/-- The bytes of a code point after the first are continuation bytes. -/
theorem encodeRune_tail {r : Nat} (h : IsScalar r) : ∃ b t, encodeRune r = b :: t ∧ ∀ c ∈ t, isCont c = true := by
  have key : ∀ n : Nat, isCont (UInt8.ofNat (0x80 + n % 64)) = true := by
    intro n
    have : n % 64 < 64 := Nat.mod_lt _ (by decide)
    rw [isCont_iff, u8_toNat (by omega)]
    omega
  unfold encodeRune
  split
  · exact ⟨_, _, rfl, by simp⟩
  · split
    · exact ⟨_, _, rfl, by simp only [List.mem_singleton, forall_eq, key]⟩
    · split
      · rename_i hs; obtain ⟨h1, h2⟩ := h; omega
      · split
        · exact ⟨_, _, rfl, by
            intro c hc
            simp only [List.mem_cons, List.not_mem_nil, or_false] at hc
            rcases hc with rfl | rfl <;> exact key _⟩
        · exact ⟨_, _, rfl, by
            intro c hc
            simp only [List.mem_cons, List.not_mem_nil, or_false] at hc
            rcases hc with rfl | rfl | rfl <;> exact key _⟩

/-- A valid string may be cut before a byte that is not a continuation byte. -/
theorem utf8_cut {s : GoString} (h : Utf8 s) : ∀ a b : GoString, s = a ++ b → (∀ c, b.head? = some c → isCont c = false) →
    Utf8 a ∧ Utf8 b := by
  refine valid_induct (P := fun s => ∀ a b : GoString, s = a ++ b → (∀ c, b.head? = some c → isCont c = false) →
    Utf8 a ∧ Utf8 b) ?_ ?_ h
  · intro a b hs _
    obtain ⟨rfl, rfl⟩ := List.append_eq_nil_iff.1 hs.symm
    exact ⟨rfl, rfl⟩
  · intro r t hr ih a b hs hb
    rcases List.append_eq_append_iff.1 hs with ⟨a', h1, h2⟩ | ⟨c', h1, h2⟩
    · obtain ⟨h3, h4⟩ := ih a' b h2 hb
      exact ⟨by rw [h1]; unfold Utf8; rw [validUTF8_encodeRune hr]; exact h3, h4⟩
    · cases a with
      | nil =>
        refine ⟨rfl, ?_⟩
        rw [List.nil_append] at hs
        rw [← hs]
        unfold Utf8
        rw [validUTF8_encodeRune hr]
        exact (ih t [] (by simp) (by simp)).1
      | cons x xs =>
        cases c' with
        | nil =>
          rw [List.append_nil] at h1
          rw [List.nil_append] at h2
          subst h2
          refine ⟨?_, (ih b [] (by simp) (by simp)).1⟩
          have := validUTF8_encodeRune hr []
          rw [List.append_nil, h1] at this
          exact this
        | cons y ys =>
          obtain ⟨b0, tl, he, ht⟩ := encodeRune_tail hr
          rw [he] at h1
          simp only [List.cons_append, List.cons.injEq] at h1
          have h5 := ht y (by rw [h1.2]; simp)
          have h6 := hb y (by rw [h2]; rfl)
          rw [h5] at h6
          cases h6

theorem isCont_ascii {b : UInt8} (h : b.toNat < 128) : isCont b = false := by
  simp [isCont]; omega

/-- A valid string does not begin with a continuation byte. -/
theorem utf8_head {s : GoString} (h : Utf8 s) : ∀ c, s.head? = some c → isCont c = false := by
  refine valid_induct (P := fun s => ∀ c, s.head? = some c → isCont c = false) (by simp) ?_ h
  intro r t hr _ c hc
  have key : ∀ n : Nat, n < 256 → (0xC0 ≤ n ∨ n < 0x80) → isCont (UInt8.ofNat n) = false := by
    intro n h1 h2
    rw [Bool.eq_false_iff]
    intro h3
    rw [isCont_iff, u8_toNat h1] at h3
    omega
  unfold IsScalar at hr
  unfold encodeRune at hc
  split at hc
  · simp only [List.head?_cons, List.cons_append, Option.some.injEq] at hc; subst hc; exact key _ (by omega) (by omega)
  · split at hc
    · simp only [List.head?_cons, List.cons_append, Option.some.injEq] at hc; subst hc; exact key _ (by omega) (by omega)
    · split at hc
      · omega
      · split at hc
        · simp only [List.head?_cons, List.cons_append, Option.some.injEq] at hc; subst hc; exact key _ (by omega) (by omega)
        · simp only [List.head?_cons, List.cons_append, Option.some.injEq] at hc; subst hc; exact key _ (by omega) (by omega)

/-- The rest of a valid string after a valid prefix is valid, and the beginning before a valid suffix. -/
theorem utf8_suffix {a b : GoString} (h : Utf8 (a ++ b)) (ha : Utf8 a) : Utf8 b := by
  refine valid_induct (P := fun a => Utf8 (a ++ b) → Utf8 b) (fun h => h) ?_ ha h
  intro r t hr ih h
  rw [List.append_assoc] at h
  unfold Utf8 at h
  rw [validUTF8_encodeRune hr] at h
  exact ih h

theorem utf8_prefix {a b : GoString} (h : Utf8 (a ++ b)) (hb : Utf8 b) : Utf8 a := (utf8_cut h a b rfl (utf8_head hb)).1

theorem utf8_ascii_cons {b : UInt8} {s : GoString} (hb : b.toNat < 128) : Utf8 (b :: s) ↔ Utf8 s := by
  constructor
  · intro h; exact utf8_suffix (a := [b]) h (validUTF8_ascii (by simpa using hb))
  · intro h; exact validUTF8_append (s := [b]) (validUTF8_ascii (by simpa using hb)) h

theorem utf8_blank {s : GoString} (h : Blank s) : Utf8 s := by
  obtain ⟨ps, hp, rfl⟩ := h
  have hall : ∀ p ∈ spaceRunes, validUTF8 p = true := by decide
  induction ps with
  | nil => rfl
  | cons p ps ih =>
    rw [List.flatten_cons]
    exact validUTF8_append (hall p (hp p (by simp))) (ih fun q hq => hp q (by simp [hq]))

theorem utf8_trimSpace {s : GoString} (h : Utf8 s) : Utf8 (trimSpace s) := by
  obtain ⟨a, ha, h1⟩ := trimLeft_decomp s
  obtain ⟨b, hb, h2⟩ := trimRight_decomp (trimLeft s)
  have h3 : Utf8 (trimLeft s) := utf8_suffix (a := a) (by rw [← h1]; exact h) (utf8_blank ha)
  rw [h2] at h3
  exact utf8_prefix h3 (utf8_blank hb)

/-- Cutting at an ASCII byte. -/
theorem utf8_at_ascii {a t : GoString} {b : UInt8} (hb : b.toNat < 128) (h : Utf8 (a ++ b :: t)) : Utf8 a ∧ Utf8 t := by
  obtain ⟨h1, h2⟩ := utf8_cut h a (b :: t) rfl (by intro c hc; simp at hc; subst hc; exact isCont_ascii hb)
  exact ⟨h1, (utf8_ascii_cons hb).1 h2⟩

theorem utf8_splitByte {sep : UInt8} (hsep : sep.toNat < 128) : ∀ (n : Nat) {s : GoString}, s.length ≤ n → Utf8 s →
    ∀ p ∈ splitByte sep s, Utf8 p := by
  intro n
  induction n with
  | zero =>
    intro s hn hs p hp
    cases s with
    | nil => simp [splitByte] at hp; subst hp; rfl
    | cons => simp at hn
  | succ n ih =>
    intro s hn hs p hp
    rcases sep_cases sep s with h | ⟨a, t, ha, rfl⟩
    · rw [splitByte_no_sep h] at hp; simp at hp; subst hp; exact hs
    · rw [splitByte_append ha] at hp
      obtain ⟨h1, h2⟩ := utf8_at_ascii hsep hs
      rcases List.mem_cons.1 hp with rfl | hp
      · exact h1
      · refine ih ?_ h2 p hp
        simp only [List.length_append, List.length_cons] at hn
        omega

theorem utf8_split {sep : UInt8} (hsep : sep.toNat < 128) {s : GoString} (h : Utf8 s) : ∀ p ∈ splitByte sep s, Utf8 p :=
  utf8_splitByte hsep s.length (Nat.le_refl _) h

theorem utf8_join {sep : GoString} (hsep : Utf8 sep) {ps : List GoString} (h : ∀ p ∈ ps, Utf8 p) : Utf8 (joinWith sep ps) := by
  induction ps with
  | nil => rfl
  | cons p ps ih =>
    cases ps with
    | nil => exact h p (by simp)
    | cons q qs =>
      rw [joinWith]
      · exact validUTF8_append (validUTF8_append (h p (by simp)) hsep) (ih fun x hx => h x (by simp [hx]))
      · simp

end GoIdentity
