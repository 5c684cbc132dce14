import Verif.Props.Identity
import Verif.Spec.Fill
import Verif.Lemmas.JsonPrefix
import Mathlib.Data.List.Forall2
/-!
# What "in any letter case" means: C05
-/
set_option linter.unusedSectionVars false
namespace GoIdentity
open Toy

/-- C05: two texts of ASCII characters are the same name exactly if they have the same length and differ in the case of letters only. -/
theorem C05_letter_case [Ext] {s t : GoString} (hs : ∀ b ∈ s, b.toNat < 128) (ht : ∀ b ∈ t, b.toNat < 128) :
    toLower s = toLower t ↔ List.Forall₂ SameLetter s t := by
  have ha : ∀ {s : GoString}, (∀ b ∈ s, b.toNat < 128) → toLower s = s.map lowerByte := by
    intro s hs
    unfold toLower
    rw [if_pos]
    rw [List.all_eq_true]
    intro b hb
    simpa [isASCII] using hs b hb
  rw [ha hs, ha ht]
  have key : ∀ a b : UInt8, lowerByte a = lowerByte b ↔ SameLetter a b := by
    intro a b
    have h1 := a.toNat_lt
    have h2 := b.toNat_lt
    have hl : ∀ c : UInt8, (lowerByte c).toNat = if 65 ≤ c.toNat ∧ c.toNat ≤ 90 then c.toNat + 32 else c.toNat :=
      forall_bytes (P := fun c => (lowerByte c).toNat = if 65 ≤ c.toNat ∧ c.toNat ≤ 90 then c.toNat + 32 else c.toNat) (by decide +kernel)
    rw [← UInt8.toNat_inj, hl, hl]
    unfold SameLetter
    rw [← UInt8.toNat_inj]
    split <;> split <;> omega
  clear hs ht ha
  induction s generalizing t with
  | nil => cases t <;> simp
  | cons a s ih =>
    cases t with
    | nil => simp
    | cons b t => 
      rw [List.map_cons, List.map_cons, List.cons.injEq, List.forall₂_cons]
      exact and_congr (key a b) ih

/-- C05: a text of any characters is lowered character by character: ASCII letters as usual, characters beyond ASCII as Unicode says
(`Ext.lowerRune`), all others not at all. -/
theorem C05_characters [Ext] (rs : List Nat) (hrs : ∀ r ∈ rs, IsScalar r) :
    toLower (rs.flatMap encodeRune) =
      rs.flatMap fun r => encodeRune (if 65 ≤ r ∧ r ≤ 90 then r + 32 else if r < 128 then r else Ext.lowerRune r) := by
  have hlow : ∀ r, lowerRuneAll r = if 65 ≤ r ∧ r ≤ 90 then r + 32 else if r < 128 then r else Ext.lowerRune r := by
    intro r
    unfold lowerRuneAll
    by_cases h1 : r < 128
    · rw [if_pos h1, if_pos h1]
    · rw [if_neg h1, if_neg h1, if_neg (by omega)]
  unfold toLower
  split
  · rename_i ha
    rw [List.all_eq_true] at ha
    induction rs with
    | nil => rfl
    | cons r rs ih =>
      have h1 : r < 128 := by
        by_contra hc
        obtain ⟨b, t, hb⟩ := List.exists_cons_of_ne_nil (encodeRune_ne_nil r)
        have h2 := ha b (by rw [List.flatMap_cons, hb]; simp)
        have h3 := encodeRune_high (r := r) (by omega) b (by rw [hb]; simp)
        simp only [isASCII, decide_eq_true_eq] at h2
        omega
      rw [List.flatMap_cons, List.flatMap_cons, List.map_append, ih (fun x hx => hrs x (List.mem_cons_of_mem _ hx)) (fun b hb => ha b (by
        rw [List.flatMap_cons]; exact List.mem_append_right _ hb))]
      congr 1
      rw [encodeRune_ascii h1]
      have h4 : ∀ n < 128, [lowerByte (UInt8.ofNat n)] = encodeRune (if 65 ≤ n ∧ n ≤ 90 then n + 32 else if n < 128 then n else 0) := by
        decide +kernel
      have h5 := h4 r h1
      rw [if_pos h1] at h5 ⊢
      exact h5
  · clear * - hrs hlow
    induction rs with
    | nil => rfl
    | cons r rs ih =>
      rw [List.flatMap_cons, runes_encodeRune (hrs r (by simp)), List.flatMap_cons, List.flatMap_cons,
        ih (fun x hx => hrs x (List.mem_cons_of_mem _ hx)), hlow]

example : IsScalar 0xC9 ∧ [74, 0xC9].flatMap encodeRune = [74, 0xC3, 0x89] := ⟨by unfold IsScalar; decide, by decide⟩

-- "Joe" and "JOE" are one name, "joe[" and "joe{" are two.
example : List.Forall₂ SameLetter (gs! "Joe") (gs! "JOE") ∧ ¬ List.Forall₂ SameLetter (gs! "joe[") (gs! "joe{") := by
  refine ⟨(C05_letter_case (by decide) (by decide)).1 (by decide +kernel), fun h => ?_⟩
  exact absurd ((C05_letter_case (by decide) (by decide)).2 h) (by decide +kernel)

end GoIdentity
