import Verif.Model.Path
import Verif.Lemmas.Split
/-!
# Lemmas about paths
-/
namespace GoIdentity

/-- A component that names something: not empty, neither `.` nor `..`, without slash. -/
def PlainPart (c : GoString) : Prop := c ≠ [] ∧ c ≠ gs! "." ∧ c ≠ gs! ".." ∧ (47 : UInt8) ∉ c

theorem splitByte_parts_no_sep (sep : UInt8) (s : GoString) : ∀ c ∈ splitByte sep s, sep ∉ c := by
  induction s with
  | nil => simp [splitByte]
  | cons b t ih =>
    unfold splitByte
    split
    · intro c hc
      rcases List.mem_cons.1 hc with rfl | hc
      · simp
      · exact ih c hc
    · rename_i hb
      split
      · intro c hc; simp at hc; subst hc; simp [Ne.symm hb]
      · rename_i p ps he
        intro c hc
        rcases List.mem_cons.1 hc with rfl | hc
        · have := ih p (by rw [he]; simp)
          simp [this, Ne.symm hb]
        · exact ih c (by rw [he]; simp [hc])

/-- The shape of the components kept so far: plain ones on top of `..`s, which a rooted path has none of. -/
def CleanAcc (rooted : Bool) (acc : List GoString) : Prop :=
  ∃ ns k, acc = ns ++ List.replicate k (gs! "..") ∧ (∀ c ∈ ns, PlainPart c) ∧ (rooted = true → k = 0)

theorem cleanStep_acc {rooted : Bool} {acc : List GoString} {c : GoString} (h : CleanAcc rooted acc) (hc : (47 : UInt8) ∉ c) :
    CleanAcc rooted (cleanStep rooted acc c) := by
  obtain ⟨ns, k, rfl, hns, hk⟩ := h
  unfold cleanStep
  split
  · exact ⟨ns, k, rfl, hns, hk⟩
  · rename_i h1
    rw [not_or] at h1
    split
    · rename_i h2
      cases ns with
      | nil =>
        cases k with
        | zero =>
          cases rooted with
          | true => exact ⟨[], 0, rfl, by simp, fun _ => rfl⟩
          | false => exact ⟨[], 1, by rw [h2]; rfl, by simp, by simp⟩
        | succ k =>
          refine ⟨[], k + 2, ?_, by simp, ?_⟩
          · rw [h2]; simp [List.replicate_succ]
          · intro hr; exact absurd (hk hr) (by simp)
      | cons n ns =>
        have hn := hns n (by simp)
        refine ⟨ns, k, ?_, fun c hc => hns c (by simp [hc]), hk⟩
        simp only [List.cons_append]
        rw [if_neg hn.2.2.1]
    · rename_i h2
      refine ⟨c :: ns, k, rfl, ?_, hk⟩
      intro x hx
      rcases List.mem_cons.1 hx with rfl | hx
      · exact ⟨h1.1, h1.2, h2, hc⟩
      · exact hns x hx

theorem foldl_clean_acc {rooted : Bool} {l : List GoString} (hl : ∀ c ∈ l, (47 : UInt8) ∉ c) {acc : List GoString}
    (h : CleanAcc rooted acc) : CleanAcc rooted (l.foldl (cleanStep rooted) acc) := by
  induction l generalizing acc with
  | nil => exact h
  | cons c l ih => exact ih (fun c hc => hl c (by simp [hc])) (cleanStep_acc h (hl c (by simp)))

/-- The kept components: some `..`, none if the path is rooted, then plain ones. -/
theorem cleanParts_shape (s : GoString) :
    ∃ k ns, cleanParts s = List.replicate k (gs! "..") ++ ns ∧ (∀ c ∈ ns, PlainPart c) ∧ (s.head? = some 47 → k = 0) := by
  obtain ⟨ns, k, he, hns, hk⟩ := foldl_clean_acc (rooted := s.head? == some 47) (splitByte_parts_no_sep 47 s)
    (acc := []) ⟨[], 0, rfl, by simp, fun _ => rfl⟩
  refine ⟨k, ns.reverse, ?_, ?_, ?_⟩
  · unfold cleanParts; rw [he]; simp
  · intro c hc; exact hns c (List.mem_reverse.1 hc)
  · intro hr; exact hk (by simp [hr])

theorem foldl_plain {rooted : Bool} {l : List GoString} (hl : ∀ c ∈ l, PlainPart c) (acc : List GoString) :
    l.foldl (cleanStep rooted) acc = l.reverse ++ acc := by
  induction l generalizing acc with
  | nil => rfl
  | cons c l ih =>
    have hc := hl c (by simp)
    have : cleanStep rooted acc c = c :: acc := by
      unfold cleanStep
      rw [if_neg (by rw [not_or]; exact ⟨hc.1, hc.2.1⟩), if_neg hc.2.2.1]
    rw [List.foldl_cons, this, ih (fun c hc => hl c (by simp [hc]))]
    simp

theorem foldl_dotdots (k j : Nat) :
    (List.replicate k (gs! "..")).foldl (cleanStep false) (List.replicate j (gs! "..")) = List.replicate (k + j) (gs! "..") := by
  induction k generalizing j with
  | zero => simp
  | succ k ih =>
    rw [List.replicate_succ, List.foldl_cons]
    have : cleanStep false (List.replicate j (gs! "..")) (gs! "..") = List.replicate (j + 1) (gs! "..") := by
      cases j with
      | zero => decide
      | succ j => unfold cleanStep; simp [List.replicate_succ]
    rw [this, ih]
    congr 1; omega

theorem split_slashes {parts : List GoString} (hne : parts ≠ []) (h : ∀ c ∈ parts, (47 : UInt8) ∉ c) :
    splitByte 47 (joinWith [47] parts) = parts := by
  induction parts with
  | nil => exact absurd rfl hne
  | cons p ps ih =>
    by_cases hps : ps = []
    · subst hps; exact splitByte_no_sep (h p (by simp))
    · rw [joinWith_cons hps, List.append_assoc, List.singleton_append, splitByte_append (h p (by simp)),
        ih hps (fun c hc => h c (by simp [hc]))]

theorem head_join {parts : List GoString} (h : ∀ c ∈ parts, c ≠ [] ∧ (47 : UInt8) ∉ c) :
    (joinWith [47] parts).head? ≠ some 47 := by
  cases parts with
  | nil => simp [joinWith]
  | cons p ps =>
    obtain ⟨h1, h2⟩ := h p (by simp)
    cases p with
    | nil => exact absurd rfl h1
    | cons b p =>
      have : b ≠ 47 := fun hb => h2 (by simp [hb])
      cases ps <;> simp [joinWith, this]

theorem cleanParts_rooted {ns : List GoString} (hns : ∀ c ∈ ns, PlainPart c) : cleanParts (47 :: joinWith [47] ns) = ns := by
  unfold cleanParts
  have hs : splitByte 47 (47 :: joinWith [47] ns) = [] :: splitByte 47 (joinWith [47] ns) := by
    simp [splitByte]
  rw [hs, List.foldl_cons]
  have h0 : ∀ r, cleanStep r [] [] = [] := by intro r; simp [cleanStep]
  rw [h0]
  by_cases hne : ns = []
  · subst hne; decide
  · rw [split_slashes hne (fun c hc => (hns c hc).2.2.2), foldl_plain hns]
    simp

theorem cleanParts_relative {k : Nat} {ns : List GoString} (hns : ∀ c ∈ ns, PlainPart c)
    (hne : List.replicate k (gs! "..") ++ ns ≠ []) :
    cleanParts (joinWith [47] (List.replicate k (gs! "..") ++ ns)) = List.replicate k (gs! "..") ++ ns := by
  have hall : ∀ c ∈ List.replicate k (gs! "..") ++ ns, c ≠ [] ∧ (47 : UInt8) ∉ c := by
    intro c hc
    rcases List.mem_append.1 hc with hc | hc
    · rw [(List.mem_replicate.1 hc).2]; decide
    · exact ⟨(hns c hc).1, (hns c hc).2.2.2⟩
  have hh := head_join hall
  unfold cleanParts
  have hb : ((joinWith [47] (List.replicate k (gs! "..") ++ ns)).head? == some 47) = false := by
    revert hh; generalize (joinWith [47] (List.replicate k (gs! "..") ++ ns)).head? = x
    intro hh; simpa using hh
  rw [hb, split_slashes hne (fun c hc => (hall c hc).2), List.foldl_append]
  have := foldl_dotdots k 0
  simp only [List.replicate_zero, Nat.add_zero] at this
  rw [this, foldl_plain hns]
  simp

/-- The form of a cleaned path. -/
theorem pathClean_form (s : GoString) :
    (s.head? = some 47 ∧ ∃ ns, (∀ c ∈ ns, PlainPart c) ∧ pathClean s = 47 :: joinWith [47] ns) ∨
    (s.head? ≠ some 47 ∧ ∃ k ns, (∀ c ∈ ns, PlainPart c) ∧ List.replicate k (gs! "..") ++ ns ≠ [] ∧
      pathClean s = joinWith [47] (List.replicate k (gs! "..") ++ ns)) ∨
    (s.head? ≠ some 47 ∧ pathClean s = gs! ".") := by
  obtain ⟨k, ns, hp, hns, hk⟩ := cleanParts_shape s
  by_cases hr : s.head? = some 47
  · left
    refine ⟨hr, ns, hns, ?_⟩
    unfold pathClean
    rw [if_pos hr, hp, hk hr]; rfl
  · right
    by_cases hne : cleanParts s = []
    · right; exact ⟨hr, by unfold pathClean; rw [if_neg hr, if_pos hne]⟩
    · left
      exact ⟨hr, k, ns, hns, hp ▸ hne, by unfold pathClean; rw [if_neg hr, if_neg hne, hp]⟩

theorem pathClean_idem (s : GoString) : pathClean (pathClean s) = pathClean s := by
  rcases pathClean_form s with ⟨_, ns, hns, h⟩ | ⟨_, k, ns, hns, hne, h⟩ | ⟨_, h⟩
  · rw [h]
    unfold pathClean
    rw [if_pos (by rfl), cleanParts_rooted hns]
  · rw [h]
    have hall : ∀ c ∈ List.replicate k (gs! "..") ++ ns, c ≠ [] ∧ (47 : UInt8) ∉ c := by
      intro c hc
      rcases List.mem_append.1 hc with hc | hc
      · rw [(List.mem_replicate.1 hc).2]; decide
      · exact ⟨(hns c hc).1, (hns c hc).2.2.2⟩
    unfold pathClean
    rw [if_neg (head_join hall), cleanParts_relative hns hne, if_neg hne]
  · rw [h]; decide

theorem splitByte_join (sep : UInt8) (a b : GoString) : splitByte sep (a ++ [sep] ++ b) = splitByte sep a ++ splitByte sep b := by
  induction a with
  | nil => simp [splitByte]
  | cons x a ih =>
    by_cases hx : x = sep
    · subst hx
      show splitByte x (x :: (a ++ [x] ++ b)) = splitByte x (x :: a) ++ _
      simp only [splitByte, if_true, ih, List.cons_append]
    · show splitByte sep (x :: (a ++ [sep] ++ b)) = splitByte sep (x :: a) ++ _
      simp only [splitByte, if_neg hx, ih]
      cases h : splitByte sep a with
      | nil => exact absurd h (split_ne_nil sep a)
      | cons p ps => rfl

theorem joinPath_slash {a b : GoString} (ha : a ≠ []) : joinPath a (47 :: b) = joinPath a b := by
  unfold joinPath
  rw [if_pos ha, if_pos ha]
  have hh : (a ++ [47] ++ 47 :: b).head? = (a ++ [47] ++ b).head? := by
    cases a with
    | nil => exact absurd rfl ha
    | cons x a => rfl
  have hp : cleanParts (a ++ [47] ++ 47 :: b) = cleanParts (a ++ [47] ++ b) := by
    unfold cleanParts
    rw [hh, splitByte_join, splitByte_join, List.foldl_append, List.foldl_append]
    have : splitByte 47 (47 :: b) = [] :: splitByte 47 b := by simp [splitByte]
    rw [this, List.foldl_cons]
    have h0 : ∀ r acc, cleanStep r acc [] = acc := by intro r acc; simp [cleanStep]
    rw [h0]
  unfold pathClean
  rw [hh, hp]

theorem joinPath_absolute {a b : GoString} (ha : a.head? = some 47) :
    ∃ ns, (∀ c ∈ ns, PlainPart c) ∧ joinPath a b = 47 :: joinWith [47] ns := by
  cases a with
  | nil => simp at ha
  | cons x a =>
    unfold joinPath
    rw [if_pos (by simp)]
    rcases pathClean_form (x :: a ++ [47] ++ b) with ⟨_, h⟩ | ⟨h, _⟩ | ⟨h, _⟩
    · exact h
    · exact absurd ha h
    · exact absurd ha h

end GoIdentity
