import Verif.Spec.PemFirst
import Verif.Lemmas.PemSound
import Verif.Lemmas.Base64
/-!
# The PEM reader finds the first block
-/
namespace GoIdentity

set_option linter.unusedSectionVars false
variable [Ext]

/-! ## Lines -/

theorem pemLine_break {a r : GoString} (h : (10 : UInt8) ∉ a) :
    pemLine (a ++ 10 :: r) = (trimRightBlank (if hasSuffix a [13] then a.take (a.length - 1) else a), r) := by
  have hi : (a ++ 10 :: r).findIdx? (· == 10) = some a.length := by
    rw [List.findIdx?_append, List.findIdx?_eq_none_iff.2]
    · simp [List.findIdx?_cons]
    · intro x hx
      simp only [beq_eq_false_iff_ne]
      rintro rfl; exact h hx
  unfold pemLine
  rw [hi]
  dsimp only
  have h1 : (a ++ 10 :: r).take a.length = a := by simp
  rw [h1]
  simp

theorem pemLine_break_mem {a r : GoString} (h : (10 : UInt8) ∉ a) {x : UInt8} (hx : x ∈ (pemLine (a ++ 10 :: r)).1) : x ∈ a := by
  rw [pemLine_break h] at hx
  have := mem_trimRightBlank hx
  split at this
  · exact List.mem_of_mem_take this
  · exact this

/-- A text with a line break in it, at the first one. -/
theorem break_split {s : GoString} (h : (10 : UInt8) ∈ s) : ∃ a r, s = a ++ 10 :: r ∧ (10 : UInt8) ∉ a := by
  obtain ⟨a, r, hs, ha⟩ := List.eq_append_cons_of_mem h
  exact ⟨a, r, hs, ha⟩

theorem pemLine_before {a b : GoString} {x : UInt8} (hx : x ∈ (pemLine (a ++ 10 :: b)).1) : x ∈ a := by
  by_cases h : (10 : UInt8) ∈ a
  · obtain ⟨c, r, rfl, hc⟩ := break_split h
    have := pemLine_break_mem (r := r ++ 10 :: b) hc (x := x) (by simpa using hx)
    simp [this]
  · exact pemLine_break_mem h hx

theorem trimRightBlank_dash {a bl : GoString} (hbl : ∀ b ∈ bl, b = 32 ∨ b = 9) :
    trimRightBlank ((a ++ [45]) ++ bl) = a ++ [45] := by
  unfold trimRightBlank
  rw [List.reverse_append, List.dropWhile_append_of_pos]
  · simp
  · intro x hx
    rcases hbl x (List.mem_reverse.1 hx) with rfl | rfl <;> rfl

theorem trimRightBlank_blank {bl : GoString} (hbl : ∀ b ∈ bl, b = 32 ∨ b = 9) : trimRightBlank bl = [] := by
  unfold trimRightBlank
  rw [List.reverse_eq_nil_iff]
  have h : ∀ l : GoString, (∀ b ∈ l, b = 32 ∨ b = 9) → l.dropWhile (fun b => b == 32 || b == 9) = [] := by
    intro l hl
    induction l with
    | nil => rfl
    | cons b l ih =>
      rw [List.dropWhile_cons_of_pos]
      · exact ih fun x hx => hl x (List.mem_cons_of_mem _ hx)
      · rcases hl b (by simp) with rfl | rfl <;> rfl
  exact h _ fun x hx => hbl x (List.mem_reverse.1 hx)

theorem hasSuffix_cr_append {a : GoString} : hasSuffix (a ++ [13]) [13] = true :=
  List.isSuffixOf_iff_suffix.2 ⟨a, rfl⟩

theorem hasSuffix_cr_false {a : GoString} (h : a.getLast? ≠ some 13) : hasSuffix a [13] = false := by
  rw [Bool.eq_false_iff]
  intro hs
  obtain ⟨t, ht⟩ := List.isSuffixOf_iff_suffix.1 hs
  exact h (by rw [← ht]; simp)

theorem last_blank {a bl : GoString} (ha : a.getLast? ≠ some 13) (hbl : ∀ b ∈ bl, b = 32 ∨ b = 9) : (a ++ bl).getLast? ≠ some 13 := by
  rw [List.getLast?_append]
  cases h : bl.getLast? with
  | none => simpa using ha
  | some b =>
    rcases hbl b (List.mem_of_getLast? h) with rfl | rfl <;> simp

/-- The rest of a line break after something that ends neither in a blank nor in a carriage return. -/
theorem pemLine_ends {a e r : GoString} (h : (10 : UInt8) ∉ a) (hd : a = [] ∨ ∃ c, a = c ++ [45]) (he : LineEnd e) :
    pemLine (a ++ e ++ r) = (a, r) := by
  obtain ⟨bl, hbl, he⟩ := he
  have hb10 : (10 : UInt8) ∉ bl := by
    intro hm; rcases hbl _ hm with h | h <;> simp at h
  have ht : trimRightBlank (a ++ bl) = a := by
    rcases hd with rfl | ⟨c, rfl⟩
    · exact trimRightBlank_blank hbl
    · exact trimRightBlank_dash hbl
  have ha : a.getLast? ≠ some 13 := by
    rcases hd with rfl | ⟨c, rfl⟩ <;> simp
  rcases he with rfl | rfl
  · have e1 : a ++ (bl ++ [10]) ++ r = (a ++ bl) ++ 10 :: r := by simp
    rw [e1, pemLine_break (by simp [h, hb10]), hasSuffix_cr_false (last_blank ha hbl)]
    simp [ht]
  · have e1 : a ++ (bl ++ [13, 10]) ++ r = (a ++ bl ++ [13]) ++ 10 :: r := by simp
    rw [e1, pemLine_break (by simp [h, hb10]), hasSuffix_cr_append]
    have e2 : (a ++ bl ++ [13]).take ((a ++ bl ++ [13]).length - 1) = a ++ bl := by
      rw [List.length_append, List.length_singleton, Nat.add_sub_cancel, List.take_left]
    rw [if_pos rfl, e2, ht]

theorem pemLine_restBlank {post : GoString} (h : RestBlank post) : (pemLine post).1 = [] := by
  obtain ⟨bl, hbl, h⟩ := h
  rcases h with rfl | ⟨r, rfl | rfl⟩
  · unfold pemLine
    rw [List.findIdx?_eq_none_iff.2]
    · exact trimRightBlank_blank hbl
    · intro x hx
      rcases hbl x hx with rfl | rfl <;> rfl
  · have := pemLine_ends (a := []) (r := r) (by simp) (.inl rfl) ⟨bl, hbl, .inl rfl⟩
    rw [show bl ++ 10 :: r = [] ++ (bl ++ [10]) ++ r by simp, this]
  · have := pemLine_ends (a := []) (r := r) (by simp) (.inl rfl) ⟨bl, hbl, .inr rfl⟩
    rw [show bl ++ 13 :: 10 :: r = [] ++ (bl ++ [13, 10]) ++ r by simp, this]

/-- The first line of whole lines. -/
theorem pemLine_within {m : GoString} (h : m.getLast? = some 10) :
    ∃ c y, m = c ++ y ∧ c ≠ [] ∧ WholeLines c ∧ WholeLines y ∧ ∀ x, (pemLine (m ++ x)).2 = y ++ x := by
  obtain ⟨a, r, rfl, ha⟩ := break_split (List.mem_of_getLast? h)
  refine ⟨a ++ [10], r, by simp, by simp, .inr (by simp), ?_, ?_⟩
  · cases r with
    | nil => exact .inl rfl
    | cons b r =>
      right
      rw [List.getLast?_append, List.getLast?_cons_cons] at h
      cases hr : (b :: r).getLast? with
      | none => simp at hr
      | some z => rw [hr] at h; simpa using h
  · intro x
    have : a ++ 10 :: r ++ x = a ++ 10 :: (r ++ x) := by simp
    rw [this, pemLine_break ha]

theorem WholeLines.append {a b : GoString} (ha : WholeLines a) (hb : WholeLines b) : WholeLines (a ++ b) := by
  rcases hb with rfl | hb
  · simpa using ha
  · right; rw [List.getLast?_append, hb]; rfl

/-! ## Headers -/

/-- The loop over the header lines stops at a line without a colon. -/
theorem pemHeaders_stop {z : GoString} (hz : z ≠ []) (hcol : containsByte 58 (pemLine z).1 = false) (fuel : Nat) (any : Bool) (y : GoString)
    (hy : WholeLines y) (hf : (y ++ z).length < fuel) :
    ∃ any' c y', y = c ++ y' ∧ WholeLines c ∧ WholeLines y' ∧ pemHeaders fuel any (y ++ z) = some (any', y' ++ z) := by
  induction fuel generalizing any y with
  | zero => omega
  | succ fuel ih =>
    rcases hy with rfl | hy
    · refine ⟨any, [], [], rfl, .inl rfl, .inl rfl, ?_⟩
      cases z with
      | nil => exact absurd rfl hz
      | cons b t =>
        rw [List.nil_append, pemHeaders]
        dsimp only
        rw [hcol]
        rfl
    · obtain ⟨c, y1, rfl, hc, hcw, hyw, hl⟩ := pemLine_within hy
      have hne : ∃ b t, (c ++ y1) ++ z = b :: t := by
        cases c with
        | nil => exact absurd rfl hc
        | cons b t => exact ⟨b, _, rfl⟩
      obtain ⟨b, t, hbt⟩ := hne
      have hl := hl z
      rw [hbt] at hl hf ⊢
      rw [pemHeaders]
      dsimp only
      have hlen := congrArg List.length hbt
      have hcl : 0 < c.length := List.length_pos_iff.2 hc
      simp only [List.length_append, List.length_cons] at hlen hf
      split
      · obtain ⟨any', c', y', rfl, h1, h2, h3⟩ := ih true y1 hyw (by simp only [List.length_append]; omega)
        rw [hl]
        exact ⟨any', c ++ c', y', by simp, hcw.append h1, h2, h3⟩
      · exact ⟨any, [], c ++ y1, rfl, .inl rfl, hcw.append hyw, by rw [← hbt]⟩

/-- All the header lines are passed over. -/
theorem pemHeaders_all {z : GoString} (hz : z ≠ []) (hcol : containsByte 58 (pemLine z).1 = false) {hdr : GoString} (hh : HeaderLines hdr)
    (fuel : Nat) (any : Bool) (hf : (hdr ++ z).length < fuel) :
    ∃ any', pemHeaders fuel any (hdr ++ z) = some (any', z) ∧ (hdr = [] → any' = any) := by
  induction hh generalizing fuel any with
  | nil =>
    cases fuel with
    | zero => omega
    | succ fuel =>
      cases z with
      | nil => exact absurd rfl hz
      | cons b t =>
        refine ⟨any, ?_, fun _ => rfl⟩
        rw [List.nil_append, pemHeaders]
        dsimp only
        rw [hcol]
        rfl
  | @cons l rest hc hn _ ih =>
    cases fuel with
    | zero => omega
    | succ fuel =>
      have hbt : ∃ b t, (l ++ 10 :: rest) ++ z = b :: t := by
        cases l with
        | nil => exact ⟨_, _, rfl⟩
        | cons b t => exact ⟨b, _, rfl⟩
      obtain ⟨b, t, hbt⟩ := hbt
      have hl : pemLine (b :: t) = (trimRightBlank (if hasSuffix l [13] then l.take (l.length - 1) else l), rest ++ z) := by
        rw [← hbt, List.append_assoc, List.cons_append, pemLine_break hn]
      have hcm : containsByte 58 (trimRightBlank (if hasSuffix l [13] then l.take (l.length - 1) else l)) = true := by
        have h1 : (58 : UInt8) ∈ (if hasSuffix l [13] then l.take (l.length - 1) else l) := by
          split
          · rename_i hs
            obtain ⟨t, ht⟩ := List.isSuffixOf_iff_suffix.1 hs
            subst ht
            rw [List.length_append, List.length_singleton, Nat.add_sub_cancel, List.take_left]
            simpa using hc
          · exact hc
        generalize (if hasSuffix l [13] then l.take (l.length - 1) else l) = q at h1
        obtain ⟨bl, h2, h3⟩ := trimRightBlank_spec q
        rw [h2, List.mem_append] at h1
        rcases h1 with h1 | h1
        · simpa [containsByte] using h1
        · rcases h3 _ h1 with h | h <;> simp at h
      have hlen := congrArg List.length hbt
      simp only [List.length_append, List.length_cons] at hlen hf
      obtain ⟨any', h1, _⟩ := ih fuel true (by simp only [List.length_append]; omega)
      refine ⟨any', ?_, fun h => by simp at h⟩
      rw [hbt, pemHeaders]
      dsimp only
      rw [hl]
      dsimp only
      rw [hcm, if_pos rfl, h1]

/-! ## The body -/

theorem b64Val_plain {x : UInt8} {n : Nat} (h : b64Val x = some n) : x ≠ 45 ∧ x ≠ 58 := by
  constructor <;> (rintro rfl; revert h; simp [b64Val])

theorem groups_plain : ∀ (t x : GoString), b64DecodeGroups t = some x → ∀ c ∈ t, c ≠ 45 ∧ c ≠ 58
  | [], _, _ => by simp
  | [a], _, h => by simp [b64DecodeGroups] at h
  | [a, b], _, h => by simp [b64DecodeGroups] at h
  | [a, b, c], _, h => by simp [b64DecodeGroups] at h
  | a :: b :: c :: d :: t, x, h => by
    rw [b64DecodeGroups.eq_def] at h
    dsimp only at h
    cases ha : b64Val a with
    | none => simp [ha] at h
    | some va =>
    cases hb : b64Val b with
    | none => simp [ha, hb] at h
    | some vb =>
    rw [ha, hb] at h
    dsimp only at h
    have pa := b64Val_plain ha
    have pb := b64Val_plain hb
    have pe : (61 : UInt8) ≠ 45 ∧ (61 : UInt8) ≠ 58 := by decide
    by_cases hc : c = 61
    · rw [if_pos hc] at h
      split at h
      · rename_i hd
        obtain ⟨rfl, rfl⟩ := hd
        subst hc
        simp [pa, pb]
      · simp at h
    · rw [if_neg hc] at h
      cases hcv : b64Val c with
      | none => simp [hcv] at h
      | some vc =>
      have pc := b64Val_plain hcv
      rw [hcv] at h
      dsimp only at h
      by_cases hd : d = 61
      · rw [if_pos hd] at h
        split at h
        · rename_i ht
          subst ht hd
          simp [pa, pb, pc]
        · simp at h
      · rw [if_neg hd] at h
        cases hdv : b64Val d with
        | none => simp [hdv] at h
        | some vd =>
        have pd := b64Val_plain hdv
        rw [hdv] at h
        dsimp only at h
        cases hr : b64DecodeGroups t with
        | none => simp [hr] at h
        | some r =>
        have := groups_plain t r hr
        intro y hy
        simp only [List.mem_cons] at hy
        rcases hy with rfl | rfl | rfl | rfl | hy
        · exact pa
        · exact pb
        · exact pc
        · exact pd
        · exact this y hy

theorem body_plain {body der : GoString} (h : b64Decode (body.filter fun b => !(b == 32 || b == 9)) = some der) :
    ∀ c ∈ body, c ≠ 45 ∧ c ≠ 58 := by
  intro c hc
  by_cases h1 : (c == 32 || c == 9) = true
  · simp only [Bool.or_eq_true, beq_iff_eq] at h1
    rcases h1 with rfl | rfl <;> decide
  by_cases h2 : (c == 10 || c == 13) = true
  · simp only [Bool.or_eq_true, beq_iff_eq] at h2
    rcases h2 with rfl | rfl <;> decide
  refine groups_plain _ _ h c ?_
  rw [List.mem_filter, List.mem_filter]
  exact ⟨⟨hc, by simpa using h1⟩, by simpa using h2⟩

theorem pemBody_of {label body brk post der : GoString} {any : Bool}
    (hb : brk = [10] ∨ brk = [] ∧ any = false ∧ body = []) (hp : RestBlank post)
    (hd : b64Decode (body.filter fun b => !(b == 32 || b == 9)) = some der) :
    pemBody label any (body ++ brk ++ gs! "-----END " ++ label ++ gs! "-----" ++ post) = some der := by
  have hm : pemEndMark any (body ++ brk ++ gs! "-----END " ++ label ++ gs! "-----" ++ post) =
      some (body, label ++ gs! "-----" ++ post) := by
    unfold pemEndMark
    rcases hb with rfl | ⟨rfl, rfl, rfl⟩
    · have hpl := body_plain hd
      rw [if_neg]
      · have e1 : body ++ [10] ++ gs! "-----END " ++ label ++ gs! "-----" ++ post =
            body ++ 10 :: 45 :: gs! "----END " ++ (label ++ gs! "-----" ++ post) := by simp
        have := indexSub_first (w := body) (p := gs! "----END ") (r := label ++ gs! "-----" ++ post) (fun x hx => (hpl x hx).1)
        rw [e1, show gs! "\n-----END " = 10 :: 45 :: gs! "----END " from rfl, this]
        simp
      · simp only [Bool.and_eq_true, not_and, Bool.not_eq_true]
        intro _
        rw [Bool.eq_false_iff]
        intro h
        have h := hasPrefix_split h
        cases body with
        | nil => simp at h
        | cons c body =>
          simp only [List.cons_append, List.cons.injEq] at h
          exact (hpl c (by simp)).1 h.1
    · rw [if_pos]
      · simp
      · simp only [Bool.and_eq_true]
        refine ⟨rfl, List.isPrefixOf_iff_prefix.2 ⟨label ++ gs! "-----" ++ post, by simp⟩⟩
  unfold pemBody
  rw [hm]
  dsimp only
  have h1 : hasPrefix (label ++ gs! "-----" ++ post) (label ++ gs! "-----") = true :=
    List.isPrefixOf_iff_prefix.2 ⟨post, rfl⟩
  have h2 : (label ++ gs! "-----" ++ post).drop (label.length + 5) = post := by
    have : (label ++ gs! "-----").length = label.length + 5 := by simp
    rw [← this, List.drop_left]
  rw [h1, h2, pemLine_restBlank hp]
  simpa using hd

/-- The text after the headers of a block begins with a line without a colon. -/
theorem block_no_colon {label body brk post der : GoString} (hl : 58 ∉ label) (hb : brk = [10] ∨ brk = [] ∧ body = []) (hp : RestBlank post)
    (hd : b64Decode (body.filter fun b => !(b == 32 || b == 9)) = some der) :
    containsByte 58 (pemLine (body ++ brk ++ gs! "-----END " ++ label ++ gs! "-----" ++ post)).1 = false := by
  have key : (58 : UInt8) ∉ (pemLine (body ++ brk ++ gs! "-----END " ++ label ++ gs! "-----" ++ post)).1 := by
    intro hm
    have hbl : ∀ bl : GoString, (∀ b ∈ bl, b = 32 ∨ b = 9) → (58 : UInt8) ∉ bl := by
      intro bl hbl h
      rcases hbl _ h with h | h <;> simp at h
    rcases hb with rfl | ⟨rfl, rfl⟩
    · have e1 : body ++ [10] ++ gs! "-----END " ++ label ++ gs! "-----" ++ post =
          body ++ 10 :: (gs! "-----END " ++ label ++ gs! "-----" ++ post) := by simp
      rw [e1] at hm
      exact (body_plain hd _ (pemLine_before hm)).2 rfl
    · obtain ⟨bl, hb2, rfl | ⟨r, rfl | rfl⟩⟩ := hp
      · have := mem_pemLine hm
        have h2 := hbl post hb2
        simp [hl, h2] at this
      · have e1 : [] ++ [] ++ gs! "-----END " ++ label ++ gs! "-----" ++ (bl ++ 10 :: r) =
            (gs! "-----END " ++ label ++ gs! "-----" ++ bl) ++ 10 :: r := by simp
        rw [e1] at hm
        have := pemLine_before hm
        simp [hl, hbl bl hb2] at this
      · have e1 : [] ++ [] ++ gs! "-----END " ++ label ++ gs! "-----" ++ (bl ++ 13 :: 10 :: r) =
            (gs! "-----END " ++ label ++ gs! "-----" ++ bl ++ [13]) ++ 10 :: r := by simp
        rw [e1] at hm
        have := pemLine_before hm
        simp [hl, hbl bl hb2] at this
  rw [Bool.eq_false_iff]
  intro h
  exact key (by simpa [containsByte] using h)

/-! ## The search -/

theorem indexSub_le {pat a b : GoString} : ∃ i ≤ a.length, indexSub pat (a ++ pat ++ b) = some i := by
  induction a with
  | nil =>
    refine ⟨0, Nat.le_refl _, ?_⟩
    have hp : pat.isPrefixOf (pat ++ b) = true := List.isPrefixOf_iff_prefix.2 ⟨b, rfl⟩
    rw [List.nil_append]
    cases hc : pat ++ b with
    | nil => rw [hc] at hp; rw [indexSub, if_pos hp]
    | cons x t => rw [hc] at hp; rw [indexSub, if_pos hp]
  | cons x a ih =>
    obtain ⟨i, hi, h⟩ := ih
    rw [List.cons_append, List.cons_append, indexSub]
    split
    · exact ⟨0, Nat.zero_le _, rfl⟩
    · refine ⟨i + 1, by simp; omega, ?_⟩
      rw [h]; rfl

theorem pemBegin_first {pre r : GoString} (hp : WholeLines pre) :
    ∃ pre' rest, pre ++ gs! "-----BEGIN " ++ r = pre' ++ gs! "-----BEGIN " ++ rest ∧ WholeLines pre' ∧ pre'.length ≤ pre.length ∧
      pemBegin (pre ++ gs! "-----BEGIN " ++ r) = some rest := by
  unfold pemBegin
  split
  · rename_i h
    exact ⟨[], _, hasPrefix_split h, .inl rfl, Nat.zero_le _, rfl⟩
  · rename_i h
    rcases hp with rfl | hp
    · exact absurd (List.isPrefixOf_iff_prefix.2 ⟨r, rfl⟩) h
    obtain ⟨q, rfl⟩ : ∃ q, pre = q ++ [10] := by
      have := List.getLast?_eq_some_iff.1 hp
      exact this
    have e1 : q ++ [10] ++ gs! "-----BEGIN " ++ r = q ++ gs! "\n-----BEGIN " ++ r := by simp
    rw [e1]
    obtain ⟨i, hi, hx⟩ := indexSub_le (pat := gs! "\n-----BEGIN ") (a := q) (b := r)
    have hs := indexSub_spec hx
    rw [hx]
    generalize q ++ gs! "\n-----BEGIN " ++ r = data at *
    refine ⟨data.take i ++ [10], data.drop (i + 12), ?_, .inr (by simp), ?_, rfl⟩
    · conv => lhs; rw [hs]
      simp
    · simp only [List.length_append, List.length_take, List.length_singleton]
      omega

theorem BlockAt.shift {skip data label der : GoString} {n : Nat} (hs : WholeLines skip) (h : BlockAt data n label der) :
    BlockAt (skip ++ data) (skip.length + n) label der := by
  obtain ⟨h0, pre, e, hdr, body, brk, post, rfl, h1, h2, h3⟩ := h
  exact ⟨h0, skip ++ pre, e, hdr, body, brk, post, by simp, by simp [h1], hs.append h2, h3⟩

theorem lineEnd_whole {e : GoString} (he : LineEnd e) (x : GoString) : WholeLines (x ++ e) := by
  obtain ⟨bl, _, rfl | rfl⟩ := he <;> exact .inr (by simp)

/-- The beginning of a block behind another one stands on a line of its own. -/
theorem begin_after {pre pre' r rest : GoString} (h : pre ++ gs! "-----BEGIN " ++ r = pre' ++ gs! "-----BEGIN " ++ rest)
    (hw : WholeLines pre) (hlt : pre'.length < pre.length) :
    ∃ m, m.getLast? = some 10 ∧ pre = pre' ++ gs! "-----BEGIN " ++ m ∧ rest = m ++ (gs! "-----BEGIN " ++ r) := by
  rw [List.append_assoc, List.append_assoc] at h
  rcases List.append_eq_append_iff.1 h with ⟨a, ha, _⟩ | ⟨a, ha, hr⟩
  · have := congrArg List.length ha
    rw [List.length_append] at this
    omega
  subst ha
  have hane : a ≠ [] := by
    rintro rfl
    simp at hlt
  have hal : a.getLast? = some 10 := by
    rcases hw with hw | hw
    · simp at hw; exact absurd hw.2 hane
    · rw [List.getLast?_append] at hw
      cases hl : a.getLast? with
      | none => exact absurd (List.getLast?_eq_none_iff.1 hl) hane
      | some b => rw [hl] at hw; simpa using hw
  rcases List.append_eq_append_iff.1 hr with ⟨m, hm, h2⟩ | ⟨m, hm, h2⟩
  · subst hm
    refine ⟨m, ?_, by simp, h2⟩
    rw [List.getLast?_append] at hal
    cases hl : m.getLast? with
    | none => rw [hl] at hal; simp at hal
    | some b => rw [hl] at hal; simpa using hal
  · have h10 : (10 : UInt8) ∈ gs! "-----BEGIN " := by
      rw [hm]; exact List.mem_append_left _ (List.mem_of_getLast? hal)
    simp at h10

theorem pemDecodeAux_finds (fuel : Nat) (data : GoString) {n : Nat} {label der : GoString} (hl : 58 ∉ label) (hf : data.length < fuel)
    (h : BlockAt data n label der) :
    pemDecodeAux fuel data = some (label, der) ∨
      ∃ m < n, ∃ l d, BlockAt data m l d ∧ pemDecodeAux fuel data = some (l, d) := by
  induction fuel generalizing data n with
  | zero => omega
  | succ fuel ih =>
    obtain ⟨h0, pre, e, hdr, body, brk, post, hdata, hn, hw, he, hh, hb, hpo, hd⟩ := h
    subst hn
    have hz : body ++ brk ++ gs! "-----END " ++ label ++ gs! "-----" ++ post ≠ [] := by simp
    have hcol := block_no_colon hl (by rcases hb with hb | ⟨a, _, b⟩; exacts [.inl hb, .inr ⟨a, b⟩]) hpo hd
    have hbody : ∀ any, (hdr = [] → any = false) →
        pemBody label any (body ++ brk ++ gs! "-----END " ++ label ++ gs! "-----" ++ post) = some der := by
      intro any ha
      exact pemBody_of (by rcases hb with hb | ⟨a, b, c⟩; exacts [.inl hb, .inr ⟨a, ha b, c⟩]) hpo hd
    have hblock : ∀ y, WholeLines y → BlockAt (y ++ (gs! "-----BEGIN " ++ (label ++ gs! "-----" ++ e ++
        (hdr ++ (body ++ brk ++ gs! "-----END " ++ label ++ gs! "-----" ++ post))))) y.length label der := by
      intro y hy
      exact ⟨h0, y, e, hdr, body, brk, post, by simp, rfl, hy, he, hh, hb, hpo, hd⟩
    have hdata' : data = pre ++ gs! "-----BEGIN " ++
        (label ++ gs! "-----" ++ e ++ (hdr ++ (body ++ brk ++ gs! "-----END " ++ label ++ gs! "-----" ++ post))) := by
      rw [hdata]; simp
    clear hdata hb hpo hd
    generalize body ++ brk ++ gs! "-----END " ++ label ++ gs! "-----" ++ post = z at *
    have hline0 : ∀ x : GoString, (10 : UInt8) ∉ x → pemLine (x ++ (label ++ gs! "-----") ++ e ++ (hdr ++ z)) =
        (x ++ (label ++ gs! "-----"), hdr ++ z) := fun x hx =>
      pemLine_ends (by simp [h0, hx]) (.inr ⟨x ++ (label ++ gs! "----"), by simp⟩) he
    obtain ⟨pre', rest, h1, h2, h3, h4⟩ := pemBegin_first (pre := pre) (r := label ++ gs! "-----" ++ e ++ (hdr ++ z)) hw
    rw [← hdata'] at h4
    rw [pemDecodeAux, h4]
    dsimp only
    by_cases heq : pre'.length = pre.length
    · left
      rw [List.append_assoc pre, List.append_assoc pre'] at h1
      obtain ⟨rfl, h5⟩ := List.append_inj h1 heq.symm
      have h5 := List.append_cancel_left h5
      subst h5
      have := hline0 [] (by simp)
      rw [List.nil_append] at this
      rw [this]
      dsimp only
      have hsuf : hasSuffix (label ++ gs! "-----") (gs! "-----") = true := List.isSuffixOf_iff_suffix.2 ⟨label, rfl⟩
      have et : (label ++ gs! "-----").take ((label ++ gs! "-----").length - 5) = label := by simp
      rw [if_pos hsuf, et]
      obtain ⟨any, h6, h7⟩ := pemHeaders_all hz hcol hh _ false (Nat.lt_succ_self _)
      rw [h6]
      dsimp only
      rw [hbody any h7]
    · -- another beginning stands before it
      obtain ⟨m, hm, rfl, hrest⟩ := begin_after h1 hw (by omega)
      obtain ⟨c, y, rfl, hc, hcw, hyw, hline⟩ := pemLine_within hm
      have hline := hline (gs! "-----BEGIN " ++ (label ++ gs! "-----" ++ e ++ (hdr ++ z)))
      rw [← hrest] at hline
      have hnb := pemLine_no_break rest
      have hend : ∃ e', LineEnd e' ∧ rest = (pemLine rest).1 ++ e' ++ (pemLine rest).2 := by
        obtain ⟨bl, hbl, hs⟩ := pemLine_spec rest
        rcases hs with ⟨_, hs⟩ | hs | hs
        · rw [hline] at hs
          simp at hs
        · exact ⟨_, ⟨bl, hbl, .inl rfl⟩, hs⟩
        · exact ⟨_, ⟨bl, hbl, .inr rfl⟩, hs⟩
      rw [hline] at hend ⊢
      generalize (pemLine rest).1 = line at *
      obtain ⟨e', he', hre⟩ := hend
      have hd2 : data = pre' ++ gs! "-----BEGIN " ++ rest := hdata'.trans h1
      have hcl : 0 < c.length := List.length_pos_iff.2 hc
      have hlen : data.length = pre'.length + 11 + (c.length + (y ++ (gs! "-----BEGIN " ++
          (label ++ gs! "-----" ++ e ++ (hdr ++ z)))).length) := by
        rw [hd2, hrest]
        simp only [List.length_append, List.length_cons, List.length_nil]
        omega
      -- going on behind some whole lines
      have hon : ∀ c' y', y = c' ++ y' → WholeLines c' → WholeLines y' →
          pemDecodeAux fuel (y' ++ (gs! "-----BEGIN " ++ (label ++ gs! "-----" ++ e ++ (hdr ++ z)))) = some (label, der) ∨
          ∃ m < (pre' ++ gs! "-----BEGIN " ++ (c ++ y)).length, ∃ l d, BlockAt data m l d ∧
            pemDecodeAux fuel (y' ++ (gs! "-----BEGIN " ++ (label ++ gs! "-----" ++ e ++ (hdr ++ z)))) = some (l, d) := by
        rintro c' y' rfl hc' hy'
        rcases ih (y' ++ (gs! "-----BEGIN " ++ (label ++ gs! "-----" ++ e ++ (hdr ++ z))))
          (by simp only [List.length_append, List.length_cons, List.length_nil] at hlen ⊢; omega) (hblock y' hy') with h | ⟨m, hm, l, d, h5, h6⟩
        · exact .inl h
        · right
          refine ⟨(pre' ++ gs! "-----BEGIN " ++ (c ++ c')).length + m, ?_, l, d, ?_, h6⟩
          · simp only [List.length_append]; omega
          · have := h5.shift (skip := pre' ++ gs! "-----BEGIN " ++ (c ++ c')) (by
              rcases hcw with hcw | hcw
              · exact absurd hcw hc
              · have : WholeLines (c ++ c') := WholeLines.append (.inr hcw) hc'
                rcases this with h | h
                · simp [hc] at h
                · right; rw [List.getLast?_append, h]; rfl)
            have e9 : data = pre' ++ gs! "-----BEGIN " ++ (c ++ c') ++
                (y' ++ (gs! "-----BEGIN " ++ (label ++ gs! "-----" ++ e ++ (hdr ++ z)))) := by
              rw [hd2, hrest]; simp
            rw [e9]
            exact this
      split
      · rename_i hsuf
        obtain ⟨t, ht⟩ := List.isSuffixOf_iff_suffix.1 hsuf
        subst ht
        have et : (t ++ gs! "-----").take ((t ++ gs! "-----").length - 5) = t := by simp
        rw [et]
        obtain ⟨any, c', y', hy1, hy2, hy3, hy4⟩ := pemHeaders_stop
          (z := gs! "-----BEGIN " ++ (label ++ gs! "-----" ++ e ++ (hdr ++ z))) (by simp) (by
            have := hline0 (gs! "-----BEGIN ") (by simp)
            rw [List.append_assoc, List.append_assoc, ← List.append_assoc (label ++ gs! "-----")] at this
            rw [this, Bool.eq_false_iff]
            intro h
            simp [containsByte, hl] at h) _ false y hyw (Nat.lt_succ_self _)
        rw [hy4]
        dsimp only
        cases hbb : pemBody t any (y' ++ (gs! "-----BEGIN " ++ (label ++ gs! "-----" ++ e ++ (hdr ++ z)))) with
        | none => exact hon c' y' hy1 hy2 hy3
        | some bytes =>
          right
          obtain ⟨hdr', k1, k2, k3⟩ := pemHeaders_spec _ _ _ hy4
          dsimp only at k2 k3
          obtain ⟨body', brk', post', b0, b1, b2, b3⟩ := pemBody_spec hbb
          refine ⟨pre'.length, by simp only [List.length_append]; omega, t, bytes, ⟨?_, pre', e', hdr', body', brk', post', ?_, rfl, h2, he', k1, ?_, b2, b3⟩, rfl⟩
          · intro h; exact hnb (List.mem_append_left _ h)
          · rw [hd2, hre, k2, b0]
            simp
          · rcases b1 with b1 | ⟨b1, b4, b5⟩
            · exact .inl b1
            · exact .inr ⟨b1, (k3 b4).1, b5⟩
      · exact hon [] y rfl (.inl rfl) hyw

theorem pemDecodeAux_block (fuel : Nat) (data : GoString) {label der : GoString} (h : pemDecodeAux fuel data = some (label, der)) :
    10 ∉ label := by
  induction fuel generalizing data with
  | zero => simp [pemDecodeAux] at h
  | succ fuel ih =>
    unfold pemDecodeAux at h
    cases hb : pemBegin data with
    | none => rw [hb] at h; simp at h
    | some rest =>
      rw [hb] at h
      dsimp only at h
      have hnb := pemLine_no_break rest
      generalize pemLine rest = q at *
      obtain ⟨line, next⟩ := q
      dsimp only at h hnb
      split at h
      · cases hh : pemHeaders (next.length + 1) false next with
        | none => rw [hh] at h; simp at h
        | some r =>
          obtain ⟨any, rest⟩ := r
          rw [hh] at h
          dsimp only at h
          cases hbody : pemBody (line.take (line.length - 5)) any rest with
          | some bytes =>
            rw [hbody] at h
            simp only [Option.some.injEq, Prod.mk.injEq] at h
            obtain ⟨rfl, rfl⟩ := h
            exact fun h => hnb (List.mem_of_mem_take h)
          | none =>
            rw [hbody] at h
            exact ih _ h
      · exact ih _ h

/-- Whatever is read is a block. -/
theorem pemDecode_block {data label der : GoString} (h : pemDecode data = some (label, der)) : ∃ n, BlockAt data n label der := by
  obtain ⟨pre, e, hdr, body, brk, post, h1, h2, h3⟩ := pemDecode_spec h
  exact ⟨pre.length, pemDecodeAux_block _ _ h, pre, e, hdr, body, brk, post, h1, rfl, h2, h3⟩

/-- The first block, if its label is without a colon, is read. -/
theorem pemDecode_first {data label der : GoString} (hl : 58 ∉ label) (h : FirstBlock data label der) :
    pemDecode data = some (label, der) := by
  obtain ⟨n, h1, h2⟩ := h
  rcases pemDecodeAux_finds (data.length + 1) data hl (Nat.lt_succ_self _) h1 with h | ⟨m, hm, l, d, h3, _⟩
  · exact h
  · exact absurd h3 (h2 m hm l d)

/-! ## White space around -/

theorem space_inner : ∀ w ∈ spaceRunes, ∀ p ∈ spaceRunes, ∀ i < w.length, 0 < i → w[i]? ≠ p.head? := by decide

theorem clearStart_append {s b : GoString} (hs : ClearStart s) (hne : s ≠ []) (hb : Blank b) : ClearStart (s ++ b) := by
  intro w hw hp
  by_cases hl : w.length ≤ s.length
  · exact hs w hw (List.prefix_of_prefix_length_le hp (List.prefix_append s b) hl)
  have hi : w[s.length]? = b.head? := by
    obtain ⟨r, hr⟩ := hp
    have : (w ++ r)[s.length]? = (s ++ b)[s.length]? := by rw [hr]
    rw [List.getElem?_append_left (by omega), List.getElem?_append_right (Nat.le_refl _), Nat.sub_self] at this
    rw [this]
    cases b <;> rfl
  obtain ⟨ps, hps, rfl⟩ := hb
  cases ps with
  | nil =>
    rw [List.getElem?_eq_getElem (by omega)] at hi
    simp at hi
  | cons p ps =>
    have hpm := hps p (by simp)
    have hpne : p ≠ [] := fun h => spaceRunes_ne p hpm h
    have : (List.flatten (p :: ps)).head? = p.head? := by
      cases p with
      | nil => exact absurd rfl hpne
      | cons x t => rfl
    exact space_inner w hw p hpm s.length (by omega) (List.length_pos_iff.2 hne) (hi.trans this)

theorem blank_append {a b : GoString} (ha : Blank a) (hb : Blank b) : Blank (a ++ b) := by
  obtain ⟨ps, h1, rfl⟩ := ha
  obtain ⟨qs, h2, rfl⟩ := hb
  exact ⟨ps ++ qs, fun p hp => (List.mem_append.1 hp).elim (h1 p) (h2 p), by simp⟩

theorem trimSpace_iff {s t : GoString} : trimSpace s = t ↔ Trimmed s t := by
  constructor
  · rintro rfl
    obtain ⟨a, b, ha, hb, hs, h1, h2⟩ := trimSpace_spec s
    exact ⟨a, b, hs, ha, hb, fun w hw => ⟨h1 w hw, h2 w hw⟩⟩
  · rintro ⟨a, b, rfl, ha, hb, hc⟩
    by_cases ht : t = []
    · subst ht
      rw [List.append_nil]
      exact trimSpace_nil_iff.2 (blank_append ha hb)
    · have h1 : ClearStart (t ++ b) := clearStart_append (fun w hw => (hc w hw).1) ht hb
      have h2 : ClearEnd t := fun w hw => (hc w hw).2
      have e1 : trimLeft (a ++ t ++ b) = t ++ b := by
        obtain ⟨ps, hps, rfl⟩ := ha
        unfold trimLeft
        rw [List.append_assoc]
        exact dropPats_pats spaceRunes_prefixFree spaceRunes_ne hps h1 _ (by simp)
      unfold trimSpace
      rw [e1]
      obtain ⟨ps, hps, rfl⟩ := hb
      unfold trimRight
      have e2 : (t ++ ps.flatten).reverse = ((ps.map List.reverse).reverse).flatten ++ t.reverse := by
        rw [List.reverse_append, List.reverse_flatten]
      rw [e2, dropPats_pats spaceRunesRev_prefixFree spaceRunesRev_ne _ (clearEnd_iff.1 h2) _
        (by rw [← e2, List.length_reverse]), List.reverse_reverse]
      intro p hp
      rw [List.mem_reverse, List.mem_map] at hp
      obtain ⟨q, hq, rfl⟩ := hp
      exact List.mem_map.2 ⟨q, hps q hq, rfl⟩

end GoIdentity
