import Verif.Lemmas.StructTag
import Verif.Lemmas.JsonGrammar
import Verif.Props.Tags
import Verif.Spec.RawTags
/-!
# Struct tags as source text: C96
-/
namespace GoIdentity.Tag

/-- C96: a struct tag has the value `v` for a key exactly if it starts with pairs `key:"text"` of which the first with that key
stands for `v`. -/
theorem C96_lookup_iff (k t v : GoString) : tagLookup k t = some v ↔ TagHas k t v :=
  ⟨lookup_sound _, fun h => lookup_complete h _ (Nat.lt_succ_self _)⟩

/-- C96: plain text stands for itself. -/
theorem C96_plain_value {s : GoString} (h : Plain s) : RawText s ∧ unquote s = some s := by
  unfold unquote
  induction s with
  | nil => exact ⟨.nil, rfl⟩
  | cons b t ih =>
    obtain ⟨h1, h2, h3, h4⟩ := h b (List.mem_cons_self ..)
    obtain ⟨i1, i2⟩ := ih fun b hb => h b (List.mem_cons_of_mem _ hb)
    refine ⟨.plain h2 h3 i1, ?_⟩
    rw [List.length_cons, unquoteAux.eq_def]
    dsimp only
    rw [if_neg (by simp [h2, h4]), if_neg h3, if_pos h1, i2]
    rfl

/-- C96: the escapes: a letter or symbol for one byte, two hexadecimal or three octal digits for a byte, and four or eight
hexadecimal digits for a character. -/
theorem C96_escapes (t : GoString) :
    (∀ p ∈ [(gs! "a", 7), (gs! "b", 8), (gs! "f", 12), (gs! "n", 10), (gs! "r", 13), (gs! "t", 9), (gs! "v", 11), (gs! "\\", 92),
      (gs! "\"", (34 : UInt8))], unquote (gs! "\\" ++ p.1 ++ t) = (unquote t).map (p.2 :: ·)) ∧
    (∀ a b x y, hexVal a = some x → hexVal b = some y →
      unquote (gs! "\\x" ++ [a, b] ++ t) = (unquote t).map (UInt8.ofNat (16 * x + y) :: ·)) ∧
    (∀ x y z : Nat, x < 4 → y < 8 → z < 8 →
      unquote (92 :: UInt8.ofNat (48 + x) :: UInt8.ofNat (48 + y) :: UInt8.ofNat (48 + z) :: t) =
        (unquote t).map (UInt8.ofNat (64 * x + 8 * y + z) :: ·)) ∧
    (∀ ds xs : List _, ds.length = 4 → ds.mapM hexVal = some xs →
      let v := xs.foldl (fun n x => 16 * n + x) 0
      ¬ (0xD800 ≤ v ∧ v ≤ 0xDFFF) → unquote (gs! "\\u" ++ ds ++ t) = (unquote t).map (encodeRune v ++ ·)) ∧
    (∀ ds xs : List _, ds.length = 8 → ds.mapM hexVal = some xs →
      let v := xs.foldl (fun n x => 16 * n + x) 0
      ¬ (0xD800 ≤ v ∧ v ≤ 0xDFFF) → v ≤ 0x10FFFF → unquote (gs! "\\U" ++ ds ++ t) = (unquote t).map (encodeRune v ++ ·)) := by
  have hrun : ∀ (ds : GoString) (xs : List Nat) (acc : Nat), ds.mapM hexVal = some xs →
      hexRun ds.length acc (ds ++ t) = some (xs.foldl (fun n x => 16 * n + x) acc, t) ∧
      xs.foldl (fun n x => 16 * n + x) acc < 16 ^ ds.length * (acc + 1) := by
    intro ds
    induction ds with
    | nil => intro xs acc h; simp at h; subst h; simp [hexRun]
    | cons b ds ih =>
      intro xs acc h
      rw [List.mapM_cons] at h
      cases hb : hexVal b with
      | none => rw [hb] at h; cases h
      | some d =>
        rw [hb] at h
        cases hm : ds.mapM hexVal with
        | none => rw [hm] at h; cases h
        | some ys =>
          rw [hm] at h
          cases h
          obtain ⟨i1, i2⟩ := ih ys (acc * 16 + d) hm
          have hd : d < 16 := (JsonGrammar.hexVal_iff.1 hb).1
          rw [List.length_cons, List.cons_append, hexRun, hb]
          dsimp only
          rw [List.foldl_cons, Nat.mul_comm 16 acc]
          refine ⟨i1, Nat.lt_of_lt_of_le i2 ?_⟩
          rw [Nat.pow_succ, Nat.mul_assoc]
          exact Nat.mul_le_mul_left _ (by omega)
  refine ⟨?_, ?_, ?_, ?_, ?_⟩
  · intro p hp
    simp only [List.mem_cons, List.not_mem_nil, or_false] at hp
    rcases hp with rfl | rfl | rfl | rfl | rfl | rfl | rfl | rfl | rfl <;> exact unquote_escape (v := [_]) rfl
  · intro a b x y ha hb
    refine unquote_escape (c := 120) (v := [_]) ?_
    have : hexRun 2 0 (a :: b :: t) = some (16 * x + y, t) := by
      simp only [hexRun, ha, hb]; simp [Nat.mul_comm]
    simp [unquoteEscape, this]
  · intro x y z hx hy hz
    refine unquote_escape (v := [_]) ?_
    have ey : (UInt8.ofNat (48 + y)).toNat = 48 + y := by rw [UInt8.toNat_ofNat']; omega
    have ez : (UInt8.ofNat (48 + z)).toNat = 48 + z := by rw [UInt8.toNat_ofNat']; omega
    have hc : ∀ x < 4, (UInt8.ofNat (48 + x)).toNat = 48 + x ∧ UInt8.ofNat (48 + x) ≠ 97 ∧ UInt8.ofNat (48 + x) ≠ 98 ∧
        UInt8.ofNat (48 + x) ≠ 102 ∧ UInt8.ofNat (48 + x) ≠ 110 ∧ UInt8.ofNat (48 + x) ≠ 114 ∧ UInt8.ofNat (48 + x) ≠ 116 ∧
        UInt8.ofNat (48 + x) ≠ 118 ∧ ¬ (UInt8.ofNat (48 + x) = 92 ∨ UInt8.ofNat (48 + x) = 34) ∧ UInt8.ofNat (48 + x) ≠ 120 ∧
        ¬ (UInt8.ofNat (48 + x) = 117 ∨ UInt8.ofNat (48 + x) = 85) := by decide
    obtain ⟨ex, c1, c2, c3, c4, c5, c6, c7, c8, c9, c10⟩ := hc x hx
    rw [unquoteEscape, if_neg c1, if_neg c2, if_neg c3, if_neg c4, if_neg c5, if_neg c6, if_neg c7, if_neg c8, if_neg c9, if_neg c10,
      if_pos (by omega)]
    dsimp only
    rw [ex, ey, ez, if_pos (by omega)]
    rw [show (48 + x - 48) * 64 + (48 + y - 48) * 8 + (48 + z - 48) = 64 * x + 8 * y + z by omega]
  · intro ds xs hl hm v hs
    show unquote (92 :: 117 :: (ds ++ t)) = _
    refine unquote_escape ?_
    obtain ⟨h1, h2⟩ := hrun ds xs 0 hm
    rw [hl] at h1 h2
    change hexRun 4 0 (ds ++ t) = some (v, t) at h1
    change v < _ at h2
    have e : unquoteEscape 117 (ds ++ t) =
      match hexRun 4 0 (ds ++ t) with
      | none => none
      | some (v, s) => if (0xD800 ≤ v ∧ v ≤ 0xDFFF) ∨ 0x10FFFF < v then none else some (encodeRune v, s) := rfl
    rw [e, h1]
    dsimp only
    rw [if_neg (by omega)]
  · intro ds xs hl hm v hs hv
    show unquote (92 :: 85 :: (ds ++ t)) = _
    refine unquote_escape ?_
    obtain ⟨h1, h2⟩ := hrun ds xs 0 hm
    rw [hl] at h1
    change hexRun 8 0 (ds ++ t) = some (v, t) at h1
    have e : unquoteEscape 85 (ds ++ t) =
      match hexRun 8 0 (ds ++ t) with
      | none => none
      | some (v, s) => if (0xD800 ≤ v ∧ v ≤ 0xDFFF) ∨ 0x10FFFF < v then none else some (encodeRune v, s) := rfl
    rw [e, h1]
    dsimp only
    rw [if_neg (by omega)]

/-- C96: exactly which bytes a text between two double quotes stands for, and which texts stand for none. -/
theorem C96_unquote_iff (s v : GoString) : unquote s = some v ↔ Unquotes s v := by
  refine ⟨unquoteAux_sound _, fun h => ?_⟩
  induction h with
  | nil => rfl
  | @ascii b t v h1 h2 h3 h4 _ ih =>
    rw [unquote, List.length_cons, unquoteAux.eq_def]
    dsimp only
    rw [if_neg (by simp [h2, h3]), if_neg h4, if_pos h1]
    unfold unquote at ih
    rw [ih]; rfl
  | @other b t v h1 _ ih =>
    rw [unquote, List.length_cons, unquoteAux.eq_def]
    dsimp only
    have e1 : ¬ (b = 34 ∨ b = 10) := by rintro (rfl | rfl) <;> simp at h1
    have e2 : b ≠ 92 := by rintro rfl; simp at h1
    rw [if_neg e1, if_neg e2, if_neg (by omega)]
    have hd := decodeRune_width b t
    rw [unquoteAux_fuel _ _ (Nat.le_refl _) _ (by simp only [List.length_drop, List.length_cons]; omega), ih]
    rfl
  | @escape e x t v he _ ih =>
    obtain ⟨q1, q2, q3, q4, q5⟩ := C96_escapes t
    cases he with
    | @symbol c v' h =>
      have := q1 ([c], v') (by
        simp only [List.mem_cons, List.not_mem_nil, or_false, Prod.mk.injEq] at h ⊢
        rcases h with ⟨rfl, rfl⟩ | ⟨rfl, rfl⟩ | ⟨rfl, rfl⟩ | ⟨rfl, rfl⟩ | ⟨rfl, rfl⟩ | ⟨rfl, rfl⟩ | ⟨rfl, rfl⟩ | ⟨rfl, rfl⟩ | ⟨rfl, rfl⟩ <;> decide)
      rw [ih] at this
      exact this
    | byte ha hb => have := q2 _ _ _ _ ha hb; rw [ih] at this; exact this
    | octal hx hy hz => have := q3 _ _ _ hx hy hz; rw [ih] at this; exact this
    | short hl hx hs => have := q4 _ _ hl hx hs; rw [ih] at this; exact this
    | long hl hx hs hm => have := q5 _ _ hl hx hs hm; rw [ih] at this; exact this

/-- C96: in a tag of the usual form, with plain values, a key has the value of its first pair. -/
theorem C96_usual_form {l : List (GoString × GoString)} (h : ∀ p ∈ l, KeyText p.1 ∧ Plain p.2) (k : GoString) :
    tagLookup k (tagText l) = l.lookup k := by
  induction l with
  | nil => rfl
  | cons p l ih =>
    obtain ⟨hk, hp⟩ := h p (List.mem_cons_self ..)
    obtain ⟨hr, hv⟩ := C96_plain_value hp
    have ih := ih fun q hq => h q (List.mem_cons_of_mem _ hq)
    obtain ⟨n, hn, _⟩ := tagText_cons p l
    rw [List.lookup_cons]
    by_cases he : k = p.1
    · subst he
      rw [beq_self_eq_true]
      rw [C96_lookup_iff, hn]
      exact .here (n := 0) hk hr hv
    · have hb : (k == p.1) = false := by simpa using he
      rw [hb]
      dsimp only
      rw [← ih]
      apply Option.ext
      intro v
      rw [C96_lookup_iff, C96_lookup_iff, hn]
      constructor
      · intro h
        refine tagHas_strip n ?_
        have h1 := lookup_complete h _ (Nat.lt_succ_self _)
        obtain ⟨e1, e2⟩ := split_pair (n := 0) (q := p.2 ++ 34 :: (List.replicate n 32 ++ tagText l)) hk
        rw [tagLookupAux] at h1
        dsimp only [List.replicate_zero, List.nil_append] at e1 e2
        rw [e1, e2] at h1
        dsimp only at h1
        rw [if_pos ⟨hk.1, rfl, rfl⟩, scanQuoted_of hr] at h1
        dsimp only at h1
        rw [if_neg (Ne.symm he)] at h1
        exact lookup_sound _ h1
      · intro h
        exact .later (n := 0) hk (Ne.symm he) hr (tagHas_spaces h n)

theorem get_usual_form {l : List (GoString × GoString)} (h : ∀ p ∈ l, KeyText p.1 ∧ Plain p.2) (k : GoString) :
    tagGet k (tagText l) = (l.lookup k).getD [] := by
  rw [tagGet, C96_usual_form h]

theorem convert_bytes {s : GoString} (h : Identifier s) :
    ∀ b ∈ convertFieldToTag s, (b.toNat < 128 ∧ b ≠ 34 ∧ b ≠ 92 ∧ b ≠ 10) ∧ b ≠ 96 := by
  intro b hb
  have h1 := (C89_tag_spells_the_name h).1
  by_cases h95 : b = 95
  · subst h95; decide
  · have h2 : b ∈ (convertFieldToTag s).filter (· != 95) := List.mem_filter.2 ⟨hb, by simpa using h95⟩
    rw [h1] at h2
    obtain ⟨c, hc, rfl⟩ := List.mem_map.1 (List.mem_filter.1 h2).1
    exact forall_bytes (P := fun c => identByte c = true →
      ((lowerByte c).toNat < 128 ∧ lowerByte c ≠ 34 ∧ lowerByte c ≠ 92 ∧ lowerByte c ≠ 10) ∧ lowerByte c ≠ 96)
      (by decide +kernel) c (h c hc)

theorem omitempty_bytes : ∀ b ∈ gs! ",omitempty", (b.toNat < 128 ∧ b ≠ 34 ∧ b ≠ 92 ∧ b ≠ 10) ∧ b ≠ 96 := by decide

theorem expected_bytes (o : Options) {f : StructField} (h : Identifier f.name) :
    ∀ b ∈ expected o f, (b.toNat < 128 ∧ b ≠ 34 ∧ b ≠ 92 ∧ b ≠ 10) ∧ b ≠ 96 := by
  intro b hb
  unfold expected at hb
  rcases List.mem_append.1 hb with hb | hb
  · exact convert_bytes h b hb
  · split at hb
    · exact omitempty_bytes b hb
    · cases hb

theorem required_keys : ∀ k ∈ [gs! "json", gs! "xml", gs! "yaml"], KeyText k := by unfold KeyText; decide

/-- C96: the suggested line ends in a tag, between backquotes, which gives the field the expected value for each of the three
keys; and the field with this tag passes the check. -/
theorem C96_suggested_tag (o : Options) (f : StructField) (hn : Identifier f.name) (he : IsExported f) :
    ∃ raw : GoString,
      suggestedLine o f = f.name ++ gs! " " ++ replaceAll (gs! "identity.") [] f.type ++ gs! " `" ++ raw ++ gs! "`" ∧
      96 ∉ raw ∧
      (∀ k ∈ [gs! "json", gs! "xml", gs! "yaml"],
        tagGet k raw = convertFieldToTag f.name ++ (if o.disableTagOnEmpty then [] else gs! ",omitempty")) ∧
      ∀ name, getTagCompliance (.struct name [rawField f.name f.type raw]) (some o) = some ([], none) := by
  have hp : Plain (expected o f) := fun b hb => (expected_bytes o hn b hb).1
  have hk : ∀ p ∈ ([(gs! "json", expected o f), (gs! "xml", expected o f), (gs! "yaml", expected o f)] : List (GoString × GoString)),
      KeyText p.1 ∧ Plain p.2 := by
    intro p hpm
    simp only [List.mem_cons, List.not_mem_nil, or_false] at hpm
    rcases hpm with rfl | rfl | rfl <;> exact ⟨required_keys _ (by simp), hp⟩
  have hex : expected o f = convertFieldToTag f.name ++ (if o.disableTagOnEmpty then [] else gs! ",omitempty") := by
    unfold expected; cases o.disableTagOnEmpty <;> rfl
  have hg : ∀ k ∈ [gs! "json", gs! "xml", gs! "yaml"],
      tagGet k (tagText [(gs! "json", expected o f), (gs! "xml", expected o f), (gs! "yaml", expected o f)]) = expected o f := by
    intro k hkm
    rw [get_usual_form hk]
    simp only [List.mem_cons, List.not_mem_nil, or_false] at hkm
    rcases hkm with rfl | rfl | rfl <;> rfl
  refine ⟨tagText [(gs! "json", expected o f), (gs! "xml", expected o f), (gs! "yaml", expected o f)], ?_, ?_, ?_, ?_⟩
  · simp [suggestedLine, makeTags, tagText, requiredTags]
  · intro hm
    have h96 : 96 ∉ expected o f := fun hb => (expected_bytes o hn 96 hb).2 rfl
    simp [tagText, joinWith, h96] at hm
  · intro k hkm; rw [hg k hkm, hex]
  · intro name
    rw [C62_compliance_iff]
    refine ⟨rfl, .inr ⟨name, _, rfl, ?_⟩⟩
    intro g hgm _
    rw [List.mem_singleton] at hgm
    subst hgm
    exact C89_suggestion_complies o (f := rawField f.name f.type _) hn he fun t ht => hg t ht

theorem sugg_step (o : Options) (f : StructField) (t : GoString) (ts : List GoString) :
    (checkTags o f (t :: ts)).2 = true ↔ f.tag t ≠ gs! "-" ∧
      ((checkTags o f ts).2 = true ∨ ts = [] ∧ f.tag t = [] ∧ o.disableTagPresent = false) := by
  rw [checkTags]
  dsimp only
  split
  · next h => simp [h]
  · next h =>
    split
    · next h1 => simp only [Bool.or_eq_true, List.isEmpty_iff]; simp at h1; simp [h1]
    · next h1 =>
      have h1 : ¬ (f.tag t = [] ∧ o.disableTagPresent = false) := by simpa using h1
      split <;> simp only [ne_eq, h, not_false_eq_true, true_and, h1, and_false, or_false]

/-- C96: the suggestion lists, in order, the exported fields without a yaml tag whose json and xml tags are not `-`, if absent tags
are reported; there is no suggestion if there is no such field. -/
theorem C96_when_suggested (o : Options) (fs l : List StructField) (wanted : StructField → Bool)
    (hw : ∀ f ∈ fs, wanted f = true ↔ IsExported f ∧ f.tag (gs! "json") ≠ gs! "-" ∧ f.tag (gs! "xml") ≠ gs! "-" ∧
      f.tag (gs! "yaml") = []) :
    Finding.suggestion l ∈ findings o fs ↔ o.disableTagPresent = false ∧ l ≠ [] ∧ l = fs.filter wanted := by
  have h1 : ∀ f ts, Finding.suggestion l ∉ (checkTags o f ts).1 := by
    intro f ts
    induction ts with
    | nil => simp [checkTags]
    | cons t ts ih =>
      rw [checkTags]
      dsimp only
      split
      · simp
      · split
        · simp [ih]
        · split <;> simp [ih]
  have h2 : Finding.suggestion l ∉ (checkFields o fs).1 := by
    clear hw
    induction fs with
    | nil => simp [checkFields]
    | cons f fs ih =>
      rw [checkFields]
      dsimp only
      split
      · exact ih
      · simp [ih, h1]
  have h3 : ∀ f, (checkTags o f requiredTags).2 = true ↔ o.disableTagPresent = false ∧ f.tag (gs! "json") ≠ gs! "-" ∧
      f.tag (gs! "xml") ≠ gs! "-" ∧ f.tag (gs! "yaml") = [] := by
    intro f
    rw [requiredTags, sugg_step, sugg_step, sugg_step]
    constructor
    · rintro ⟨a, (⟨b, (⟨_, h | ⟨_, c, d⟩⟩ | ⟨h, _⟩)⟩ | ⟨h, _⟩)⟩
      · simp [checkTags] at h
      · exact ⟨d, a, b, c⟩
      · cases h
      · cases h
    · rintro ⟨d, a, b, c⟩
      exact ⟨a, .inl ⟨b, .inl ⟨by rw [c]; decide, .inr ⟨rfl, c, d⟩⟩⟩⟩
  have h4 : (checkFields o fs).2 = if o.disableTagPresent then [] else fs.filter wanted := by
    clear h2
    induction fs with
    | nil => simp [checkFields]
    | cons f fs ih =>
      have ih := ih fun g hg => hw g (List.mem_cons_of_mem _ hg)
      have hf := hw f (List.mem_cons_self ..)
      rw [checkFields]
      dsimp only
      by_cases he : exported f = true
      · rw [if_neg (by simp [he])]
        dsimp only
        rw [ih, List.filter_cons]
        cases hd : o.disableTagPresent with
        | true =>
          have : (checkTags o f requiredTags).2 ≠ true := fun h => by simpa [hd] using ((h3 f).1 h).1
          simp [this]
        | false =>
          have : (checkTags o f requiredTags).2 = wanted f := by
            rw [Bool.eq_iff_iff, h3, hf]
            simp [hd, (exported_iff f).1 he]
          rw [this]
          cases wanted f <;> rfl
      · rw [if_pos (by simpa using he)]
        have : wanted f ≠ true := fun h => he ((exported_iff f).2 (hf.1 h).1)
        rw [ih, List.filter_cons_of_neg this]
  unfold findings
  rw [show checkFields o fs = ((checkFields o fs).1, (checkFields o fs).2) from rfl]
  dsimp only
  rw [h4]
  cases o.disableTagPresent with
  | true => simp [h2]
  | false =>
    cases hl : fs.filter wanted with
    | nil => simp [h2]
    | cons a r =>
      simp [h2]
      rintro rfl; simp

/-- C96: the tags that the model of each declared struct carries are those that reflection finds in its source text. -/
theorem C96_declared_tags :
    rawDeclared.map (·.1.name) = declared.map (·.1.name) ∧
    ∀ d ∈ rawDeclared, d.1.fields.map (·.name) = d.2.map (·.1) ∧
      ∀ k ∈ [gs! "json", gs! "xml", gs! "yaml"], d.1.fields.map (fun f => f.tag k) = d.2.map fun r => tagGet k r.2 := by
  decide +kernel

/-! ## Concrete cases -/

/-- Spaces between the pairs, an escaped quote in a value, and an escape. -/
def sampleTag : GoString := gs! "  json:\"a\\\"b\"   xml:\"x\\u00e9,omitempty\" yaml: \"z\""

example : tagLookup (gs! "json") sampleTag = some (gs! "a\"b") := by decide +kernel
example : tagLookup (gs! "xml") sampleTag = some (gs! "xé,omitempty") := by decide +kernel
/-- A space after the colon hides the value and all that follows it. -/
example : tagLookup (gs! "yaml") sampleTag = none := by decide +kernel
example : TagHas (gs! "json") sampleTag (gs! "a\"b") := (C96_lookup_iff _ _ _).1 (by decide +kernel)
example : ¬ ∃ v, TagHas (gs! "yaml") sampleTag v := fun ⟨v, h⟩ => by
  have h1 := (C96_lookup_iff _ _ _).2 h
  rw [show tagLookup (gs! "yaml") sampleTag = none by decide +kernel] at h1
  cases h1
/-- The first of two pairs with the same key counts, even if its text has a bad escape. -/
example : tagGet (gs! "json") (gs! "json:\"\\q\" json:\"id\"") = [] := by decide +kernel
example : tagLookup (gs! "xml") (tagText [(gs! "json", gs! "id"), (gs! "xml", gs! "-"), (gs! "xml", gs! "id")]) = some (gs! "-") := by
  decide +kernel
example : Plain (gs! "open_ssh,omitempty") := by unfold Plain; decide
/-- Two hexadecimal digits, three octal ones, a surrogate, and an octal number that is too large. -/
example : unquote (gs! "\\x41\\102\\U0001F600") = some (gs! "AB😀") ∧ unquote (gs! "\\ud800") = none ∧ unquote (gs! "\\777") = none := by
  decide +kernel

/-- A line end, an unknown escape, and an octal number above 255 are refused. -/
example : (∀ v, ¬ Unquotes [97, 10] v) ∧ (∀ v, ¬ Unquotes (gs! "\\q") v) ∧ (∀ v, ¬ Unquotes (gs! "\\400") v) ∧
    Unquotes (gs! "\\377\\n\\u00e9") [255, 10, 195, 169] := by
  have no : ∀ {s : GoString}, unquote s = none → ∀ v, ¬ Unquotes s v := fun h v h' => by
    have := (C96_unquote_iff _ v).2 h'
    rw [h] at this
    cases this
  exact ⟨no (by decide +kernel), no (by decide +kernel), no (by decide +kernel), (C96_unquote_iff _ _).1 (by decide +kernel)⟩

/-- The field `ID string` of an API key, without a tag. -/
def bareID : StructField := rawField (gs! "ID") (gs! "*identity.Key") (gs! "")

example : suggestedLine {} bareID = gs! "ID *Key `json:\"id,omitempty\" xml:\"id,omitempty\" yaml:\"id,omitempty\"`" := by decide +kernel
example : Identifier bareID.name ∧ IsExported bareID :=
  ⟨by unfold Identifier; decide, 73, [68], rfl, .inl (by decide)⟩
example : (getTagCompliance (.struct (gs! "Bare") [bareID]) none).map (·.1.length) = some 4 := by decide +kernel

/-- A field that lacks only its json tag. -/
def noJson : StructField := rawField (gs! "ID") (gs! "string") (gs! "xml:\"id,omitempty\" yaml:\"id,omitempty\"")

/-- C96: a field that lacks only its json tag is reported, but no change is suggested; only a missing yaml tag leads to one. -/
theorem C96_not_suggested :
    getTagCompliance (.struct (gs! "Key") [noJson]) none =
      some ([gs! "tag \"json\" not found in Key.ID (string)"], some (gs! "struct \"Key\" is not compliant")) ∧
    ∀ o l, Finding.suggestion l ∉ findings o [noJson] := by
  refine ⟨by decide +kernel, fun o l h => ?_⟩
  have := (C96_when_suggested o [noJson] l (fun _ => false) ?_).1 h
  · exact this.2.1 (by simpa using this.2.2)
  · intro f hf
    rw [List.mem_singleton] at hf
    subst hf
    have : noJson.tag (gs! "yaml") = gs! "id,omitempty" := by decide +kernel
    rw [this]
    simp

end GoIdentity.Tag
