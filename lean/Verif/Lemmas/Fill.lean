import Verif.Spec.Fill
import Verif.Lemmas.DecodeOk
import Verif.Lemmas.TimeText
import Verif.Lemmas.JsonGrammar
import Verif.Lemmas.Base64
import Mathlib.Data.List.Nodup
/-!
# Reading records member by member
-/
namespace GoIdentity

/-! ## Names -/

theorem lowerByte_toNat : ∀ c : UInt8, (lowerByte c).toNat = if 65 ≤ c.toNat ∧ c.toNat ≤ 90 then c.toNat + 32 else c.toNat :=
  forall_bytes (P := fun c => (lowerByte c).toNat = if 65 ≤ c.toNat ∧ c.toNat ≤ 90 then c.toNat + 32 else c.toNat) (by decide +kernel)

theorem sameLetter_iff {a b : UInt8} : SameLetter a b ↔ lowerByte a = lowerByte b := by
  have h1 := a.toNat_lt
  have h2 := b.toNat_lt
  rw [← UInt8.toNat_inj, lowerByte_toNat, lowerByte_toNat]
  unfold SameLetter
  rw [← UInt8.toNat_inj]
  split <;> split <;> omega

theorem SameLetter.ascii {a b : UInt8} (h : SameLetter a b) (hb : b.toNat < 128) : a.toNat < 128 := by
  unfold SameLetter at h
  rcases h with rfl | h | h <;> omega

theorem foldKey_cons_ascii {a : UInt8} (h : a.toNat < 128) (t : GoString) : foldKey (a :: t) = lowerByte a :: foldKey t := by
  rw [foldKey]
  · intro t' e _; subst e; simp at h
  · intro t' e _; subst e; simp at h

theorem foldKey_nil_iff {k : GoString} : foldKey k = [] ↔ k = [] := by
  constructor
  · intro h
    unfold foldKey at h
    split at h <;> simp_all
  · rintro rfl; rfl

theorem spelled_iff {k n : GoString} (hn : ∀ b ∈ n, b.toNat < 128) : Spelled k n ↔ foldKey n = foldKey k := by
  constructor
  · intro h
    induction h with
    | nil => rfl
    | @letter a b k n hab _ ih =>
      have hb := hn b List.mem_cons_self
      rw [foldKey_cons_ascii hb, foldKey_cons_ascii (hab.ascii hb), ih (fun c hc => hn c (List.mem_cons_of_mem _ hc)), sameLetter_iff.1 hab]
    | @longS b k n hb _ ih =>
      rw [foldKey_cons_ascii (hn b List.mem_cons_self), ih (fun c hc => hn c (List.mem_cons_of_mem _ hc)), sameLetter_iff.1 hb]
      simp only [foldKey]
      rfl
    | @kelvin b k n hb _ ih =>
      rw [foldKey_cons_ascii (hn b List.mem_cons_self), ih (fun c hc => hn c (List.mem_cons_of_mem _ hc)), sameLetter_iff.1 hb]
      simp only [foldKey]
      rfl
  · intro h
    induction n generalizing k with
    | nil =>
      rw [foldKey_nil_iff.1 h.symm]
      exact .nil
    | cons b n ih =>
      have hb := hn b List.mem_cons_self
      have hn' : ∀ c ∈ n, c.toNat < 128 := fun c hc => hn c (List.mem_cons_of_mem _ hc)
      rw [foldKey_cons_ascii hb] at h
      rw [foldKey.eq_def k] at h
      split at h
      · cases h
      · obtain ⟨h1, h2⟩ := List.cons.inj h
        exact .longS (sameLetter_iff.2 (h1.trans rfl)) (ih hn' h2)
      · obtain ⟨h1, h2⟩ := List.cons.inj h
        exact .kelvin (sameLetter_iff.2 (h1.trans rfl)) (ih hn' h2)
      · obtain ⟨h1, h2⟩ := List.cons.inj h
        exact .letter (sameLetter_iff.2 h1.symm) (ih hn' h2)

theorem findField_iff {σ : Type} {fs : List (Field σ)} (ha : ∀ f ∈ fs, ∀ b ∈ f.name, b.toNat < 128)
    (hd : (fs.map fun f => foldKey f.name).Nodup) {k : GoString} {f : Field σ} :
    findField fs k = some f ↔ f ∈ fs ∧ Spelled k f.name := by
  have huniq : ∀ f ∈ fs, ∀ g ∈ fs, foldKey f.name = foldKey g.name → f = g :=
    fun f hf g hg h => List.inj_on_of_nodup_map hd hf hg h
  constructor
  · intro h
    have hm := findField_in h
    refine ⟨hm, (spelled_iff (ha f hm)).2 ?_⟩
    unfold findField at h
    split at h
    · next hf =>
      have := List.find?_some hf
      cases h
      rw [beq_iff_eq] at this
      rw [this]
    · have := List.find?_some h
      simpa using this
  · rintro ⟨hf, hs⟩
    have hk := (spelled_iff (ha f hf)).1 hs
    unfold findField
    split
    · next g hg =>
      have h1 := List.find?_some hg
      rw [beq_iff_eq] at h1
      rw [huniq g (List.mem_of_find?_eq_some hg) f hf (by rw [h1, hk])]
    · cases hg : fs.find? (fun g => foldKey g.name == foldKey k) with
      | none =>
        rw [List.find?_eq_none] at hg
        have := hg f hf
        simp [hk] at this
      | some g =>
        have h1 := List.find?_some hg
        rw [beq_iff_eq] at h1
        rw [huniq g (List.mem_of_find?_eq_some hg) f hf (by rw [h1, hk])]

/-! ## Slots -/

/-- One part of a record that members set. -/
structure Slot (σ : Type) where
  name : GoString
  α : Type
  get : σ → α
  step : Json → α → α → Prop

/-- The field reads and writes just this part of the record. -/
def Slot.Fits {σ ρ : Type} (sls : List (Slot σ)) (rest : σ → ρ) (f : Field σ) (sl : Slot σ) : Prop :=
  f.name = sl.name ∧ ∃ set : σ → sl.α → σ, (∀ s v, sl.get (set s v) = v) ∧ (∀ s v, rest (set s v) = rest s) ∧
    (∀ sl' ∈ sls, sl'.name ≠ sl.name → ∀ s v, sl'.get (set s v) = sl'.get s) ∧
    (∀ j s s', f.dec j s = .ok s' ↔ ∃ v, sl.step j (sl.get s) v ∧ s' = set s v)

theorem decMembers_iff {σ ρ : Type} {fs : List (Field σ)} {sls : List (Slot σ)} {rest : σ → ρ}
    (hfit : List.Forall₂ (Slot.Fits sls rest) fs sls)
    (hext : ∀ s s' : σ, (∀ sl ∈ sls, sl.get s = sl.get s') → rest s = rest s' → s = s')
    (ha : ∀ sl ∈ sls, ∀ b ∈ sl.name, b.toNat < 128)
    (hd : (sls.map fun sl => foldKey sl.name).Nodup) {m : Members} {s r : σ} :
    decMembers fs m s = .ok r ↔ (∀ sl ∈ sls, Into sl.name sl.step m (sl.get s) (sl.get r)) ∧ rest r = rest s := by
  have hnames : fs.map (fun f => f.name) = sls.map (fun sl => sl.name) := by
    clear ha hd hext
    have : List.Forall₂ (fun (f : Field σ) (sl : Slot σ) => f.name = sl.name) fs sls := hfit.imp fun _ _ h => h.1
    clear hfit
    induction this with
    | nil => rfl
    | cons h _ ih => rw [List.map_cons, List.map_cons, h, ih]
  have hfl : ∀ f ∈ fs, ∃ sl ∈ sls, Slot.Fits sls rest f sl := by
    clear ha hd hext hnames
    generalize hP : Slot.Fits sls rest = P at hfit
    clear hP
    induction hfit with
    | nil => simp
    | @cons a b l1 l2 h _ ih =>
      intro f hf
      rcases List.mem_cons.1 hf with rfl | hf
      · exact ⟨b, List.mem_cons_self, h⟩
      · obtain ⟨sl, h1, h2⟩ := ih f hf
        exact ⟨sl, List.mem_cons_of_mem _ h1, h2⟩
  have hlf : ∀ sl ∈ sls, ∃ f ∈ fs, Slot.Fits sls rest f sl := by
    clear ha hd hext hnames hfl
    generalize hP : Slot.Fits sls rest = P at hfit
    clear hP
    induction hfit with
    | nil => simp
    | @cons a b l1 l2 h _ ih =>
      intro f hf
      rcases List.mem_cons.1 hf with rfl | hf
      · exact ⟨a, List.mem_cons_self, h⟩
      · obtain ⟨sl, h1, h2⟩ := ih f hf
        exact ⟨sl, List.mem_cons_of_mem _ h1, h2⟩
  have ha' : ∀ f ∈ fs, ∀ b ∈ f.name, b.toNat < 128 := by
    intro f hf b hb
    obtain ⟨sl, h1, h2⟩ := hfl f hf
    exact ha sl h1 b (h2.1 ▸ hb)
  have hd' : (fs.map fun f => foldKey f.name).Nodup := by
    have e1 : (fs.map fun f => foldKey f.name) = (fs.map fun f => f.name).map foldKey := by rw [List.map_map]; rfl
    have e2 : (sls.map fun sl => foldKey sl.name) = (sls.map fun sl => sl.name).map foldKey := by rw [List.map_map]; rfl
    rw [e1, hnames, ← e2]
    exact hd
  have huniq : ∀ a ∈ sls, ∀ b ∈ sls, a.name = b.name → a = b :=
    fun a ha' b hb h => List.inj_on_of_nodup_map hd ha' hb (by rw [h])
  have hspell : ∀ a ∈ sls, ∀ b ∈ sls, ∀ k, Spelled k a.name → Spelled k b.name → a.name = b.name := by
    intro a h1 b h2 k hka hkb
    have := (spelled_iff (ha a h1)).1 hka
    rw [← (spelled_iff (ha b h2)).1 hkb] at this
    rw [List.inj_on_of_nodup_map hd h1 h2 this]
  induction m generalizing s with
  | nil =>
    rw [decMembers]
    constructor
    · intro h
      cases h
      exact ⟨fun sl _ => .nil _, rfl⟩
    · rintro ⟨h1, h2⟩
      rw [hext s r (fun sl hsl => ?_) h2.symm]
      have := h1 sl hsl
      generalize sl.get s = x at this
      generalize sl.get r = y at this
      cases this
      rfl
  | cons kj m ih =>
    obtain ⟨k, j⟩ := kj
    rw [decMembers]
    cases hff : findField fs k with
    | none =>
      dsimp only
      refine ih.trans ?_
      have hno : ∀ sl ∈ sls, ¬ Spelled k sl.name := by
        intro sl hsl hk
        obtain ⟨f, hf, hfs⟩ := hlf sl hsl
        rw [(findField_iff ha' hd').2 ⟨hf, hfs.1 ▸ hk⟩] at hff
        cases hff
      refine and_congr_left fun _ => forall₂_congr fun sl hsl => ?_
      constructor
      · exact fun h => .other (hno sl hsl) h
      · intro h
        cases h with
        | other _ h => exact h
        | take hk _ _ => exact absurd hk (hno sl hsl)
    | some f =>
      dsimp only
      obtain ⟨hf, hk⟩ := (findField_iff ha' hd').1 hff
      obtain ⟨sl, hsl, hname, set, hget, hrest, hoth, hdec⟩ := hfl f hf
      rw [hname] at hk
      have hno : ∀ sl' ∈ sls, sl'.name ≠ sl.name → ¬ Spelled k sl'.name :=
        fun sl' h' hne hk' => hne (hspell sl' h' sl hsl k hk' hk)
      constructor
      · intro h
        cases hdj : f.dec j s with
        | err e => rw [hdj] at h; cases h
        | panic => rw [hdj] at h; cases h
        | ok s1 =>
          rw [hdj] at h
          dsimp only at h
          replace h := ih.1 h
          obtain ⟨v, hv, rfl⟩ := (hdec j s s1).1 hdj
          refine ⟨fun sl' h' => ?_, h.2.trans (hrest s v)⟩
          by_cases hne : sl'.name = sl.name
          · have := huniq sl' h' sl hsl hne
            subst this
            have h1 := h.1 sl' h'
            rw [hget] at h1
            exact .take hk hv h1
          · have h1 := h.1 sl' h'
            rw [hoth sl' h' hne] at h1
            exact .other (hno sl' h' hne) h1
      · rintro ⟨h1, h2⟩
        have h3 := h1 sl hsl
        have : ∃ u, sl.step j (sl.get s) u ∧ Into sl.name sl.step m u (sl.get r) := by
          cases h3 with
          | other hn _ => exact absurd hk hn
          | take _ hs hi => exact ⟨_, hs, hi⟩
        obtain ⟨u, hu, hi⟩ := this
        rw [(hdec j s (set s u)).2 ⟨u, hu, rfl⟩]
        dsimp only
        refine ih.2 ?_
        refine ⟨fun sl' h' => ?_, h2.trans (hrest s u).symm⟩
        by_cases hne : sl'.name = sl.name
        · have := huniq sl' h' sl hsl hne
          subst this
          rw [hget]
          exact hi
        · rw [hoth sl' h' hne]
          cases h1 sl' h' with
          | other _ h => exact h
          | take hk' _ _ => exact absurd hk' (hno sl' h' hne)

/-! ## Numbers and times -/

theorem digits_of {s : GoString} {n : Nat} : Digits s n ↔ s ≠ [] ∧ (∀ b ∈ s, IsDigit b) ∧ n = decVal s := by
  have e : ∀ s : GoString, number 10 (s.map fun b => b.toNat - 48) = decVal s := by
    intro s
    unfold number decVal
    rw [List.foldl_map]
    rfl
  unfold Digits
  rw [e]
  rfl

theorem parseUintLit_iff {bound : Nat} {l : GoString} {v : Nat} : parseUintLit bound l = some v ↔ Digits l v ∧ v < bound := by
  rw [digits_of]
  unfold parseUintLit
  have hall : l.all isDigit = true ↔ ∀ b ∈ l, IsDigit b := by
    rw [List.all_eq_true]
    exact forall₂_congr fun b _ => isDigit_iff
  simp only [hall]
  constructor
  · intro h
    split at h
    · next hc => cases h; exact ⟨⟨hc.1, hc.2.1, rfl⟩, hc.2.2⟩
    · cases h
  · rintro ⟨⟨h1, h2, rfl⟩, h3⟩
    rw [if_pos ⟨h1, h2, h3⟩]

theorem parseIntLit_iff {l : GoString} {v : Int} : parseIntLit l = some v ↔ IntText l v := by
  have hall : ∀ l : GoString, l.all isDigit = true ↔ ∀ b ∈ l, IsDigit b := by
    intro l
    rw [List.all_eq_true]
    exact forall₂_congr fun b _ => isDigit_iff
  unfold IntText
  simp only [digits_of]
  unfold parseIntLit
  simp only [hall]
  cases l with
  | nil => simp
  | cons b t =>
    dsimp only
    by_cases hb : b = 45
    · rw [if_pos hb]
      subst hb
      constructor
      · intro h
        split at h
        · next hc => cases h; exact .inr ⟨t, _, rfl, ⟨hc.1, hc.2.1, rfl⟩, hc.2.2, rfl⟩
        · cases h
      · rintro (⟨n, ⟨_, h, _⟩, _⟩ | ⟨t', n, e, ⟨h1, h2, rfl⟩, h3, rfl⟩)
        · exact absurd (h 45 List.mem_cons_self) (by unfold IsDigit; decide)
        · cases e
          rw [if_pos ⟨h1, h2, h3⟩]
    · rw [if_neg hb]
      constructor
      · intro h
        split at h
        · next hc => cases h; exact .inl ⟨_, ⟨by simp, hc.1, rfl⟩, hc.2, rfl⟩
        · cases h
      · rintro (⟨n, ⟨_, h1, rfl⟩, h2, rfl⟩ | ⟨t', n, e, _⟩)
        · rw [if_pos ⟨h1, h2⟩]
        · cases e; exact absurd rfl hb

theorem takeNum_iff {w n : Nat} {s r : GoString} (hw : 0 < w) :
    takeNum w s = some (n, r) ↔ ∃ ds, s = ds ++ r ∧ ds.length = w ∧ Digits ds n := by
  simp only [digits_of]
  unfold takeNum
  have hall : (s.take w).all isDigit = true ↔ ∀ b ∈ s.take w, IsDigit b := by
    rw [List.all_eq_true]
    exact forall₂_congr fun b _ => isDigit_iff
  simp only [hall]
  constructor
  · intro h
    split at h
    · next hc =>
      cases h
      have hl : (s.take w).length = w := by rw [List.length_take]; omega
      refine ⟨s.take w, (List.take_append_drop w s).symm, hl, ?_, hc.2, rfl⟩
      intro e
      rw [e] at hl
      simp at hl
      omega
    · cases h
  · rintro ⟨ds, rfl, hl, h1, h2, rfl⟩
    have e1 : (ds ++ r).take w = ds := by rw [← hl, List.take_left]
    have e2 : (ds ++ r).drop w = r := by rw [← hl, List.drop_left]
    rw [if_pos ⟨by rw [List.length_append]; omega, by rw [e1]; exact h2⟩, e1, e2]

theorem expectByte_iff {b : UInt8} {s r : GoString} : expectByte b s = some r ↔ s = b :: r := by
  unfold expectByte
  cases s with
  | nil => simp
  | cons c t =>
    dsimp only
    split
    · next h => subst h; simp
    · next h => constructor
                · intro e; cases e
                · intro e; cases e; exact absurd rfl h

theorem parseZone_iff {s : GoString} {off : Int} : parseZone s = some off ↔ ZoneText s off := by
  unfold parseZone ZoneText Two
  cases s with
  | nil => simp
  | cons b t =>
    dsimp only
    by_cases h90 : b = 90
    · subst h90
      rw [if_pos rfl]
      constructor
      · intro h
        split at h
        · next ht => cases h; exact .inl ⟨by rw [ht], rfl⟩
        · cases h
      · rintro (⟨e, rfl⟩ | ⟨sign, hs, ms, h, m, e, _, _, _, _, h1⟩)
        · cases e; rfl
        · cases e
          rcases h1 with ⟨h1, _⟩ | ⟨h1, _⟩ <;> exact absurd h1 (by decide)
    · rw [if_neg h90]
      constructor
      · intro h
        split at h
        · next hb =>
          simp only [Option.bind_eq_bind, Option.bind_eq_some_iff, Prod.exists] at h
          obtain ⟨hh, t1, e1, t2, e2, mm, t3, e3, h⟩ := h
          obtain ⟨hs, rfl, hl, hd⟩ := (takeNum_iff (by decide)).1 e1
          have := expectByte_iff.1 e2
          subst this
          obtain ⟨ms, rfl, hl', hd'⟩ := (takeNum_iff (by decide)).1 e3
          split at h
          · next hc =>
            obtain ⟨rfl, hc1, hc2⟩ := hc
            cases h
            refine .inr ⟨b, hs, ms, hh, mm, by rw [List.append_nil], ⟨hl, hd⟩, ⟨hl', hd'⟩, hc1, hc2, ?_⟩
            rcases hb with rfl | rfl
            · exact .inl ⟨rfl, rfl⟩
            · exact .inr ⟨rfl, rfl⟩
          · cases h
        · cases h
      · rintro (⟨e, _⟩ | ⟨sign, hs, ms, h, m, e, ⟨hl, hd⟩, ⟨hl', hd'⟩, h1, h2, h3⟩)
        · cases e; exact absurd rfl h90
        · cases e
          have hb : b = 43 ∨ b = 45 := by
            rcases h3 with h3 | h3
            · exact .inl h3.1
            · exact .inr h3.1
          rw [if_pos hb]
          simp only [Option.bind_eq_bind, Option.bind_eq_some_iff, Prod.exists]
          refine ⟨h, 58 :: ms, (takeNum_iff (by decide)).2 ⟨hs, rfl, hl, hd⟩, ms, expectByte_iff.2 rfl, m, [],
            (takeNum_iff (by decide)).2 ⟨ms, (List.append_nil _).symm, hl', hd'⟩, ?_⟩
          rw [if_pos ⟨rfl, h1, h2⟩]
          rcases h3 with ⟨rfl, rfl⟩ | ⟨rfl, rfl⟩ <;> rfl

theorem cut_nine {ds : GoString} (h : ∀ b ∈ ds, IsDigit b) :
    decVal ((ds ++ List.replicate 9 48).take 9) = decVal ds * 10 ^ 9 / 10 ^ ds.length := by
  have hz : ∀ k, decVal (List.replicate k 48) = 0 := by
    intro k
    have := decVal_zeros k []
    rw [List.append_nil] at this
    rw [this]; rfl
  by_cases hl : ds.length ≤ 9
  · have e : (ds ++ List.replicate 9 48).take 9 = ds ++ List.replicate (9 - ds.length) 48 := by
      rw [List.take_append, List.take_of_length_le hl, List.take_replicate]
      congr 2
      omega
    rw [e, decVal_append, hz, List.length_replicate, Nat.add_zero]
    have : 10 ^ 9 = 10 ^ (9 - ds.length) * 10 ^ ds.length := by rw [← Nat.pow_add]; congr 1; omega
    rw [this, ← Nat.mul_assoc, Nat.mul_div_cancel _ (Nat.pow_pos (by decide))]
  · have e : (ds ++ List.replicate 9 48).take 9 = ds.take 9 := by rw [List.take_append_of_le_length (by omega)]
    rw [e]
    have hsplit : decVal ds = decVal (ds.take 9) * 10 ^ (ds.length - 9) + decVal (ds.drop 9) := by
      have h0 := decVal_append (ds.take 9) (ds.drop 9)
      rw [List.take_append_drop, List.length_drop] at h0
      exact h0
    have hlt : decVal (ds.drop 9) < 10 ^ (ds.length - 9) := by
      have h0 := decVal_lt (s := ds.drop 9) (fun b hb => h b (List.mem_of_mem_drop hb))
      rwa [List.length_drop] at h0
    have hp : 10 ^ ds.length = 10 ^ 9 * 10 ^ (ds.length - 9) := by rw [← Nat.pow_add]; congr 1; omega
    rw [hp, Nat.mul_comm (decVal ds), Nat.mul_div_mul_left _ _ (by decide), hsplit, Nat.add_comm, Nat.add_mul_div_right _ _ (Nat.pow_pos (by decide)),
      Nat.div_eq_of_lt hlt, Nat.zero_add]

theorem ZoneText.noDigit {z : GoString} {off : Int} (h : ZoneText z off) : JsonGrammar.NoDigit z ∧ z.head? ≠ some 46 := by
  unfold ZoneText at h
  rcases h with ⟨rfl, _⟩ | ⟨sign, hs, ms, h, m, rfl, _, _, _, _, h1⟩
  · refine ⟨?_, by decide⟩
    intro b t e
    cases e
    unfold IsDigit
    decide
  · rcases h1 with ⟨rfl, _⟩ | ⟨rfl, _⟩
    · refine ⟨?_, by simp⟩
      intro b t e
      cases e
      unfold IsDigit
      decide
    · refine ⟨?_, by simp⟩
      intro b t e
      cases e
      unfold IsDigit
      decide

theorem parseNano_zone_iff {s : GoString} {n : Nat} {off : Int} :
    (∃ r, parseNano s = some (n, r) ∧ parseZone r = some off) ↔
      ∃ fr zone, s = fr ++ zone ∧ FractionText fr n ∧ ZoneText zone off := by
  simp only [parseZone_iff]
  constructor
  · rintro ⟨r, h, hz⟩
    unfold parseNano at h
    cases s with
    | nil =>
      cases h
      exact ⟨[], [], rfl, .inl ⟨rfl, rfl⟩, hz⟩
    | cons b t =>
      dsimp only at h
      split at h
      · next hb =>
        subst hb
        split at h
        · cases h
        · next hne =>
          cases h
          obtain ⟨h1, h2⟩ := JsonGrammar.spanDigits_spec t
          refine ⟨46 :: (spanDigits t).1, (spanDigits t).2, by rw [List.cons_append, ← h1], .inr ⟨(spanDigits t).1, _, rfl, digits_of.2 ⟨hne, h2, rfl⟩, ?_⟩, hz⟩
          exact cut_nine h2
      · cases h
        exact ⟨[], b :: t, rfl, .inl ⟨rfl, rfl⟩, hz⟩
  · rintro ⟨fr, zone, rfl, hf, hz⟩
    refine ⟨zone, ?_, hz⟩
    obtain ⟨hn, hp⟩ := hz.noDigit
    rcases hf with ⟨rfl, rfl⟩ | ⟨ds, k, rfl, hd, rfl⟩
    · rw [List.nil_append]
      unfold parseNano
      cases zone with
      | nil => rfl
      | cons b t =>
        dsimp only
        rw [if_neg]
        rintro rfl
        exact hp rfl
    · obtain ⟨h1, h2, rfl⟩ := digits_of.1 hd
      unfold parseNano
      rw [List.cons_append]
      dsimp only
      rw [if_pos rfl, JsonGrammar.spanDigits_stop h2 hn]
      dsimp only
      rw [if_neg h1, cut_nine h2]

theorem parseTime_iff {s : GoString} {t : GoTime} : parseTime s = some t ↔ TimeText s t := by
  unfold parseTime TimeText
  simp only [Option.bind_eq_bind, Option.bind_eq_some_iff, Prod.exists, takeNum_iff (show 0 < 4 by decide), takeNum_iff (show 0 < 2 by decide),
    expectByte_iff]
  constructor
  · rintro ⟨y, s1, ⟨ys, rfl, hyl, hy⟩, s2, rfl, mo, s3, ⟨mos, rfl, hmol, hmo⟩, s4, rfl, d, s5, ⟨ds, rfl, hdl, hd⟩, s6, rfl,
      h, s7, ⟨hs, rfl, hhl, hh⟩, s8, rfl, mi, s9, ⟨mis, rfl, hmil, hmi⟩, s10, rfl, se, s11, ⟨ses, rfl, hsel, hse⟩, ns, r, hn, off, hz, hc⟩
    obtain ⟨fr, zone, rfl, hf, hzt⟩ := parseNano_zone_iff.1 ⟨r, hn, hz⟩
    split at hc
    · next hc' =>
      cases hc
      refine ⟨ys, mos, ds, hs, mis, ses, fr, zone, rfl, hyl, hy, ⟨hmol, hmo⟩, ⟨hdl, hd⟩, ⟨hhl, hh⟩, ⟨hmil, hmi⟩, ⟨hsel, hse⟩, hf, hzt, ?_⟩
      obtain ⟨c1, c2, c3, c4, c5, c6, c7⟩ := hc'
      rw [daysIn_eq] at c4
      refine ⟨?_, ⟨c1, c2⟩, ⟨c3, c4⟩, c5, c6, c7, ?_, ?_⟩
      · obtain ⟨_, h1, rfl⟩ := digits_of.1 hy
        have := decVal_lt h1
        rw [hyl] at this
        dsimp only
        omega
      · dsimp only
        rcases hf with ⟨_, rfl⟩ | ⟨ds', k, _, hk, rfl⟩
        · decide
        · obtain ⟨_, h1, rfl⟩ := digits_of.1 hk
          have := decVal_lt h1
          exact (Nat.div_lt_iff_lt_mul (Nat.pow_pos (by decide))).2 (by rw [Nat.mul_comm (10 ^ 9)]; exact Nat.mul_lt_mul_of_pos_right this (by decide))
      · dsimp only
        rcases hzt with ⟨_, rfl⟩ | ⟨sign, _, _, h', m', _, _, _, h1, h2, h3⟩
        · decide
        · rcases h3 with ⟨_, rfl⟩ | ⟨_, rfl⟩ <;> omega
    · cases hc
  · rintro ⟨ys, mos, ds, hs, mis, ses, fr, zone, rfl, hyl, hy, ⟨hmol, hmo⟩, ⟨hdl, hd⟩, ⟨hhl, hh⟩, ⟨hmil, hmi⟩, ⟨hsel, hse⟩, hf, hzt, hok⟩
    obtain ⟨r, hn, hz⟩ := parseNano_zone_iff.2 ⟨fr, zone, rfl, hf, hzt⟩
    refine ⟨_, _, ⟨ys, rfl, hyl, hy⟩, _, rfl, _, _, ⟨mos, rfl, hmol, hmo⟩, _, rfl, _, _, ⟨ds, rfl, hdl, hd⟩, _, rfl,
      _, _, ⟨hs, rfl, hhl, hh⟩, _, rfl, _, _, ⟨mis, rfl, hmil, hmi⟩, _, rfl, _, _, ⟨ses, rfl, hsel, hse⟩, _, r, hn, _, hz, ?_⟩
    obtain ⟨o1, ⟨o2, o3⟩, ⟨o4, o5⟩, o6, o7, o8, _, _⟩ := hok
    rw [if_pos ⟨o2, o3, o4, by rw [daysIn_eq]; exact o5, o6, o7, o8⟩]

end GoIdentity
