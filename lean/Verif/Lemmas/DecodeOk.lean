import Verif.Lemmas.Codec
/-!
# Whatever is read is representable

Every string in a parsed document is valid UTF-8, every integer fits, every time is a date; so a decoded database can be
written and read again without change.
-/
namespace GoIdentity

mutual
/-- All strings are valid UTF-8. -/
def Json.Valid : Json → Prop
  | .str s => Utf8 s
  | .arr xs => Json.ValidElems xs
  | .obj m => Json.ValidMembers m
  | _ => True
def Json.ValidElems : List Json → Prop
  | [] => True
  | x :: xs => x.Valid ∧ Json.ValidElems xs
def Json.ValidMembers : List (GoString × Json) → Prop
  | [] => True
  | (k, v) :: m => Utf8 k ∧ v.Valid ∧ Json.ValidMembers m
end

theorem encodeRune_valid (r : Nat) : Utf8 (encodeRune r) := by
  by_cases h : IsScalar r
  · have := validUTF8_encodeRune h []
    rw [List.append_nil] at this
    exact this
  · have he : encodeRune r = [0xEF, 0xBF, 0xBD] := by
      unfold IsScalar at h
      unfold encodeRune
      rw [if_neg (by omega), if_neg (by omega), if_pos (by omega)]
    show validUTF8 (encodeRune r) = true
    rw [he]
    decide

theorem parseEsc_valid {s : GoString} {x r : GoString} (h : parseEsc s = some (x, r)) : Utf8 x := by
  cases s with
  | nil => simp [parseEsc] at h
  | cons c t =>
    unfold parseEsc at h
    dsimp only at h
    split at h
    · rename_i hc
      simp only [Option.some.injEq, Prod.mk.injEq] at h
      rw [← h.1]
      rcases hc with rfl | rfl | rfl <;> decide
    · repeat' (first | (split at h))
      all_goals first
        | (simp only [Option.some.injEq, Prod.mk.injEq] at h; rw [← h.1]; exact encodeRune_valid _)
        | (simp only [Option.some.injEq, Prod.mk.injEq] at h; rw [← h.1]; decide)
        | simp at h

theorem parseStr_valid {n : Nat} {s x r : GoString} (h : parseStr n s = some (x, r)) : Utf8 x := by
  induction n generalizing s x r with
  | zero => simp [parseStr] at h
  | succ n ih =>
    cases s with
    | nil => simp [parseStr] at h
    | cons b t =>
      unfold parseStr at h
      split at h
      · simp only [Option.some.injEq, Prod.mk.injEq] at h; rw [← h.1]; rfl
      · split at h
        · split at h
          · simp at h
          · rename_i bs t' he
            split at h
            · simp at h
            · rename_i s' r' hs
              simp only [Option.some.injEq, Prod.mk.injEq] at h
              rw [← h.1]
              exact validUTF8_append (parseEsc_valid he) (ih hs)
        · split at h
          · simp at h
          · dsimp only at h
            split at h
            · simp at h
            · rename_i s' r' hs
              simp only [Option.some.injEq, Prod.mk.injEq] at h
              rw [← h.1]
              exact validUTF8_append (encodeRune_valid _) (ih hs)

theorem parse_valid (n : Nat) :
    (∀ s j r, parseValue n s = some (j, r) → j.Valid) ∧
    (∀ s xs r, parseElems n s = some (xs, r) → Json.ValidElems xs) ∧
    (∀ s m r, parseMembers n s = some (m, r) → Json.ValidMembers m) := by
  induction n with
  | zero => simp [parseValue, parseElems, parseMembers]
  | succ n ih =>
    obtain ⟨ih1, ih2, ih3⟩ := ih
    refine ⟨?_, ?_, ?_⟩
    · intro s j r h
      unfold parseValue at h
      split at h
      · simp at h
      · split at h
        · split at h
          · simp at h
          · split at h
            · simp only [Option.some.injEq, Prod.mk.injEq] at h; rw [← h.1]; simp [Json.Valid, Json.ValidMembers]
            · split at h
              · simp at h
              · rename_i hm
                simp only [Option.some.injEq, Prod.mk.injEq] at h; rw [← h.1]
                simpa [Json.Valid] using ih3 _ _ _ hm
        · split at h
          · split at h
            · simp at h
            · split at h
              · simp only [Option.some.injEq, Prod.mk.injEq] at h; rw [← h.1]; simp [Json.Valid, Json.ValidElems]
              · split at h
                · simp at h
                · rename_i hm
                  simp only [Option.some.injEq, Prod.mk.injEq] at h; rw [← h.1]
                  simpa [Json.Valid] using ih2 _ _ _ hm
          · split at h
            · split at h
              · simp at h
              · rename_i hm
                simp only [Option.some.injEq, Prod.mk.injEq] at h; rw [← h.1]
                simpa [Json.Valid] using parseStr_valid hm
            · repeat' (first | (split at h))
              all_goals first
                | (simp only [Option.some.injEq, Prod.mk.injEq] at h; rw [← h.1]; simp [Json.Valid])
                | simp at h
    · intro s xs r h
      unfold parseElems at h
      split at h
      · simp at h
      · rename_i v r' hv
        split at h
        · simp at h
        · split at h
          · split at h
            · simp at h
            · rename_i hm
              simp only [Option.some.injEq, Prod.mk.injEq] at h; rw [← h.1]
              exact ⟨ih1 _ _ _ hv, ih2 _ _ _ hm⟩
          · split at h
            · simp only [Option.some.injEq, Prod.mk.injEq] at h; rw [← h.1]
              exact ⟨ih1 _ _ _ hv, trivial⟩
            · simp at h
    · intro s m r h
      unfold parseMembers at h
      split at h
      · simp at h
      · split at h
        · split at h
          · simp at h
          · rename_i k r1 hk
            split at h
            · simp at h
            · split at h
              · split at h
                · simp at h
                · rename_i v r' hv
                  split at h
                  · simp at h
                  · split at h
                    · split at h
                      · simp at h
                      · rename_i hm
                        simp only [Option.some.injEq, Prod.mk.injEq] at h; rw [← h.1]
                        exact ⟨parseStr_valid hk, ih1 _ _ _ hv, ih3 _ _ _ hm⟩
                    · split at h
                      · simp only [Option.some.injEq, Prod.mk.injEq] at h; rw [← h.1]
                        exact ⟨parseStr_valid hk, ih1 _ _ _ hv, trivial⟩
                      · simp at h
              · simp at h
        · simp at h

theorem parseText_valid {s : GoString} {j : Json} (h : parseText s = some j) : j.Valid := by
  unfold parseText at h
  split at h
  · simp at h
  · rename_i j' r hj
    split at h
    · simp only [Option.some.injEq] at h
      rw [← h]
      exact (parse_valid _).1 _ _ _ hj
    · simp at h

theorem parseText_of_doc {s : GoString} {j : Json} (h : parseDoc s = some j) : parseText s = some j ∧ j.depth ≤ 10000 := by
  unfold parseDoc at h
  split at h
  · simp at h
  · rename_i j' hp
    split at h
    · rename_i hd
      cases h
      exact ⟨hp, hd⟩
    · simp at h

theorem parseDoc_valid {s : GoString} {j : Json} (h : parseDoc s = some j) : j.Valid :=
  parseText_valid (parseText_of_doc h).1

/-! ## Fields -/

/-- Decoding into the field keeps a property of the struct. -/
def Field.Keeps {σ : Type} (P : σ → Prop) (f : Field σ) : Prop :=
  ∀ j s s', j.Valid → P s → f.dec j s = .ok s' → P s'

theorem findField_in {σ : Type} {fs : List (Field σ)} {k : GoString} {f : Field σ} (h : findField fs k = some f) : f ∈ fs := by
  unfold findField at h
  split at h
  · rename_i g hg
    simp only [Option.some.injEq] at h
    subst h
    exact List.mem_of_find?_eq_some hg
  · exact List.mem_of_find?_eq_some h

theorem decMembers_keeps {σ : Type} {P : σ → Prop} {fs : List (Field σ)} (hfs : ∀ f ∈ fs, f.Keeps P)
    {m : List (GoString × Json)} {s s' : σ} (hm : Json.ValidMembers m) (hs : P s) (h : decMembers fs m s = .ok s') : P s' := by
  induction m generalizing s with
  | nil => simp only [decMembers, Res.ok.injEq] at h; exact h ▸ hs
  | cons kv m ih =>
    obtain ⟨k, v⟩ := kv
    obtain ⟨_, hv, hm⟩ := hm
    unfold decMembers at h
    split at h
    · exact ih hm hs h
    · rename_i f hf
      split at h
      · rename_i s1 hs1
        exact ih hm (hfs f (findField_in hf) v s s1 hv hs hs1) h
      · simp at h
      · simp at h

theorem decStruct_keeps {σ : Type} {P : σ → Prop} {fs : List (Field σ)} (hfs : ∀ f ∈ fs, f.Keeps P) {j : Json} {s s' : σ}
    (hj : j.Valid) (hs : P s) (h : decStruct fs j s = .ok s') : P s' := by
  unfold decStruct at h
  split at h
  · simp only [Res.ok.injEq] at h; exact h ▸ hs
  · exact decMembers_keeps hfs (by simpa [Json.Valid] using hj) hs h
  · simp [typeErr] at h

theorem decElems_keeps {σ : Type} {P : σ → Prop} {fs : List (Field σ)} {zero : σ} (hfs : ∀ f ∈ fs, f.Keeps P) (hz : P zero)
    {js : List Json} {xs : List σ} (hj : Json.ValidElems js) (h : decElems fs zero js = .ok xs) : ∀ x ∈ xs, P x := by
  induction js generalizing xs with
  | nil => simp only [decElems, Res.ok.injEq] at h; subst h; simp
  | cons j js ih =>
    obtain ⟨hj1, hj2⟩ := hj
    unfold decElems at h
    split at h
    · cases ‹_ :: _ = []›
    · simp at h
    · rename_i heq
      cases heq
      split at h
      · rename_i x hx
        split at h
        · rename_i ys hys
          simp only [Res.ok.injEq] at h
          subst h
          intro y hy
          rcases List.mem_cons.1 hy with rfl | hy
          · exact decStruct_keeps hfs hj1 hz hx
          · exact ih hj2 hys y hy
        · simp at h
        · simp at h
      · simp at h
      · simp at h

theorem decStrs_valid {js : List Json} {xs : List GoString} (hj : Json.ValidElems js) (h : decStrs js = .ok xs) :
    ∀ x ∈ xs, Utf8 x := by
  induction js generalizing xs with
  | nil => simp only [decStrs, Res.ok.injEq] at h; subst h; simp
  | cons j js ih =>
    obtain ⟨hj1, hj2⟩ := hj
    cases j with
    | str s =>
      unfold decStrs at h
      split at h
      · rename_i ys hys
        simp only [Res.ok.injEq] at h
        subst h
        intro y hy
        rcases List.mem_cons.1 hy with rfl | hy
        · simpa [Json.Valid] using hj1
        · exact ih hj2 hys y hy
      · simp at h
      · simp at h
    | null =>
      unfold decStrs at h
      split at h
      · rename_i ys hys
        simp only [Res.ok.injEq] at h
        subst h
        intro y hy
        rcases List.mem_cons.1 hy with rfl | hy
        · rfl
        · exact ih hj2 hys y hy
      · simp at h
      · simp at h
    | _ => simp [decStrs, typeErr] at h

theorem mem_mapInsert {α : Type} {k : GoString} {v : α} {m : List (GoString × α)} {p : GoString × α}
    (h : p ∈ mapInsert k v m) : p = (k, v) ∨ p ∈ m := by
  induction m with
  | nil => simpa [mapInsert] using h
  | cons q m ih =>
    obtain ⟨k', v'⟩ := q
    unfold mapInsert at h
    split at h
    · rcases List.mem_cons.1 h with h | h
      · exact .inl h
      · exact .inr (by simp [h])
    · split at h
      · rcases List.mem_cons.1 h with h | h
        · exact .inl h
        · exact .inr h
      · rcases List.mem_cons.1 h with h | h
        · exact .inr (by simp [h])
        · rcases ih h with h | h
          · exact .inl h
          · exact .inr (by simp [h])

theorem bytesLt_trans {a b c : GoString} (h1 : bytesLt a b = true) (h2 : bytesLt b c = true) : bytesLt a c = true := by
  induction a generalizing b c with
  | nil =>
    cases b with
    | nil => simp [bytesLt] at h1
    | cons y b =>
      cases c with
      | nil => simp [bytesLt] at h2
      | cons z c => rfl
  | cons x a ih =>
    cases b with
    | nil => simp [bytesLt] at h1
    | cons y b =>
      cases c with
      | nil => simp [bytesLt] at h2
      | cons z c =>
        simp only [bytesLt, Bool.or_eq_true, decide_eq_true_eq, Bool.and_eq_true, beq_iff_eq] at h1 h2 ⊢
        rcases h1 with h1 | ⟨rfl, h1⟩ <;> rcases h2 with h2 | ⟨rfl, h2⟩
        · exact .inl (by omega)
        · exact .inl h1
        · exact .inl h2
        · exact .inr ⟨rfl, ih h1 h2⟩

theorem bytesLt_total {a b : GoString} (h : a ≠ b) (h1 : bytesLt a b ≠ true) : bytesLt b a = true := by
  induction a generalizing b with
  | nil =>
    cases b with
    | nil => exact absurd rfl h
    | cons y b => simp [bytesLt] at h1
  | cons x a ih =>
    cases b with
    | nil => rfl
    | cons y b =>
      rw [bytesLt, Ne, Bool.or_eq_true, not_or, decide_eq_true_eq, Bool.and_eq_true, not_and, beq_iff_eq] at h1
      simp only [bytesLt, Bool.or_eq_true, decide_eq_true_eq, Bool.and_eq_true, beq_iff_eq]
      by_cases hxy : x = y
      · subst hxy
        exact .inr ⟨rfl, ih (fun hc => h (by rw [hc])) (h1.2 rfl)⟩
      · left
        have : x.toNat ≠ y.toNat := fun hc => hxy (UInt8.toNat_inj.1 hc)
        omega

/-- Inserting keeps a map in order. -/
theorem mapInsert_sorted {α : Type} {k : GoString} {v : α} {m : List (GoString × α)}
    (h : m.Pairwise fun a b => bytesLt a.1 b.1 = true) : (mapInsert k v m).Pairwise fun a b => bytesLt a.1 b.1 = true := by
  induction m with
  | nil => simp [mapInsert]
  | cons q m ih =>
    obtain ⟨k', v'⟩ := q
    rw [List.pairwise_cons] at h
    unfold mapInsert
    split
    · rename_i hk
      subst hk
      exact List.pairwise_cons.2 h
    · rename_i hk
      split
      · rename_i hlt
        refine List.pairwise_cons.2 ⟨?_, List.pairwise_cons.2 h⟩
        intro p hp
        rcases List.mem_cons.1 hp with rfl | hp
        · exact hlt
        · exact bytesLt_trans hlt (h.1 p hp)
      · rename_i hlt
        refine List.pairwise_cons.2 ⟨?_, ih h.2⟩
        intro p hp
        rcases mem_mapInsert hp with rfl | hp
        · exact bytesLt_total hk hlt
        · exact h.1 p hp

theorem decMap_keeps {α : Type} {elem : Json → Res α} {Q : GoString × α → Prop}
    (helem : ∀ k j a, Utf8 k → j.Valid → elem j = .ok a → Q (k, a)) {m : List (GoString × Json)} {acc r : List (GoString × α)}
    (hm : Json.ValidMembers m) (hacc : ∀ p ∈ acc, Q p) (hs : acc.Pairwise fun a b => bytesLt a.1 b.1 = true)
    (h : decMap elem m acc = .ok r) : (∀ p ∈ r, Q p) ∧ r.Pairwise fun a b => bytesLt a.1 b.1 = true := by
  induction m generalizing acc with
  | nil => simp only [decMap, Res.ok.injEq] at h; subst h; exact ⟨hacc, hs⟩
  | cons kv m ih =>
    obtain ⟨k, v⟩ := kv
    obtain ⟨hk, hv, hm⟩ := hm
    unfold decMap at h
    split at h
    · rename_i a ha
      refine ih hm ?_ (mapInsert_sorted hs) h
      intro p hp
      rcases mem_mapInsert hp with rfl | hp
      · exact helem k v a hk hv ha
      · exact hacc p hp
    · simp at h
    · simp at h

/-! ## Field kinds -/

section kinds
variable {σ : Type} {P : σ → Prop}

theorem keeps_fStr {name get set} (h : ∀ s v, P s → Utf8 v → P (set s v)) : (fStr name get set : Field σ).Keeps P := by
  intro j s s' hj hs hd
  simp only [fStr] at hd
  split at hd
  · simp only [Res.ok.injEq] at hd; subst hd; exact h s _ hs (by simpa [Json.Valid] using hj)
  · simp only [Res.ok.injEq] at hd; exact hd ▸ hs
  · simp [typeErr] at hd

theorem keeps_fBool {name get set} (h : ∀ s v, P s → P (set s v)) : (fBool name get set : Field σ).Keeps P := by
  intro j s s' hj hs hd
  simp only [fBool] at hd
  split at hd
  · simp only [Res.ok.injEq] at hd; subst hd; exact h s _ hs
  · simp only [Res.ok.injEq] at hd; exact hd ▸ hs
  · simp [typeErr] at hd

theorem keeps_fBoolAlways {name get set} (h : ∀ s v, P s → P (set s v)) : (fBoolAlways name get set : Field σ).Keeps P := by
  intro j s s' hj hs hd
  simp only [fBoolAlways] at hd
  split at hd
  · simp only [Res.ok.injEq] at hd; subst hd; exact h s _ hs
  · simp only [Res.ok.injEq] at hd; exact hd ▸ hs
  · simp [typeErr] at hd

theorem parseIntLit_range {l : GoString} {n : Int} (h : parseIntLit l = some n) : Int64 n := by
  unfold parseIntLit at h
  unfold Int64
  split at h
  · simp at h
  · split at h
    · split at h
      · rename_i hc; simp only [Option.some.injEq] at h; omega
      · simp at h
    · split at h
      · rename_i hc; simp only [Option.some.injEq] at h; omega
      · simp at h

theorem decInt_keeps {set : σ → Int → σ} (h : ∀ s v, P s → Int64 v → P (set s v)) {j : Json} {s s' : σ} (hs : P s)
    (hd : decInt set j s = .ok s') : P s' := by
  unfold decInt at hd
  split at hd
  · split at hd
    · rename_i v hv
      simp only [Res.ok.injEq] at hd; subst hd; exact h s _ hs (parseIntLit_range hv)
    · simp [typeErr] at hd
  · simp only [Res.ok.injEq] at hd; exact hd ▸ hs
  · simp [typeErr] at hd

theorem keeps_fInt {name get set} (h : ∀ s v, P s → Int64 v → P (set s v)) : (fInt name get set : Field σ).Keeps P :=
  fun _ _ _ _ hs hd => decInt_keeps h hs hd

theorem keeps_fIntAlways {name get set} (h : ∀ s v, P s → Int64 v → P (set s v)) :
    (fIntAlways name get set : Field σ).Keeps P :=
  fun _ _ _ _ hs hd => decInt_keeps h hs hd

theorem keeps_fUint {bound name get set} (h : ∀ s v, P s → v < bound → P (set s v)) :
    (fUint bound name get set : Field σ).Keeps P := by
  intro j s s' hj hs hd
  simp only [fUint, decUint] at hd
  split at hd
  · split at hd
    · rename_i v hv
      simp only [Res.ok.injEq] at hd; subst hd
      unfold parseUintLit at hv
      split at hv
      · rename_i hc; simp only [Option.some.injEq] at hv; subst hv; exact h s _ hs hc.2.2
      · simp at hv
    · simp [typeErr] at hd
  · simp only [Res.ok.injEq] at hd; exact hd ▸ hs
  · simp [typeErr] at hd

theorem keeps_fTime {name get set} (h : ∀ s v, P s → v.Ok → P (set s v)) : (fTime name get set : Field σ).Keeps P := by
  intro j s s' hj hs hd
  simp only [fTime] at hd
  split at hd
  · split at hd
    · rename_i t ht
      simp only [Res.ok.injEq] at hd; subst hd; exact h s _ hs (parseTime_ok ht)
    · simp [typeErr] at hd
  · simp only [Res.ok.injEq] at hd; exact hd ▸ hs
  · simp [typeErr] at hd

theorem keeps_fStruct {τ : Type} {Q : τ → Prop} {name get set} {fs : List (Field τ)} (hfs : ∀ f ∈ fs, f.Keeps Q)
    (hget : ∀ s, P s → Q (get s)) (h : ∀ s v, P s → Q v → P (set s v)) : (fStruct name fs get set : Field σ).Keeps P := by
  intro j s s' hj hs hd
  simp only [fStruct] at hd
  split at hd
  · rename_i v hv
    simp only [Res.ok.injEq] at hd; subst hd
    exact h s _ hs (decStruct_keeps hfs hj (hget s hs) hv)
  · simp at hd
  · simp at hd

theorem keeps_fPtr {τ : Type} {Q : τ → Prop} {name get set zero} {fs : List (Field τ)} (hfs : ∀ f ∈ fs, f.Keeps Q)
    (hz : Q zero) (hget : ∀ s, P s → ∀ x, get s = some x → Q x) (h : ∀ s v, P s → (∀ x, v = some x → Q x) → P (set s v)) :
    (fPtr name fs zero get set : Field σ).Keeps P := by
  intro j s s' hj hs hd
  simp only [fPtr] at hd
  split at hd
  · simp only [Res.ok.injEq] at hd; subst hd; exact h s _ hs (by simp)
  · split at hd
    · rename_i v hv
      simp only [Res.ok.injEq] at hd; subst hd
      refine h s _ hs ?_
      intro x hx
      simp only [Option.some.injEq] at hx
      subst hx
      refine decStruct_keeps hfs hj ?_ hv
      cases hg : get s with
      | none => exact hz
      | some x => exact hget s hs x hg
    · simp at hd
    · simp at hd

theorem keeps_fList {τ : Type} {Q : τ → Prop} {name get set zero} {fs : List (Field τ)} (hfs : ∀ f ∈ fs, f.Keeps Q)
    (hz : Q zero) (h : ∀ s v, P s → (∀ x ∈ v, Q x) → P (set s v)) :
    (fList name fs zero get set : Field σ).Keeps P := by
  intro j s s' hj hs hd
  simp only [fList] at hd
  split at hd
  · simp only [Res.ok.injEq] at hd; subst hd; exact h s _ hs (by simp)
  · split at hd
    · rename_i v hv
      simp only [Res.ok.injEq] at hd; subst hd
      exact h s _ hs (decElems_keeps hfs hz (by simpa [Json.Valid] using hj) hv)
    · simp at hd
    · simp at hd
  · simp [typeErr] at hd

theorem keeps_fStrs {name get set} (h : ∀ s v, P s → (∀ x ∈ v, Utf8 x) → P (set s v)) :
    (fStrs name get set : Field σ).Keeps P := by
  intro j s s' hj hs hd
  simp only [fStrs] at hd
  split at hd
  · simp only [Res.ok.injEq] at hd; subst hd; exact h s _ hs (by simp)
  · split at hd
    · rename_i v hv
      simp only [Res.ok.injEq] at hd; subst hd
      exact h s _ hs (decStrs_valid (by simpa [Json.Valid] using hj) hv)
    · simp at hd
    · simp at hd
  · simp [typeErr] at hd

theorem keeps_fMap {α : Type} {name encElem elem get set} {Q : GoString × α → Prop}
    (helem : ∀ k j a, Utf8 k → j.Valid → elem j = .ok a → Q (k, a))
    (hget : ∀ s, P s → (∀ p ∈ get s, Q p) ∧ (get s).Pairwise fun a b => bytesLt a.1 b.1 = true)
    (h : ∀ s v, P s → (∀ p ∈ v, Q p) → (v.Pairwise fun a b => bytesLt a.1 b.1 = true) → P (set s v)) :
    (fMap name encElem elem get set : Field σ).Keeps P := by
  intro j s s' hj hs hd
  simp only [fMap] at hd
  split at hd
  · simp only [Res.ok.injEq] at hd; subst hd; exact h s _ hs (by simp) List.Pairwise.nil
  · split at hd
    · rename_i v hv
      simp only [Res.ok.injEq] at hd; subst hd
      obtain ⟨h1, h2⟩ := decMap_keeps helem (by simpa [Json.Valid] using hj) (hget s hs).1 (hget s hs).2 hv
      exact h s _ hs h1 h2
    · simp at hd
    · simp at hd
  · simp [typeErr] at hd

theorem keeps_fOptMap {α : Type} {name encElem elem get set} {Q : GoString × α → Prop}
    (helem : ∀ k j a, Utf8 k → j.Valid → elem j = .ok a → Q (k, a))
    (hget : ∀ s, P s → ∀ m, get s = some m → (∀ p ∈ m, Q p) ∧ m.Pairwise fun a b => bytesLt a.1 b.1 = true)
    (h : ∀ s v, P s → (∀ m, v = some m → (∀ p ∈ m, Q p) ∧ m.Pairwise fun a b => bytesLt a.1 b.1 = true) → P (set s v)) :
    (fOptMap name encElem elem get set : Field σ).Keeps P := by
  intro j s s' hj hs hd
  simp only [fOptMap] at hd
  split at hd
  · simp only [Res.ok.injEq] at hd; subst hd; exact h s _ hs (by simp)
  · split at hd
    · rename_i v hv
      simp only [Res.ok.injEq] at hd; subst hd
      refine h s _ hs ?_
      intro m hm
      simp only [Option.some.injEq] at hm
      subst hm
      cases hg : get s with
      | none => rw [hg] at hv; exact decMap_keeps helem (by simpa [Json.Valid] using hj) (by simp) List.Pairwise.nil hv
      | some m0 =>
        rw [hg] at hv
        exact decMap_keeps helem (by simpa [Json.Valid] using hj) (hget s hs m0 hg).1 (hget s hs m0 hg).2 hv
    · simp at hd
    · simp at hd
  · simp [typeErr] at hd

theorem keeps_fAny {name get set} (h : ∀ s v, P s → v.Valid → P (set s v)) : (fAny name get set : Field σ).Keeps P := by
  intro j s s' hj hs hd
  simp only [fAny, elemAny] at hd
  cases hf : j.floatsOk with
  | true =>
    rw [hf] at hd
    simp only [if_true, Res.ok.injEq] at hd
    subst hd
    exact h s j hs hj
  | false => rw [hf] at hd; simp [typeErr] at hd

end kinds

theorem keeps_nil {σ : Type} {P : σ → Prop} : ∀ f ∈ ([] : List (Field σ)), f.Keeps P := by simp

theorem keeps_cons {σ : Type} {P : σ → Prop} {f : Field σ} {fs : List (Field σ)} (h : f.Keeps P) (hs : ∀ f ∈ fs, f.Keeps P) :
    ∀ g ∈ f :: fs, g.Keeps P := by
  intro g hg
  rcases List.mem_cons.1 hg with rfl | hg
  · exact h
  · exact hs g hg

theorem int0 : Int64 0 := ⟨by decide, by decide⟩

theorem timeZero_ok : GoTime.zero.Ok := by
  constructor <;> decide

theorem elemStr_valid {j : Json} {a : GoString} (hj : j.Valid) (h : elemStr j = .ok a) : Utf8 a := by
  unfold elemStr at h
  split at h
  · simp only [Res.ok.injEq] at h; subst h; simpa [Json.Valid] using hj
  · simp only [Res.ok.injEq] at h; subst h; rfl
  · simp [typeErr] at h

/-! ## The structs -/

theorem role_keeps : ∀ f ∈ roleFields, f.Keeps Role.Ok :=
  keeps_cons (keeps_fStr (fun _ _ h hv => { h with name := hv })) <|
  keeps_cons (keeps_fStr (fun _ _ h hv => { h with organization := hv })) <|
  keeps_nil

theorem role_zero_ok : (Role.zero).Ok := by
  constructor <;> first | exact timeZero_ok | exact int0 | rfl | simp [Role.zero]

theorem name_keeps : ∀ f ∈ nameFields, f.Keeps Name.Ok :=
  keeps_cons (keeps_fStr (fun _ _ h hv => { h with first := hv })) <|
  keeps_cons (keeps_fStr (fun _ _ h hv => { h with last := hv })) <|
  keeps_cons (keeps_fStr (fun _ _ h hv => { h with middle := hv })) <|
  keeps_cons (keeps_fStr (fun _ _ h hv => { h with preferred := hv })) <|
  keeps_cons (keeps_fBool (fun _ _ h => { h with })) <|
  keeps_cons (keeps_fBool (fun _ _ h => { h with })) <|
  keeps_cons (keeps_fBool (fun _ _ h => { h with })) <|
  keeps_cons (keeps_fBool (fun _ _ h => { h with })) <|
  keeps_cons (keeps_fBool (fun _ _ h => { h with })) <|
  keeps_nil

theorem name_zero_ok : (Name.zero).Ok := by
  constructor <;> first | exact timeZero_ok | exact int0 | rfl | simp [Name.zero]

theorem organization_keeps : ∀ f ∈ organizationFields, f.Keeps Organization.Ok :=
  keeps_cons (keeps_fUint (fun _ _ h hv => { h with id := hv })) <|
  keeps_cons (keeps_fStr (fun _ _ h hv => { h with name := hv })) <|
  keeps_cons (keeps_fStrs (fun _ _ h hv => { h with aliases := hv })) <|
  keeps_nil

theorem organization_zero_ok : (Organization.zero).Ok := by
  constructor <;> first | exact timeZero_ok | exact int0 | rfl | simp [Organization.zero]

theorem location_keeps : ∀ f ∈ locationFields, f.Keeps Location.Ok :=
  keeps_cons (keeps_fStr (fun _ _ h hv => { h with street := hv })) <|
  keeps_cons (keeps_fStr (fun _ _ h hv => { h with city := hv })) <|
  keeps_cons (keeps_fStr (fun _ _ h hv => { h with state := hv })) <|
  keeps_cons (keeps_fStr (fun _ _ h hv => { h with zipCode := hv })) <|
  keeps_cons (keeps_fBool (fun _ _ h => { h with })) <|
  keeps_cons (keeps_fBool (fun _ _ h => { h with })) <|
  keeps_cons (keeps_fBool (fun _ _ h => { h with })) <|
  keeps_cons (keeps_fBool (fun _ _ h => { h with })) <|
  keeps_cons (keeps_fBool (fun _ _ h => { h with })) <|
  keeps_nil

theorem location_zero_ok : (Location.zero).Ok := by
  constructor <;> first | exact timeZero_ok | exact int0 | rfl | simp [Location.zero]

theorem email_keeps : ∀ f ∈ emailFields, f.Keeps EmailAddress.Ok :=
  keeps_cons (keeps_fStr (fun _ _ h hv => { h with address := hv })) <|
  keeps_cons (keeps_fBool (fun _ _ h => { h with })) <|
  keeps_cons (keeps_fStr (fun _ _ h hv => { h with domain := hv })) <|
  keeps_nil

theorem email_zero_ok : (EmailAddress.zero).Ok := by
  constructor <;> first | exact timeZero_ok | exact int0 | rfl | simp [EmailAddress.zero]

theorem password_keeps : ∀ f ∈ passwordFields, f.Keeps Password.Ok :=
  keeps_cons (keeps_fStr (fun _ _ h hv => { h with purpose := hv })) <|
  keeps_cons (keeps_fStr (fun _ _ h hv => { h with algorithm := hv })) <|
  keeps_cons (keeps_fStr (fun _ _ h hv => { h with hash := hv })) <|
  keeps_cons (keeps_fInt (fun _ _ h hv => { h with cost := hv })) <|
  keeps_cons (keeps_fBool (fun _ _ h => { h with })) <|
  keeps_cons (keeps_fTime (fun _ _ h hv => { h with expiredAt := hv })) <|
  keeps_cons (keeps_fTime (fun _ _ h hv => { h with createdAt := hv })) <|
  keeps_cons (keeps_fBool (fun _ _ h => { h with })) <|
  keeps_cons (keeps_fTime (fun _ _ h hv => { h with disabledAt := hv })) <|
  keeps_nil

theorem password_zero_ok : (Password.zero).Ok := by
  constructor <;> first | exact timeZero_ok | exact int0 | rfl | simp [Password.zero]

theorem apiKey_keeps : ∀ f ∈ apiKeyFields, f.Keeps APIKey.Ok :=
  keeps_cons (keeps_fStr (fun _ _ h hv => { h with id := hv })) <|
  keeps_cons (keeps_fStr (fun _ _ h hv => { h with pfx := hv })) <|
  keeps_cons (keeps_fStr (fun _ _ h hv => { h with usage := hv })) <|
  keeps_cons (keeps_fStr (fun _ _ h hv => { h with comment := hv })) <|
  keeps_cons (keeps_fStr (fun _ _ h hv => { h with payload := hv })) <|
  keeps_cons (keeps_fBool (fun _ _ h => { h with })) <|
  keeps_cons (keeps_fTime (fun _ _ h hv => { h with expiredAt := hv })) <|
  keeps_cons (keeps_fTime (fun _ _ h hv => { h with createdAt := hv })) <|
  keeps_cons (keeps_fBool (fun _ _ h => { h with })) <|
  keeps_cons (keeps_fTime (fun _ _ h hv => { h with disabledAt := hv })) <|
  keeps_nil

theorem apiKey_zero_ok : (APIKey.zero).Ok := by
  constructor <;> first | exact timeZero_ok | exact int0 | rfl | simp [APIKey.zero]

theorem publicKey_keeps : ∀ f ∈ publicKeyFields, f.Keeps PublicKey.Ok :=
  keeps_cons (keeps_fStr (fun _ _ h hv => { h with id := hv })) <|
  keeps_cons (keeps_fStr (fun _ _ h hv => { h with usage := hv })) <|
  keeps_cons (keeps_fStr (fun _ _ h hv => { h with type := hv })) <|
  keeps_cons (keeps_fStr (fun _ _ h hv => { h with fingerprint := hv })) <|
  keeps_cons (keeps_fStr (fun _ _ h hv => { h with fingerprintMD5 := hv })) <|
  keeps_cons (keeps_fStr (fun _ _ h hv => { h with comment := hv })) <|
  keeps_cons (keeps_fStr (fun _ _ h hv => { h with payload := hv })) <|
  keeps_cons (keeps_fStr (fun _ _ h hv => { h with openSSH := hv })) <|
  keeps_cons (keeps_fBool (fun _ _ h => { h with })) <|
  keeps_cons (keeps_fTime (fun _ _ h hv => { h with expiredAt := hv })) <|
  keeps_cons (keeps_fTime (fun _ _ h hv => { h with createdAt := hv })) <|
  keeps_cons (keeps_fBool (fun _ _ h => { h with })) <|
  keeps_cons (keeps_fTime (fun _ _ h hv => { h with disabledAt := hv })) <|
  keeps_nil

theorem publicKey_zero_ok : (PublicKey.zero).Ok := by
  constructor <;> first | exact timeZero_ok | exact int0 | rfl | simp [PublicKey.zero]

theorem mfaDevice_keeps : ∀ f ∈ mfaDeviceFields, f.Keeps MfaDevice.Ok :=
  keeps_cons (keeps_fStr (fun _ _ h hv => { h with name := hv })) <|
  keeps_cons (keeps_fStr (fun _ _ h hv => { h with vendor := hv })) <|
  keeps_cons (keeps_fStr (fun _ _ h hv => { h with type := hv })) <|
  keeps_nil

theorem mfaDevice_zero_ok : (MfaDevice.zero).Ok := by
  constructor <;> first | exact timeZero_ok | exact int0 | rfl | simp [MfaDevice.zero]

theorem mfaToken_keeps : ∀ f ∈ mfaTokenFields, f.Keeps MfaToken.Ok :=
  keeps_cons (keeps_fStr (fun _ _ h hv => { h with id := hv })) <|
  keeps_cons (keeps_fStr (fun _ _ h hv => { h with type := hv })) <|
  keeps_cons (keeps_fStr (fun _ _ h hv => { h with algorithm := hv })) <|
  keeps_cons (keeps_fStr (fun _ _ h hv => { h with comment := hv })) <|
  keeps_cons (keeps_fStr (fun _ _ h hv => { h with secret := hv })) <|
  keeps_cons (keeps_fInt (fun _ _ h hv => { h with period := hv })) <|
  keeps_cons (keeps_fInt (fun _ _ h hv => { h with digits := hv })) <|
  keeps_cons (keeps_fBool (fun _ _ h => { h with })) <|
  keeps_cons (keeps_fTime (fun _ _ h hv => { h with expiredAt := hv })) <|
  keeps_cons (keeps_fTime (fun _ _ h hv => { h with createdAt := hv })) <|
  keeps_cons (keeps_fBool (fun _ _ h => { h with })) <|
  keeps_cons (keeps_fTime (fun _ _ h hv => { h with disabledAt := hv })) <|
  keeps_cons (keeps_fPtr mfaDevice_keeps mfaDevice_zero_ok (fun _ h => h.device) (fun _ _ h hv => { h with device := hv })) <|
  keeps_cons (keeps_fMap (Q := fun p => Utf8 p.1 ∧ Utf8 p.2) (fun _ _ _ hk hj he => ⟨hk, elemStr_valid hj he⟩) (fun _ h => ⟨h.parameters, h.parametersOrder⟩) (fun _ _ h h1 h2 => { h with parameters := h1, parametersOrder := h2 })) <|
  keeps_cons (keeps_fMap (Q := fun p => Utf8 p.1) (fun _ _ _ hk _ _ => hk) (fun _ h => ⟨h.flags, h.flagsOrder⟩) (fun _ _ h h1 h2 => { h with flags := h1, flagsOrder := h2 })) <|
  keeps_cons (keeps_fUint (fun _ _ h hv => { h with signatureCounter := hv })) <|
  keeps_nil

theorem mfaToken_zero_ok : (MfaToken.zero).Ok := by
  constructor <;> first | exact timeZero_ok | exact int0 | rfl | simp [MfaToken.zero]

theorem lockout_keeps : ∀ f ∈ lockoutFields, f.Keeps LockoutState.Ok :=
  keeps_cons (keeps_fBool (fun _ _ h => { h with })) <|
  keeps_cons (keeps_fTime (fun _ _ h hv => { h with startTime := hv })) <|
  keeps_cons (keeps_fTime (fun _ _ h hv => { h with endTime := hv })) <|
  keeps_nil

theorem lockout_zero_ok : (LockoutState.zero).Ok := by
  constructor <;> first | exact timeZero_ok | exact int0 | rfl | simp [LockoutState.zero]

theorem keeps_colorModel {σ : Type} {P : σ → Prop} {name : GoString} {enc : σ → Option Json} :
    ({ name := name, enc := enc, dec := fun j s => match j with | .null => .ok s | _ => typeErr } : Field σ).Keeps P := by
  intro j s s' _ hs hd
  dsimp only at hd
  split at hd
  · simp only [Res.ok.injEq] at hd; exact hd ▸ hs
  · simp [typeErr] at hd

theorem imageConfig_keeps : ∀ f ∈ imageConfigFields, f.Keeps Image.Ok :=
  keeps_cons (keeps_colorModel) <|
  keeps_cons (keeps_fIntAlways (fun _ _ h hv => { h with width := hv })) <|
  keeps_cons (keeps_fIntAlways (fun _ _ h hv => { h with height := hv })) <|
  keeps_nil

theorem image_keeps : ∀ f ∈ imageFields, f.Keeps Image.Ok :=
  keeps_cons (keeps_fStr (fun _ _ h hv => { h with title := hv })) <|
  keeps_cons (keeps_fStr (fun _ _ h hv => { h with body := hv })) <|
  keeps_cons (keeps_fStruct imageConfig_keeps (fun _ h => h) (fun _ _ _ hv => hv)) <|
  keeps_cons (keeps_fStr (fun _ _ h hv => { h with path := hv })) <|
  keeps_nil

theorem image_zero_ok : (Image.zero).Ok := by
  constructor <;> first | exact timeZero_ok | exact int0 | rfl | simp [Image.zero]

theorem user_keeps : ∀ f ∈ userFields, f.Keeps User.Ok :=
  keeps_cons (keeps_fStr (fun _ _ h hv => { h with id := hv })) <|
  keeps_cons (keeps_fBool (fun _ _ h => { h with })) <|
  keeps_cons (keeps_fBool (fun _ _ h => { h with })) <|
  keeps_cons (keeps_fStr (fun _ _ h hv => { h with username := hv })) <|
  keeps_cons (keeps_fStr (fun _ _ h hv => { h with title := hv })) <|
  keeps_cons (keeps_fPtr name_keeps name_zero_ok (fun _ h => h.name) (fun _ _ h hv => { h with name := hv })) <|
  keeps_cons (keeps_fPtr organization_keeps organization_zero_ok (fun _ h => h.organization) (fun _ _ h hv => { h with organization := hv })) <|
  keeps_cons (keeps_fList name_keeps name_zero_ok (fun _ _ h hv => { h with names := hv })) <|
  keeps_cons (keeps_fList organization_keeps organization_zero_ok (fun _ _ h hv => { h with organizations := hv })) <|
  keeps_cons (keeps_fList location_keeps location_zero_ok (fun _ _ h hv => { h with streetAddress := hv })) <|
  keeps_cons (keeps_fPtr email_keeps email_zero_ok (fun _ h => h.emailAddress) (fun _ _ h hv => { h with emailAddress := hv })) <|
  keeps_cons (keeps_fList email_keeps email_zero_ok (fun _ _ h hv => { h with emailAddresses := hv })) <|
  keeps_cons (keeps_fList password_keeps password_zero_ok (fun _ _ h hv => { h with passwords := hv })) <|
  keeps_cons (keeps_fList publicKey_keeps publicKey_zero_ok (fun _ _ h hv => { h with publicKeys := hv })) <|
  keeps_cons (keeps_fList apiKey_keeps apiKey_zero_ok (fun _ _ h hv => { h with apiKeys := hv })) <|
  keeps_cons (keeps_fList mfaToken_keeps mfaToken_zero_ok (fun _ _ h hv => { h with mfaTokens := hv })) <|
  keeps_cons (keeps_fPtr lockout_keeps lockout_zero_ok (fun _ h => h.lockout) (fun _ _ h hv => { h with lockout := hv })) <|
  keeps_cons (keeps_fPtr image_keeps image_zero_ok (fun _ h => h.avatar) (fun _ _ h hv => { h with avatar := hv })) <|
  keeps_cons (keeps_fTime (fun _ _ h hv => { h with created := hv })) <|
  keeps_cons (keeps_fTime (fun _ _ h hv => { h with lastModified := hv })) <|
  keeps_cons (keeps_fInt (fun _ _ h hv => { h with revision := hv })) <|
  keeps_cons (keeps_fList role_keeps role_zero_ok (fun _ _ h hv => { h with roles := hv })) <|
  keeps_nil

theorem user_zero_ok : (User.zero).Ok := by
  constructor <;> first | exact timeZero_ok | exact int0 | rfl | simp [User.zero]

theorem passwordPolicy_keeps : ∀ f ∈ passwordPolicyFields, f.Keeps PasswordPolicy.Ok :=
  keeps_cons (keeps_fIntAlways (fun _ _ h hv => { h with keepVersions := hv })) <|
  keeps_cons (keeps_fIntAlways (fun _ _ h hv => { h with minLength := hv })) <|
  keeps_cons (keeps_fIntAlways (fun _ _ h hv => { h with maxLength := hv })) <|
  keeps_cons (keeps_fBoolAlways (fun _ _ h => { h with })) <|
  keeps_cons (keeps_fBoolAlways (fun _ _ h => { h with })) <|
  keeps_cons (keeps_fBoolAlways (fun _ _ h => { h with })) <|
  keeps_cons (keeps_fBoolAlways (fun _ _ h => { h with })) <|
  keeps_cons (keeps_fBoolAlways (fun _ _ h => { h with })) <|
  keeps_cons (keeps_fBoolAlways (fun _ _ h => { h with })) <|
  keeps_nil

theorem userPolicy_keeps : ∀ f ∈ userPolicyFields, f.Keeps UserPolicy.Ok :=
  keeps_cons (keeps_fIntAlways (fun _ _ h hv => { h with minLength := hv })) <|
  keeps_cons (keeps_fIntAlways (fun _ _ h hv => { h with maxLength := hv })) <|
  keeps_cons (keeps_fBoolAlways (fun _ _ h => { h with })) <|
  keeps_cons (keeps_fBoolAlways (fun _ _ h => { h with })) <|
  keeps_nil

theorem policy_keeps : ∀ f ∈ policyFields, f.Keeps Policy.Ok :=
  keeps_cons (keeps_fStruct passwordPolicy_keeps (fun _ h => h.password) (fun _ _ h hv => { h with password := hv })) <|
  keeps_cons (keeps_fStruct userPolicy_keeps (fun _ h => h.user) (fun _ _ h hv => { h with user := hv })) <|
  keeps_nil

theorem policy_zero_ok : (Policy.zero).Ok := ⟨⟨int0, int0, int0⟩, ⟨int0, int0⟩⟩

theorem db_keeps : ∀ f ∈ dbFields, f.Keeps DBData.Ok :=
  keeps_cons (keeps_fStr (fun _ _ h hv => { h with version := hv })) <|
  keeps_cons (keeps_fStruct policy_keeps (fun _ h => h.policy) (fun _ _ h hv => { h with policy := hv })) <|
  keeps_cons (keeps_fUint (fun _ _ h hv => { h with revision := hv })) <|
  keeps_cons (keeps_fTime (fun _ _ h hv => { h with lastModified := hv })) <|
  keeps_cons (keeps_fList user_keeps user_zero_ok (fun _ _ h hv => { h with users := hv })) <|
  keeps_nil

/-- Whatever `json.Unmarshal` accepts can be represented. -/
theorem unmarshal_ok {b : GoString} {d : DBData} (h : unmarshalDB b = .ok d) : d.Ok := by
  unfold unmarshalDB at h
  split at h
  · simp at h
  · rename_i j hj
    refine decStruct_keeps db_keeps (parseDoc_valid hj) ?_ h
    exact ⟨rfl, policy_zero_ok, by decide, timeZero_ok, by simp [DBData.zero]⟩

end GoIdentity
