import Verif.Spec.StructTag
import Verif.Lemmas.Utf8
/-!
# Reading a struct tag
-/
namespace GoIdentity.Tag

theorem scanQuoted_of {raw : GoString} (h : RawText raw) (rest : GoString) : scanQuoted (raw ++ 34 :: rest) = some (raw, rest) := by
  induction h with
  | nil => rw [scanQuoted.eq_def]; rfl
  | plain h1 h2 _ ih => rw [List.cons_append, scanQuoted.eq_def]; dsimp only; rw [if_neg h1, if_neg h2, ih]; rfl
  | escape _ ih =>
    rw [List.cons_append, List.cons_append, scanQuoted.eq_def]; dsimp only; rw [if_neg (by decide), if_pos rfl, ih]; rfl

theorem scanQuoted_sound : ∀ (n : Nat) {q raw rest : GoString}, q.length ≤ n → scanQuoted q = some (raw, rest) →
    RawText raw ∧ q = raw ++ 34 :: rest
  | _, [], _, _, _, h => by simp [scanQuoted] at h
  | 0, b :: t, _, _, hl, _ => by simp at hl
  | n + 1, b :: t, raw, rest, hl, h => by
    rw [scanQuoted.eq_def] at h
    dsimp only at h
    by_cases h1 : b = 34
    · rw [if_pos h1] at h; cases h; exact ⟨.nil, by rw [h1]; rfl⟩
    · rw [if_neg h1] at h
      by_cases h2 : b = 92
      · rw [if_pos h2] at h
        cases t with
        | nil => cases h
        | cons c t =>
          dsimp only at h
          cases hs : scanQuoted t with
          | none => rw [hs] at h; cases h
          | some p =>
            rw [hs] at h; cases h
            obtain ⟨i1, i2⟩ := scanQuoted_sound n (by simp at hl ⊢; omega) (show scanQuoted t = some (p.1, p.2) from hs)
            exact ⟨by rw [h2]; exact .escape i1, by rw [i2]; rfl⟩
      · rw [if_neg h2] at h
        cases hs : scanQuoted t with
        | none => rw [hs] at h; cases h
        | some p =>
          rw [hs] at h; cases h
          obtain ⟨i1, i2⟩ := scanQuoted_sound n (by simp at hl ⊢; omega) (show scanQuoted t = some (p.1, p.2) from hs)
          exact ⟨.plain h1 h2 i1, by rw [i2]; rfl⟩

theorem keyByte_iff {b : UInt8} : keyByte b = true ↔ 32 < b.toNat ∧ b ≠ 58 ∧ b ≠ 34 ∧ b ≠ 127 := by
  simp [keyByte, and_assoc]

theorem split_pair {n : Nat} {name q : GoString} (h : KeyText name) :
    let t := (List.replicate n 32 ++ name ++ 58 :: 34 :: q).dropWhile (· == 32)
    t.takeWhile keyByte = name ∧ t.dropWhile keyByte = 58 :: 34 :: q := by
  have h1 : (List.replicate n (32 : UInt8) ++ name ++ 58 :: 34 :: q).dropWhile (· == 32) = name ++ 58 :: 34 :: q := by
    rw [List.append_assoc]
    induction n with
    | zero =>
      obtain ⟨hne, hb⟩ := h
      cases name with
      | nil => exact absurd rfl hne
      | cons b t =>
        have := (hb b (List.mem_cons_self ..)).1
        have hb32 : (b == 32) = false := by
          rw [beq_eq_false_iff_ne]; rintro rfl; exact absurd this (by decide)
        simp [hb32]
    | succ n ih => simpa [List.replicate_succ] using ih
  dsimp only
  rw [h1]
  have h2 : ∀ b ∈ name, keyByte b = true := fun b hb => keyByte_iff.2 (h.2 b hb)
  have h3 : keyByte 58 = false := by decide
  constructor
  · rw [List.takeWhile_append_of_pos h2, List.takeWhile_cons, h3]; simp
  · rw [List.dropWhile_append_of_pos h2, List.dropWhile_cons, h3]; simp

theorem lookup_complete {k t v : GoString} (h : TagHas k t v) : ∀ fuel, t.length < fuel → tagLookupAux k fuel t = some v := by
  induction h with
  | @here n raw v rest hk hr hv =>
    intro fuel hf
    cases fuel with
    | zero => omega
    | succ fuel =>
      obtain ⟨e1, e2⟩ := split_pair (n := n) (q := raw ++ 34 :: rest) hk
      rw [tagLookupAux]
      rw [e1, e2]
      show (if _ then _ else _) = _
      rw [if_pos ⟨hk.1, rfl, rfl⟩, scanQuoted_of hr]
      dsimp only
      rw [if_pos rfl, hv]
  | @later n name raw v rest hn hne hr _ ih =>
    intro fuel hf
    cases fuel with
    | zero => omega
    | succ fuel =>
      obtain ⟨e1, e2⟩ := split_pair (n := n) (q := raw ++ 34 :: rest) hn
      rw [tagLookupAux]
      rw [e1, e2]
      show (if _ then _ else _) = _
      rw [if_pos ⟨hn.1, rfl, rfl⟩, scanQuoted_of hr]
      dsimp only
      rw [if_neg hne]
      exact ih fuel (by simp at hf; omega)

theorem drop_spaces (t : GoString) : ∃ n, t = List.replicate n 32 ++ t.dropWhile (· == 32) := by
  induction t with
  | nil => exact ⟨0, rfl⟩
  | cons b t ih =>
    by_cases hb : b = 32
    · obtain ⟨n, hn⟩ := ih
      refine ⟨n + 1, ?_⟩
      subst hb
      rw [List.dropWhile_cons, if_pos (by rfl), List.replicate_succ, List.cons_append, ← hn]
    · exact ⟨0, by rw [List.dropWhile_cons, if_neg (by simpa using hb)]; rfl⟩

theorem takeWhile_all (u : GoString) : ∀ b ∈ u.takeWhile keyByte, keyByte b = true := by
  induction u with
  | nil => simp
  | cons c u ih =>
    intro b hb
    rw [List.takeWhile_cons] at hb
    by_cases hc : keyByte c = true
    · rw [if_pos hc] at hb
      rcases List.mem_cons.1 hb with rfl | hb
      · exact hc
      · exact ih b hb
    · rw [if_neg hc] at hb; cases hb

theorem lookup_sound {k v : GoString} : ∀ (fuel : Nat) {t : GoString}, tagLookupAux k fuel t = some v → TagHas k t v
  | 0, t, h => by simp [tagLookupAux] at h
  | fuel + 1, t, h => by
    rw [tagLookupAux] at h
    obtain ⟨n, hn⟩ := drop_spaces t
    generalize t.dropWhile (· == 32) = u at h hn
    have hu : u = u.takeWhile keyByte ++ u.dropWhile keyByte := (List.takeWhile_append_dropWhile ..).symm
    have hkey : ∀ b ∈ u.takeWhile keyByte, keyByte b = true := takeWhile_all u
    generalize u.takeWhile keyByte = name at h hu hkey
    generalize u.dropWhile keyByte = w at h hu
    match w, h with
    | c :: d :: q, h =>
      dsimp only at h
      by_cases hc : name ≠ [] ∧ c = 58 ∧ d = 34
      · rw [if_pos hc] at h
        obtain ⟨hne, rfl, rfl⟩ := hc
        cases hs : scanQuoted q with
        | none => rw [hs] at h; cases h
        | some p =>
          rw [hs] at h
          dsimp only at h
          obtain ⟨hr, hq⟩ := scanQuoted_sound q.length (Nat.le_refl _) (show scanQuoted q = some (p.1, p.2) from hs)
          have hk : KeyText name := ⟨hne, fun b hb => keyByte_iff.1 (hkey b hb)⟩
          have ht : t = List.replicate n 32 ++ name ++ 58 :: 34 :: (p.1 ++ 34 :: p.2) := by
            rw [hn, hu, hq, List.append_assoc]
          rw [ht]
          by_cases he : name = k
          · rw [if_pos he] at h
            rw [he] at hk ⊢
            exact .here hk hr h
          · rw [if_neg he] at h
            exact .later hk he hr (lookup_sound fuel h)
      · rw [if_neg hc] at h; cases h

theorem hexRun_length {n acc v : Nat} {s r : GoString} (h : hexRun n acc s = some (v, r)) : r.length ≤ s.length := by
  induction n generalizing acc s with
  | zero => simp only [hexRun, Option.some.injEq, Prod.mk.injEq] at h; rw [h.2]; exact Nat.le_refl _
  | succ n ih =>
    cases s with
    | nil => simp [hexRun] at h
    | cons b s =>
      rw [hexRun] at h
      cases hb : hexVal b with
      | none => rw [hb] at h; cases h
      | some d => rw [hb] at h; have := ih h; simp; omega

theorem unquoteEscape_length {c : UInt8} {s v r : GoString} (h : unquoteEscape c s = some (v, r)) : r.length ≤ s.length := by
  have simple : ∀ {a : GoString}, some (a, s) = some (v, r) → r.length ≤ s.length := by
    intro a h; cases h; exact Nat.le_refl _
  unfold unquoteEscape at h
  by_cases c1 : c = 97
  · rw [if_pos c1] at h; exact simple h
  by_cases c2 : c = 98
  · rw [if_neg c1, if_pos c2] at h; exact simple h
  by_cases c3 : c = 102
  · rw [if_neg c1, if_neg c2, if_pos c3] at h; exact simple h
  by_cases c4 : c = 110
  · rw [if_neg c1, if_neg c2, if_neg c3, if_pos c4] at h; exact simple h
  by_cases c5 : c = 114
  · rw [if_neg c1, if_neg c2, if_neg c3, if_neg c4, if_pos c5] at h; exact simple h
  by_cases c6 : c = 116
  · rw [if_neg c1, if_neg c2, if_neg c3, if_neg c4, if_neg c5, if_pos c6] at h; exact simple h
  by_cases c7 : c = 118
  · rw [if_neg c1, if_neg c2, if_neg c3, if_neg c4, if_neg c5, if_neg c6, if_pos c7] at h; exact simple h
  rw [if_neg c1, if_neg c2, if_neg c3, if_neg c4, if_neg c5, if_neg c6, if_neg c7] at h
  by_cases c8 : c = 92 ∨ c = 34
  · rw [if_pos c8] at h; exact simple h
  rw [if_neg c8] at h
  by_cases c9 : c = 120
  · rw [if_pos c9] at h
    obtain ⟨p, hp, h⟩ := Option.map_eq_some_iff.1 h
    cases h
    exact hexRun_length hp
  rw [if_neg c9] at h
  by_cases c10 : c = 117 ∨ c = 85
  · rw [if_pos c10] at h
    cases hx : hexRun (if c = 117 then 4 else 8) 0 s with
    | none => rw [hx] at h; cases h
    | some p =>
      rw [hx] at h
      dsimp only at h
      split at h
      · cases h
      · cases h; exact hexRun_length hx
  rw [if_neg c10] at h
  split at h
  · split at h
    · dsimp only at h
      split at h
      · cases h; simp; omega
      · cases h
    · cases h
  · cases h

theorem unquoteAux_fuel : ∀ (n : Nat) (s : GoString), s.length ≤ n → ∀ fuel, s.length ≤ fuel → unquoteAux fuel s = unquote s
  | _, [], _, fuel, _ => by rw [unquote, unquoteAux.eq_def, unquoteAux.eq_def]
  | 0, _ :: _, h, _, _ => by simp at h
  | n + 1, b :: t, h, fuel, hf => by
    cases fuel with
    | zero => simp at hf
    | succ fuel =>
      have key : ∀ r : GoString, r.length ≤ t.length → unquoteAux fuel r = unquoteAux t.length r := fun r hr => by
        rw [unquoteAux_fuel n r (by simp at h; omega) fuel (by simp at hf; omega),
          unquoteAux_fuel n r (by simp at h; omega) t.length hr]
      rw [unquote, List.length_cons, unquoteAux.eq_def, unquoteAux.eq_def]
      dsimp only
      rw [key t (Nat.le_refl _)]
      have h3 : ((b :: t).drop (decodeRune (b :: t)).2).length ≤ t.length := by
        have := decodeRune_width b t
        simp; omega
      rw [key _ h3]
      cases t with
      | nil => rfl
      | cons c u =>
        dsimp only
        cases hu : unquoteEscape c u with
        | none => rfl
        | some p => 
          dsimp only
          rw [key p.2 (by have := unquoteEscape_length (show unquoteEscape c u = some (p.1, p.2) from hu); simp; omega)]

theorem unquote_escape {c : UInt8} {u v r : GoString} (h : unquoteEscape c u = some (v, r)) :
    unquote (92 :: c :: u) = (unquote r).map (v ++ ·) := by
  have hl := unquoteEscape_length h
  rw [unquote, List.length_cons, unquoteAux.eq_def]
  dsimp only
  rw [if_neg (by decide), if_pos rfl, h]
  dsimp only
  rw [unquoteAux_fuel r.length r (Nat.le_refl _) _ (by simp; omega)]

theorem tagText_cons (p : GoString × GoString) (l : List (GoString × GoString)) :
    ∃ n, tagText (p :: l) = p.1 ++ 58 :: 34 :: (p.2 ++ 34 :: (List.replicate n 32 ++ tagText l)) ∧ (l = [] → n = 0) := by
  cases l with
  | nil => exact ⟨0, by simp [tagText, joinWith], fun _ => rfl⟩
  | cons q l => exact ⟨1, by simp [tagText, joinWith], nofun⟩

theorem tagHas_spaces {k t v : GoString} (h : TagHas k t v) (n : Nat) : TagHas k (List.replicate n 32 ++ t) v := by
  cases h with
  | @here m raw v rest hk hr hv =>
    have := TagHas.here (n := n + m) (rest := rest) hk hr hv
    rwa [← List.replicate_append_replicate, List.append_assoc, List.append_assoc, ← List.append_assoc (List.replicate m 32)] at this
  | @later m name raw v rest hn hne hr h =>
    have := TagHas.later (n := n + m) hn hne hr h
    rwa [← List.replicate_append_replicate, List.append_assoc, List.append_assoc, ← List.append_assoc (List.replicate m 32)] at this

theorem tagHas_strip {k t v : GoString} (n : Nat) (h : TagHas k (List.replicate n 32 ++ t) v) : TagHas k t v := by
  have h1 := lookup_complete h _ (Nat.lt_succ_self _)
  have h2 : (List.replicate n (32 : UInt8) ++ t).dropWhile (· == 32) = t.dropWhile (· == 32) :=
    List.dropWhile_append_of_pos (by simp)
  refine lookup_sound (((List.replicate n (32 : UInt8) ++ t).length).succ) ?_
  rw [tagLookupAux] at h1 ⊢
  rwa [h2] at h1

theorem hexRun_sound {n acc v : Nat} {s r : GoString} (h : hexRun n acc s = some (v, r)) :
    ∃ ds xs, s = ds ++ r ∧ ds.length = n ∧ ds.mapM hexVal = some xs ∧ v = xs.foldl (fun n x => 16 * n + x) acc := by
  induction n generalizing acc s with
  | zero => simp only [hexRun, Option.some.injEq, Prod.mk.injEq] at h; exact ⟨[], [], by rw [h.2]; rfl, rfl, rfl, h.1.symm⟩
  | succ n ih =>
    cases s with
    | nil => simp [hexRun] at h
    | cons b s =>
      rw [hexRun] at h
      split at h
      · cases h
      · rename_i d hd
        obtain ⟨ds, xs, h1, h2, h3, h4⟩ := ih h
        refine ⟨b :: ds, d :: xs, by rw [h1]; rfl, by simp [h2], by rw [List.mapM_cons, hd, h3]; rfl, ?_⟩
        rw [h4, List.foldl_cons, Nat.mul_comm 16]

theorem unquoteEscape_sound {c : UInt8} {s v r : GoString} (h : unquoteEscape c s = some (v, r)) :
    ∃ e, c :: s = e ++ r ∧ Escape e v := by
  have sym : ∀ {a : UInt8}, (c, a) ∈ [(97, 7), (98, 8), (102, 12), (110, 10), (114, 13), (116, 9), (118, 11), (92, 92), ((34 : UInt8), (34 : UInt8))] →
      some ([a], s) = some (v, r) → ∃ e, c :: s = e ++ r ∧ Escape e v := by
    intro a ha h; cases h; exact ⟨[c], rfl, .symbol ha⟩
  unfold unquoteEscape at h
  by_cases c1 : c = 97
  · rw [if_pos c1] at h; subst c1; exact sym (by decide) h
  by_cases c2 : c = 98
  · rw [if_neg c1, if_pos c2] at h; subst c2; exact sym (by decide) h
  by_cases c3 : c = 102
  · rw [if_neg c1, if_neg c2, if_pos c3] at h; subst c3; exact sym (by decide) h
  by_cases c4 : c = 110
  · rw [if_neg c1, if_neg c2, if_neg c3, if_pos c4] at h; subst c4; exact sym (by decide) h
  by_cases c5 : c = 114
  · rw [if_neg c1, if_neg c2, if_neg c3, if_neg c4, if_pos c5] at h; subst c5; exact sym (by decide) h
  by_cases c6 : c = 116
  · rw [if_neg c1, if_neg c2, if_neg c3, if_neg c4, if_neg c5, if_pos c6] at h; subst c6; exact sym (by decide) h
  by_cases c7 : c = 118
  · rw [if_neg c1, if_neg c2, if_neg c3, if_neg c4, if_neg c5, if_neg c6, if_pos c7] at h; subst c7; exact sym (by decide) h
  rw [if_neg c1, if_neg c2, if_neg c3, if_neg c4, if_neg c5, if_neg c6, if_neg c7] at h
  by_cases c8 : c = 92 ∨ c = 34
  · rw [if_pos c8] at h; rcases c8 with rfl | rfl <;> exact sym (by decide) h
  rw [if_neg c8] at h
  by_cases c9 : c = 120
  · rw [if_pos c9] at h
    subst c9
    cases hr : hexRun 2 0 s with
    | none => rw [hr] at h; cases h
    | some p =>
      obtain ⟨n, r'⟩ := p
      rw [hr] at h
      cases h
      obtain ⟨ds, xs, rfl, hl, hm, rfl⟩ := hexRun_sound hr
      match ds, hl with
      | [a, b], _ =>
        rw [List.mapM_cons, List.mapM_cons] at hm
        cases ha : hexVal a with
        | none => rw [ha] at hm; cases hm
        | some x =>
          cases hb : hexVal b with
          | none => rw [ha, hb] at hm; cases hm
          | some y =>
            rw [ha, hb] at hm
            cases hm
            exact ⟨[120, a, b], rfl, by simpa using Escape.byte ha hb⟩
  rw [if_neg c9] at h
  by_cases c10 : c = 117 ∨ c = 85
  · rw [if_pos c10] at h
    split at h
    · cases h
    · rename_i n r' hr
      split at h
      · cases h
      · rename_i hok
        cases h
        obtain ⟨ds, xs, rfl, hl, hm, rfl⟩ := hexRun_sound hr
        refine ⟨c :: ds, rfl, ?_⟩
        rcases c10 with rfl | rfl
        · exact .short hl hm (fun h => hok (.inl h))
        · exact .long hl hm (fun h => hok (.inl h)) (by omega)
  rw [if_neg c10] at h
  by_cases c11 : 48 ≤ c.toNat ∧ c.toNat ≤ 55
  · rw [if_pos c11] at h
    split at h
    · rename_i a b r'
      dsimp only at h
      split at h
      · rename_i hok
        cases h
        refine ⟨[c, a, b], rfl, ?_⟩
        have back : ∀ d : UInt8, 48 ≤ d.toNat → UInt8.ofNat (48 + (d.toNat - 48)) = d := by
          intro d hd
          rw [show 48 + (d.toNat - 48) = d.toNat by omega]
          simp
        have := Escape.octal (x := c.toNat - 48) (y := a.toNat - 48) (z := b.toNat - 48) (by omega) (by omega) (by omega)
        rw [back c c11.1, back a hok.1, back b hok.2.2.1] at this
        rw [Nat.mul_comm _ 64, Nat.mul_comm _ 8]
        exact this
      · cases h
    · cases h
  · rw [if_neg c11] at h; cases h

theorem unquoteAux_sound : ∀ (fuel : Nat) {s v : GoString}, unquoteAux fuel s = some v → Unquotes s v
  | _, [], v, h => by rw [unquoteAux.eq_def] at h; cases h; exact .nil
  | 0, _ :: _, _, h => by rw [unquoteAux.eq_def] at h; cases h
  | fuel + 1, b :: t, v, h => by
    rw [unquoteAux.eq_def] at h
    dsimp only at h
    by_cases h1 : b = 34 ∨ b = 10
    · rw [if_pos h1] at h; cases h
    rw [if_neg h1] at h
    by_cases h2 : b = 92
    · rw [if_pos h2] at h
      subst h2
      split at h
      · cases h
      · rename_i c t'
        split at h
        · cases h
        · rename_i x r hx
          cases hr : unquoteAux fuel r with
          | none => rw [hr] at h; cases h
          | some w =>
            rw [hr] at h
            cases h
            obtain ⟨e, he, hE⟩ := unquoteEscape_sound hx
            rw [he]
            exact .escape hE (unquoteAux_sound fuel hr)
    rw [if_neg h2] at h
    by_cases h3 : b.toNat < 128
    · rw [if_pos h3] at h
      cases hr : unquoteAux fuel t with
      | none => rw [hr] at h; cases h
      | some w =>
        rw [hr] at h
        cases h
        exact .ascii h3 (fun h => h1 (.inl h)) (fun h => h1 (.inr h)) h2 (unquoteAux_sound fuel hr)
    · rw [if_neg h3] at h
      cases hr : unquoteAux fuel ((b :: t).drop (decodeRune (b :: t)).2) with
      | none => rw [hr] at h; cases h
      | some w =>
        rw [hr] at h
        cases h
        exact .other (by omega) (unquoteAux_sound fuel hr)

end GoIdentity.Tag
