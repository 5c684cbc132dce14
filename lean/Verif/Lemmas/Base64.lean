import Verif.Spec.Base64
import Verif.Lemmas.Bcrypt
import Mathlib.Tactic.Ring
import Mathlib.Data.List.Forall2
/-!
# Base64: the decoder and the encoders do what the specification says
-/
namespace GoIdentity
set_option linter.unusedSectionVars false

theorem b64Val_iff {b : UInt8} {v : Nat} : b64Val b = some v ↔ StdValue b v := by
  have hb := b.toNat_lt
  unfold b64Val StdValue
  dsimp only
  repeat' split
  all_goals simp only [Option.some.injEq, reduceCtorEq, false_iff]
  all_goals omega

instance (b : UInt8) (v : Nat) : Decidable (StdValue b v) := by unfold StdValue; infer_instance

instance (b : UInt8) (v : Nat) : Decidable (BcryptValue b v) := by unfold BcryptValue; infer_instance

theorem StdValue.lt {b : UInt8} {v : Nat} (h : StdValue b v) : v < 64 := by unfold StdValue at h; omega

theorem StdValue.inj {b b' : UInt8} {v : Nat} (h : StdValue b v) (h' : StdValue b' v) : b = b' := by
  unfold StdValue at h h'
  exact UInt8.toNat_inj.1 (by omega)

theorem StdValue.fun {b : UInt8} {v v' : Nat} (h : StdValue b v) (h' : StdValue b v') : v = v' := by
  unfold StdValue at h h'
  omega

theorem BcryptValue.lt {b : UInt8} {v : Nat} (h : BcryptValue b v) : v < 64 := by unfold BcryptValue at h; omega

theorem BcryptValue.inj {b b' : UInt8} {v : Nat} (h : BcryptValue b v) (h' : BcryptValue b' v) : b = b' := by
  unfold BcryptValue at h h'
  exact UInt8.toNat_inj.1 (by omega)

theorem number_foldl (base : Nat) (ds : List Nat) (n : Nat) : ds.foldl (fun n d => n * base + d) n = n * base ^ ds.length + number base ds := by
  unfold number
  induction ds generalizing n with
  | nil => simp
  | cons d ds ih =>
    rw [List.foldl_cons, List.foldl_cons, ih, ih (0 * base + d), List.length_cons, Nat.pow_succ]
    ring

theorem number_cons (base d : Nat) (ds : List Nat) : number base (d :: ds) = d * base ^ ds.length + number base ds := by
  conv_lhs => unfold number
  rw [List.foldl_cons, number_foldl]
  simp

theorem number_lt {base : Nat} {ds : List Nat} (h : ∀ d ∈ ds, d < base) : number base ds < base ^ ds.length := by
  induction ds with
  | nil => simp [number]
  | cons d ds ih =>
    rw [number_cons, List.length_cons, Nat.pow_succ]
    have h1 := ih fun x hx => h x (List.mem_cons_of_mem _ hx)
    have h2 := h d List.mem_cons_self
    calc d * base ^ ds.length + number base ds < d * base ^ ds.length + base ^ ds.length := by omega
      _ = (d + 1) * base ^ ds.length := by ring
      _ ≤ base * base ^ ds.length := Nat.mul_le_mul_right _ h2
      _ = _ := by ring

theorem number_inj {base : Nat} {ds es : List Nat} (hd : ∀ d ∈ ds, d < base) (he : ∀ d ∈ es, d < base) (hl : ds.length = es.length)
    (h : number base ds = number base es) : ds = es := by
  induction ds generalizing es with
  | nil => exact (List.length_eq_zero_iff.1 hl.symm).symm
  | cons d ds ih =>
    cases es with
    | nil => simp at hl
    | cons e es =>
      have hl' : ds.length = es.length := by simpa using hl
      rw [number_cons, number_cons, hl'] at h
      have l1 := number_lt fun x hx => hd x (List.mem_cons_of_mem _ hx)
      have l2 := number_lt fun x hx => he x (List.mem_cons_of_mem _ hx)
      rw [hl'] at l1
      have e1 : d = e := by
        have a := congrArg (· / base ^ es.length) h
        have hp : 0 < base ^ es.length := by omega
        simp only [Nat.mul_comm _ (base ^ es.length), Nat.mul_add_div hp, Nat.div_eq_of_lt l1, Nat.div_eq_of_lt l2] at a
        simpa using a
      subst e1
      rw [ih (fun x hx => hd x (List.mem_cons_of_mem _ hx)) (fun x hx => he x (List.mem_cons_of_mem _ hx)) hl' (by omega)]

theorem bytes_lt (x : GoString) : ∀ d ∈ x.map UInt8.toNat, d < 256 := by
  intro d hd
  obtain ⟨b, _, rfl⟩ := List.mem_map.1 hd
  exact b.toNat_lt

theorem toNat_map_inj {x y : GoString} (h : x.map UInt8.toNat = y.map UInt8.toNat) : x = y :=
  (List.map_inj_right fun _ _ => UInt8.toNat_inj.1).1 h

/-- The bytes and the spare bits are determined. -/
theorem Holds.unique {vs : List Nat} {x y : GoString} {r r' : Nat} (h : Holds vs x r) (h' : Holds vs y r') : x = y ∧ r = r' := by
  obtain ⟨l1, r1, e1⟩ := h
  obtain ⟨l2, r2, e2⟩ := h'
  have hp : 0 < 2 ^ (6 * vs.length % 8) := Nat.two_pow_pos _
  generalize 2 ^ (6 * vs.length % 8) = p at *
  have e := e1.symm.trans e2
  have hn : number 256 (x.map UInt8.toNat) = number 256 (y.map UInt8.toNat) := by
    have a := congrArg (· / p) e
    simp only [Nat.mul_comm _ p, Nat.mul_add_div hp, Nat.div_eq_of_lt r1, Nat.div_eq_of_lt r2] at a
    simpa using a
  refine ⟨toNat_map_inj (number_inj (bytes_lt x) (bytes_lt y) (by simp; omega) hn), ?_⟩
  rw [hn] at e
  omega

/-- Four digits and three bytes in front. -/
theorem Holds.cons {vs : List Nat} {x : GoString} {r : Nat} (h : Holds vs x r) {a b c d : Nat} (ha : a < 64) (hb : b < 64) (hc : c < 64) (hd : d < 64) :
    Holds (a :: b :: c :: d :: vs) (UInt8.ofNat (a * 4 + b / 16) :: UInt8.ofNat (b % 16 * 16 + c / 4) :: UInt8.ofNat (c % 4 * 64 + d) :: x) r := by
  obtain ⟨l, hr, e⟩ := h
  have hm : 6 * (vs.length + 1 + 1 + 1 + 1) % 8 = 6 * vs.length % 8 := by omega
  refine ⟨by simp only [List.length_cons]; omega, by simp only [List.length_cons]; rw [hm]; exact hr, ?_⟩
  simp only [List.length_cons, hm, number_cons, List.map_cons, e, List.length_map]
  have e6 : (64 : Nat) ^ vs.length = 256 ^ x.length * 2 ^ (6 * vs.length % 8) := by
    rw [show (64 : Nat) = 2 ^ 6 by rfl, show (256 : Nat) = 2 ^ 8 by rfl, ← Nat.pow_mul, ← Nat.pow_mul, ← Nat.pow_add, l]
    congr 1
    omega
  have t1 : (UInt8.ofNat (a * 4 + b / 16)).toNat = a * 4 + b / 16 := by rw [UInt8.toNat_ofNat']; omega
  have t2 : (UInt8.ofNat (b % 16 * 16 + c / 4)).toNat = b % 16 * 16 + c / 4 := by rw [UInt8.toNat_ofNat']; omega
  have t3 : (UInt8.ofNat (c % 4 * 64 + d)).toNat = c % 4 * 64 + d := by rw [UInt8.toNat_ofNat']; omega
  simp only [Nat.pow_succ, e6, t1, t2, t3]
  generalize 256 ^ x.length = q
  generalize 2 ^ (6 * vs.length % 8) = p
  have : ((a * 64 + b) * 64 + c) * 64 + d = ((a * 4 + b / 16) * 256 + (b % 16 * 16 + c / 4)) * 256 + (c % 4 * 64 + d) := by omega
  calc _ = (((a * 64 + b) * 64 + c) * 64 + d) * (q * p) + (number 256 (x.map UInt8.toNat) * p + r) := by ring
    _ = _ := by rw [this]; ring

theorem Holds.nil : Holds [] [] 0 := by
  refine ⟨rfl, by decide, rfl⟩

theorem Holds.two {a b : Nat} (ha : a < 64) (hb : b < 64) : Holds [a, b] [UInt8.ofNat (a * 4 + b / 16)] (b % 16) := by
  have h4 : 6 * [a, b].length % 8 = 4 := by simp
  refine ⟨by simp, ?_, ?_⟩
  · rw [h4]; omega
  · have t1 : (UInt8.ofNat (a * 4 + b / 16)).toNat = a * 4 + b / 16 := by rw [UInt8.toNat_ofNat']; omega
    simp only [number, List.foldl_cons, List.foldl_nil, List.map_cons, List.map_nil, t1, h4]
    omega

theorem Holds.three {a b c : Nat} (ha : a < 64) (hb : b < 64) (hc : c < 64) :
    Holds [a, b, c] [UInt8.ofNat (a * 4 + b / 16), UInt8.ofNat (b % 16 * 16 + c / 4)] (c % 4) := by
  have h4 : 6 * [a, b, c].length % 8 = 2 := by simp
  refine ⟨by simp, ?_, ?_⟩
  · rw [h4]; omega
  · have t1 : (UInt8.ofNat (a * 4 + b / 16)).toNat = a * 4 + b / 16 := by rw [UInt8.toNat_ofNat']; omega
    have t2 : (UInt8.ofNat (b % 16 * 16 + c / 4)).toNat = b % 16 * 16 + c / 4 := by rw [UInt8.toNat_ofNat']; omega
    simp only [number, List.foldl_cons, List.foldl_nil, List.map_cons, List.map_nil, t1, t2, h4]
    omega

/-- What the decoder reads. -/
def Reads (t x : GoString) : Prop :=
  ∃ body vs p r, t = body ++ List.replicate p 61 ∧ p ≤ 2 ∧ (body.length + p) % 4 = 0 ∧ List.Forall₂ StdValue body vs ∧ Holds vs x r

theorem decodeGroups_reads : ∀ (t x : GoString), b64DecodeGroups t = some x → Reads t x
  | [], x => by
    intro h
    simp only [b64DecodeGroups, Option.some.injEq] at h
    subst h
    exact ⟨[], [], 0, 0, rfl, by omega, rfl, .nil, Holds.nil⟩
  | [_], x => by simp [b64DecodeGroups]
  | [_, _], x => by simp [b64DecodeGroups]
  | [_, _, _], x => by simp [b64DecodeGroups]
  | a :: b :: c :: d :: t, x => by
    intro h
    simp only [b64DecodeGroups] at h
    split at h
    · rename_i va vb ea eb
      have ea := b64Val_iff.1 ea
      have eb := b64Val_iff.1 eb
      split at h
      · rename_i hc
        split at h
        · rename_i hd
          obtain ⟨rfl, rfl⟩ := hd
          subst hc
          simp only [Option.some.injEq] at h
          subst h
          exact ⟨[a, b], [va, vb], 2, _, rfl, by omega, by simp, .cons ea (.cons eb .nil), Holds.two ea.lt eb.lt⟩
        · simp at h
      · split at h
        · simp at h
        · rename_i vc ec
          have ec := b64Val_iff.1 ec
          split at h
          · rename_i hd
            split at h
            · rename_i ht
              subst hd ht
              simp only [Option.some.injEq] at h
              subst h
              exact ⟨[a, b, c], [va, vb, vc], 1, _, rfl, by omega, by simp, .cons ea (.cons eb (.cons ec .nil)), Holds.three ea.lt eb.lt ec.lt⟩
            · simp at h
          · split at h
            · simp at h
            · rename_i vd ed
              have ed := b64Val_iff.1 ed
              split at h
              · simp at h
              · rename_i r hr
                obtain ⟨body, vs, p, s, rfl, hp, hl, hv, hh⟩ := decodeGroups_reads t r hr
                simp only [Option.some.injEq] at h
                subst h
                exact ⟨a :: b :: c :: d :: body, va :: vb :: vc :: vd :: vs, p, s, rfl, hp, by simp only [List.length_cons]; omega,
                  .cons ea (.cons eb (.cons ec (.cons ed hv))), hh.cons ea.lt eb.lt ec.lt ed.lt⟩
    · simp at h

theorem StdValue.ne {b : UInt8} {v : Nat} (h : StdValue b v) : b ≠ 61 := by
  rintro rfl
  unfold StdValue at h
  simp at h

theorem decodeGroups_some : ∀ (body : GoString) (vs : List Nat) (p : Nat), List.Forall₂ StdValue body vs → p ≤ 2 → (body.length + p) % 4 = 0 →
    (b64DecodeGroups (body ++ List.replicate p 61)).isSome = true
  | [], vs, p, _, hp, hl => by
    have : p = 0 := by simp at hl; omega
    subst this
    rfl
  | [_], vs, p, _, hp, hl => by simp at hl; omega
  | [a, b], vs, p, hv, hp, hl => by
    have : p = 2 := by simp at hl; omega
    subst this
    cases hv with
    | cons ea hv =>
    cases hv with
    | cons eb hv =>
    simp [b64DecodeGroups, b64Val_iff.2 ea, b64Val_iff.2 eb]
  | [a, b, c], vs, p, hv, hp, hl => by
    have : p = 1 := by simp at hl; omega
    subst this
    cases hv with
    | cons ea hv =>
    cases hv with
    | cons eb hv =>
    cases hv with
    | cons ec hv =>
    simp [b64DecodeGroups, b64Val_iff.2 ea, b64Val_iff.2 eb, b64Val_iff.2 ec, ec.ne]
  | a :: b :: c :: d :: t, vs, p, hv, hp, hl => by
    cases hv with
    | cons ea hv =>
    cases hv with
    | cons eb hv =>
    cases hv with
    | cons ec hv =>
    cases hv with
    | cons ed hv =>
    obtain ⟨x, hx⟩ := Option.isSome_iff_exists.1 <| decodeGroups_some t _ p hv hp (by simp at hl; omega)
    simp [b64DecodeGroups, b64Val_iff.2 ea, b64Val_iff.2 eb, b64Val_iff.2 ec, b64Val_iff.2 ed, ec.ne, ed.ne, hx]

theorem values_fun {body : GoString} {vs ws : List Nat} (h : List.Forall₂ StdValue body vs) (h' : List.Forall₂ StdValue body ws) : vs = ws := by
  induction h generalizing ws with
  | nil => cases h'; rfl
  | cons a _ ih =>
    cases h' with
    | cons b h' => rw [a.fun b, ih h']

theorem values_inj {R : UInt8 → Nat → Prop} (hR : ∀ b b' v, R b v → R b' v → b = b') {body body' : GoString} {vs : List Nat}
    (h : List.Forall₂ R body vs) (h' : List.Forall₂ R body' vs) : body = body' := by
  induction h generalizing body' with
  | nil => cases h'; rfl
  | cons a _ ih =>
    cases h' with
    | cons b h' => rw [hR _ _ _ a b, ih h']

/-- Where the padding begins is determined. -/
theorem padding_unique {body body' : GoString} {vs vs' : List Nat} {p p' : Nat} (hv : List.Forall₂ StdValue body vs)
    (hv' : List.Forall₂ StdValue body' vs') (h : body ++ List.replicate p 61 = body' ++ List.replicate p' 61) : body = body' ∧ p = p' := by
  have hf : ∀ {b : GoString} {ws : List Nat}, List.Forall₂ StdValue b ws → b.filter (· != 61) = b := by
    intro b ws hw
    induction hw with
    | nil => rfl
    | cons a _ ih => rw [List.filter_cons_of_pos (by simpa using a.ne), ih]
  have hr : ∀ n, (List.replicate n (61 : UInt8)).filter (· != 61) = [] := by intro n; simp
  have e := congrArg (List.filter (· != 61)) h
  rw [List.filter_append, List.filter_append, hf hv, hf hv', hr, hr, List.append_nil, List.append_nil] at e
  subst e
  have := List.append_cancel_left h
  exact ⟨rfl, by simpa using congrArg List.length this⟩

theorem decodeGroups_iff {t x : GoString} : b64DecodeGroups t = some x ↔ Reads t x := by
  refine ⟨decodeGroups_reads t x, ?_⟩
  rintro ⟨body, vs, p, r, rfl, hp, hl, hv, hh⟩
  obtain ⟨y, hy⟩ := Option.isSome_iff_exists.1 <| decodeGroups_some body vs p hv hp hl
  obtain ⟨body', vs', p', r', e, _, _, hv', hh'⟩ := decodeGroups_reads _ _ hy
  obtain ⟨rfl, rfl⟩ := padding_unique hv hv' e
  rw [values_fun hv' hv] at hh'
  rw [hy, (hh.unique hh').1]

theorem values_lt {R : UInt8 → Nat → Prop} (hR : ∀ b v, R b v → v < 64) {body : GoString} {vs : List Nat} (h : List.Forall₂ R body vs) :
    ∀ v ∈ vs, v < 64 := by
  induction h with
  | nil => simp
  | cons a _ ih =>
    intro v hv
    rcases List.mem_cons.1 hv with rfl | hv
    · exact hR _ _ a
    · exact ih v hv

/-- Digits without spare bits are determined by the bytes. -/
theorem Holds.digits {vs ws : List Nat} {x : GoString} (h : Holds vs x 0) (h' : Holds ws x 0) (hl : vs.length = ws.length)
    (hv : ∀ v ∈ vs, v < 64) (hw : ∀ v ∈ ws, v < 64) : vs = ws := by
  refine number_inj hv hw hl ?_
  rw [h.2.2, h'.2.2, hl]

theorem StdValue_char {n : Nat} (h : n < 64) : StdValue (b64Char n) n := b64Val_iff.1 (b64Val_char h).1

theorem encode_writes (x : GoString) : ∃ body vs p, b64Encode x = body ++ List.replicate p 61 ∧ p ≤ 2 ∧ (body.length + p) % 4 = 0 ∧
    List.Forall₂ StdValue body vs ∧ Holds vs x 0 := by
  induction x using b64Encode.induct with
  | case1 => exact ⟨[], [], 0, rfl, by omega, rfl, .nil, Holds.nil⟩
  | case2 a =>
    have ha := a.toNat_lt
    refine ⟨[_, _], [_, _], 2, rfl, by omega, by simp, .cons (StdValue_char (by omega)) (.cons (StdValue_char (by omega)) .nil), ?_⟩
    have := Holds.two (a := a.toNat / 4) (b := a.toNat % 4 * 16) (by omega) (by omega)
    rw [show a.toNat / 4 * 4 + a.toNat % 4 * 16 / 16 = a.toNat by omega, UInt8.ofNat_toNat, Nat.mul_mod_left] at this
    exact this
  | case3 a b =>
    have ha := a.toNat_lt
    have hb := b.toNat_lt
    refine ⟨[_, _, _], [_, _, _], 1, rfl, by omega, by simp,
      .cons (StdValue_char (by omega)) (.cons (StdValue_char (by omega)) (.cons (StdValue_char (by omega)) .nil)), ?_⟩
    have := Holds.three (a := a.toNat / 4) (b := a.toNat % 4 * 16 + b.toNat / 16) (c := b.toNat % 16 * 4) (by omega) (by omega) (by omega)
    rw [show a.toNat / 4 * 4 + (a.toNat % 4 * 16 + b.toNat / 16) / 16 = a.toNat by omega,
      show (a.toNat % 4 * 16 + b.toNat / 16) % 16 * 16 + b.toNat % 16 * 4 / 4 = b.toNat by omega, UInt8.ofNat_toNat, UInt8.ofNat_toNat,
      Nat.mul_mod_left] at this
    exact this
  | case4 a b c t ih =>
    have ha := a.toNat_lt
    have hb := b.toNat_lt
    have hc := c.toNat_lt
    obtain ⟨body, vs, p, e, hp, hl, hv, hh⟩ := ih
    refine ⟨_ :: _ :: _ :: _ :: body, _ :: _ :: _ :: _ :: vs, p, by rw [b64Encode, e]; rfl, hp, by simp only [List.length_cons]; omega,
      .cons (StdValue_char (by omega)) (.cons (StdValue_char (by omega)) (.cons (StdValue_char (by omega)) (.cons (StdValue_char (by omega)) hv))), ?_⟩
    have := hh.cons (a := a.toNat / 4) (b := a.toNat % 4 * 16 + b.toNat / 16) (c := b.toNat % 16 * 4 + c.toNat / 64) (d := c.toNat % 64)
      (by omega) (by omega) (by omega) (by omega)
    rw [show a.toNat / 4 * 4 + (a.toNat % 4 * 16 + b.toNat / 16) / 16 = a.toNat by omega,
      show (a.toNat % 4 * 16 + b.toNat / 16) % 16 * 16 + (b.toNat % 16 * 4 + c.toNat / 64) / 4 = b.toNat by omega,
      show (b.toNat % 16 * 4 + c.toNat / 64) % 4 * 64 + c.toNat % 64 = c.toNat by omega, UInt8.ofNat_toNat, UInt8.ofNat_toNat, UInt8.ofNat_toNat] at this
    exact this

theorem values_length {R : UInt8 → Nat → Prop} {body : GoString} {vs : List Nat} (h : List.Forall₂ R body vs) : body.length = vs.length := h.length_eq

theorem digits_unique {n m : Nat} (hn : n % 4 ≠ 1) (hm : m % 4 ≠ 1) (h : 6 * n / 8 = 6 * m / 8) : n = m := by
  have h1 := Nat.div_add_mod n 4
  have h2 := Nat.div_add_mod m 4
  have l1 := Nat.mod_lt n (by omega : 0 < 4)
  have l2 := Nat.mod_lt m (by omega : 0 < 4)
  generalize n / 4 = q at *
  generalize m / 4 = q' at *
  rcases (by omega : n % 4 = 0 ∨ n % 4 = 2 ∨ n % 4 = 3) with a | a | a <;>
    rcases (by omega : m % 4 = 0 ∨ m % 4 = 2 ∨ m % 4 = 3) with b | b | b <;> rw [a] at h1 <;> rw [b] at h2 <;> omega

theorem digits_count {n m : Nat} (hn : n % 4 ≠ 1) (h : m = 6 * n / 8) : n = (8 * m + 5) / 6 := by
  have h1 := Nat.div_add_mod n 4
  have l1 := Nat.mod_lt n (by omega : 0 < 4)
  generalize n / 4 = q at *
  rcases (by omega : n % 4 = 0 ∨ n % 4 = 2 ∨ n % 4 = 3) with a | a | a <;> rw [a] at h1 <;> omega

theorem encode_iff {x s : GoString} : b64Encode x = s ↔ ∃ body vs p, s = body ++ List.replicate p 61 ∧ p ≤ 2 ∧ (body.length + p) % 4 = 0 ∧
    List.Forall₂ StdValue body vs ∧ Holds vs x 0 := by
  constructor
  · rintro rfl
    exact encode_writes x
  · rintro ⟨body, vs, p, rfl, hp, hl, hv, hh⟩
    obtain ⟨body', vs', p', e, hp', hl', hv', hh'⟩ := encode_writes x
    have l1 := values_length hv
    have l2 := values_length hv'
    have l3 := hh.1
    have l4 := hh'.1
    have hd := Holds.digits hh' hh (digits_unique (by omega) (by omega) (by omega)) (values_lt (fun _ _ h => h.lt) hv')
      (values_lt (fun _ _ h => h.lt) hv)
    subst hd
    have hb := values_inj (fun _ _ _ h h' => h.inj h') hv' hv
    subst hb
    rw [e, show p = p' by omega]

theorem bcChar_value : ∀ n < 64, BcryptValue (bcAlphabet.getD n 0) n := by unfold BcryptValue; decide +kernel

theorem StdValue.noPad {body : GoString} {vs : List Nat} (h : List.Forall₂ StdValue body vs) (p : Nat) :
    (body ++ List.replicate p 61).filter (· != 61) = body := by
  rw [List.filter_append]
  have hf : body.filter (· != 61) = body := by
    induction h with
    | nil => rfl
    | cons a _ ih => rw [List.filter_cons_of_pos (by simpa using a.ne), ih]
  rw [hf]
  simp

theorem bcEncode_iff {x s : GoString} : bcEncode x = s ↔ ∃ vs, List.Forall₂ BcryptValue s vs ∧ vs.length = (8 * x.length + 5) / 6 ∧ Holds vs x 0 := by
  have key : ∃ vs, List.Forall₂ BcryptValue (bcEncode x) vs ∧ vs.length = (8 * x.length + 5) / 6 ∧ Holds vs x 0 := by
    obtain ⟨body, vs, p, e, hp, hl, hv, hh⟩ := encode_writes x
    refine ⟨vs, ?_, ?_, hh⟩
    · unfold bcEncode
      rw [e, StdValue.noPad hv]
      clear e hl hh
      induction hv with
      | nil => exact .nil
      | cons a _ ih =>
        refine .cons ?_ ih
        dsimp only
        rw [b64Val_iff.2 a]
        exact bcChar_value _ a.lt
    · have l1 := values_length hv
      exact digits_count (by omega) hh.1
  constructor
  · rintro rfl; exact key
  · rintro ⟨vs, hv, hl, hh⟩
    obtain ⟨vs', hv', hl', hh'⟩ := key
    have hd := Holds.digits hh' hh (by omega) (values_lt (fun _ _ h => h.lt) hv') (values_lt (fun _ _ h => h.lt) hv)
    subst hd
    exact values_inj (fun _ _ _ h h' => h.inj h') hv' hv

theorem bcToStd_value_all : ∀ c : Fin 256, ∀ v < 64, StdValue (bcToStd (UInt8.ofNat c)) v ↔ BcryptValue (UInt8.ofNat c) v := by
  decide +kernel

theorem bcToStd_value {c : UInt8} {v : Nat} : StdValue (bcToStd c) v ↔ BcryptValue c v := by
  by_cases h : v < 64
  · have := bcToStd_value_all ⟨c.toNat, c.toNat_lt⟩ v h
    simpa using this
  · exact ⟨fun a => absurd a.lt h, fun a => absurd a.lt h⟩

theorem bcToStd_newline : ∀ c : Fin 256, (!(bcToStd (UInt8.ofNat c) == 10 || bcToStd (UInt8.ofNat c) == 13)) = (!(UInt8.ofNat c == 10 || UInt8.ofNat c == 13)) := by
  decide +kernel

theorem bcDecodeSalt_iff {s x : GoString} : bcDecodeSalt s = some x ↔ ∃ vs r,
    List.Forall₂ BcryptValue (s.filter fun b => !(b == 10 || b == 13)) vs ∧ vs.length % 4 = 2 ∧ Holds vs x r := by
  have hfm : ∀ t : GoString, (t.map bcToStd).filter (fun b => !(b == 10 || b == 13)) = (t.filter fun b => !(b == 10 || b == 13)).map bcToStd := by
    intro t
    rw [List.filter_map]
    congr 2
    funext c
    have := bcToStd_newline ⟨c.toNat, c.toNat_lt⟩
    simpa using this
  have hmap : ∀ (t : GoString) (vs : List Nat), List.Forall₂ StdValue (t.map bcToStd) vs ↔ List.Forall₂ BcryptValue t vs := by
    intro t vs
    rw [List.forall₂_map_left_iff]
    simp only [bcToStd_value]
  unfold bcDecodeSalt b64Decode
  rw [decodeGroups_iff, List.map_append, List.filter_append, hfm, show ([61, 61].map bcToStd).filter (fun b => !(b == 10 || b == 13)) = [61, 61] by decide]
  generalize (s.filter fun b => !(b == 10 || b == 13)) = t
  constructor
  · rintro ⟨body, vs, p, r, e, hp, hl, hv, hh⟩
    have hp2 : p = 2 := by
      rcases (by omega : p = 0 ∨ p = 1 ∨ p = 2) with rfl | rfl | rfl
      · have : (61 : UInt8) ∈ body := by rw [List.replicate_zero, List.append_nil] at e; rw [← e]; simp
        have hf := StdValue.noPad hv 0
        rw [List.replicate_zero, List.append_nil] at hf
        rw [← hf] at this
        simp at this
      · have e' : t.map bcToStd ++ [61] ++ [61] = body ++ [61] := by simpa using e
        have e' := List.append_cancel_right e'
        have : (61 : UInt8) ∈ body := by rw [← e']; simp
        have hf := StdValue.noPad hv 0
        rw [List.replicate_zero, List.append_nil] at hf
        rw [← hf] at this
        simp at this
      · rfl
    subst hp2
    have e' : t.map bcToStd = body := List.append_cancel_right e
    subst e'
    have l1 := values_length hv
    exact ⟨vs, r, (hmap _ _).1 hv, by omega, hh⟩
  · rintro ⟨vs, r, hv, hl, hh⟩
    have l1 := values_length hv
    refine ⟨t.map bcToStd, vs, 2, r, rfl, by omega, by rw [List.length_map]; omega, (hmap _ _).2 hv, hh⟩

end GoIdentity
