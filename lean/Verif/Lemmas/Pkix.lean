import Mathlib.Data.Nat.ModEq
import Mathlib.Data.Int.ModEq
import Mathlib.Tactic.Ring
import Verif.Spec.Pkix
import Verif.Lemmas.PemSound
/-!
# Reading keys of other algorithms than RSA
-/
set_option linter.unusedSectionVars false
namespace GoIdentity
variable [Ext]
open Sha (beNat natBE)

/-! ## Curves -/

theorem point_iff {c : NistCurve} {d : CurveData} {key : GoString} (hs : c.size = d.size) (hp : (c.p : Int) = d.p)
    (hb : (c.b : Int) = d.b) : c.point key = true ↔ d.IsPoint key := by
  unfold NistCurve.point CurveData.IsPoint
  have hmod : ∀ x y : Nat, (y * y + 3 * x) % c.p = (x * x * x + c.b) % c.p ↔ d.p ∣ (y : Int) ^ 2 - ((x : Int) ^ 3 - 3 * x + d.b) := by
    intro x y
    have := Nat.modEq_iff_dvd (n := c.p) (a := x * x * x + c.b) (b := y * y + 3 * x)
    rw [Nat.ModEq] at this
    rw [eq_comm, this, hp, ← hb]
    push_cast
    rw [show (y : Int) * y + 3 * x - (x * x * x + c.b) = (y : Int) ^ 2 - ((x : Int) ^ 3 - 3 * x + c.b) by ring]
  constructor
  · intro h
    split at h
    · simp at h
    rename_i t xy
    simp only [Bool.and_eq_true, decide_eq_true_eq] at h
    obtain ⟨⟨⟨⟨rfl, h1⟩, h2⟩, h3⟩, h4⟩ := h
    refine ⟨xy.take c.size, xy.drop c.size, by simp, ?_, ?_, ?_, ?_, (hmod _ _).1 h4⟩
    · rw [List.length_take]; omega
    · rw [List.length_drop]; omega
    · rw [← hp, unsignedBE_eq]; omega
    · rw [← hp, unsignedBE_eq]; omega
  · rintro ⟨xb, yb, rfl, h1, h2, h3, h4, h5⟩
    rw [List.cons_append]
    dsimp only
    rw [← hs] at h1 h2
    rw [unsignedBE_eq] at h3 h4
    rw [unsignedBE_eq, unsignedBE_eq] at h5
    have e1 : (xb ++ yb).take c.size = xb := by rw [← h1]; simp
    have e2 : (xb ++ yb).drop c.size = yb := by rw [← h1]; simp
    simp only [e1, e2, Bool.and_eq_true, decide_eq_true_eq, List.length_append]
    exact ⟨⟨⟨⟨trivial, by omega⟩, by omega⟩, by omega⟩, (hmod _ _).2 h5⟩

/-- The data of a curve and the curve of the model belong together. -/
structure Matches (d : CurveData) (c : NistCurve) : Prop where
  size : c.size = d.size
  p : (c.p : Int) = d.p
  b : (c.b : Int) = d.b

theorem Matches.point {d : CurveData} {c : NistCurve} (h : Matches d c) {key : GoString} : c.point key = true ↔ d.IsPoint key :=
  point_iff h.size h.p h.b

/-- The curves of SSH, their kinds and identifiers. -/
theorem curve_cases {d : CurveData} (h : d ∈ sshCurves) :
    ∃ (c : NistCurve) (kind : PkixKind), Matches d c ∧ c.kind = some kind ∧ c.id = d.name ∧ kind.name = gs! "ecdsa-sha2-" ++ d.name ∧
      curveOfOid d.oid = some c ∧ curveOfId d.name = some c ∧ d.oid.length < 2 ^ 31 := by
  simp only [sshCurves, List.mem_cons, List.not_mem_nil, or_false] at h
  rcases h with rfl | rfl | rfl
  · exact ⟨curve256, .p256, ⟨rfl, by decide +kernel, by decide +kernel⟩, rfl, rfl, rfl, rfl, rfl, by decide⟩
  · exact ⟨curve384, .p384, ⟨rfl, by decide +kernel, by decide +kernel⟩, rfl, rfl, rfl, rfl, rfl, by decide⟩
  · exact ⟨curve521, .p521, ⟨rfl, by decide +kernel, by decide +kernel⟩, rfl, rfl, rfl, rfl, rfl, by decide⟩

theorem p224_matches : Matches p224 curve224 := ⟨rfl, by decide +kernel, by decide +kernel⟩

/-- Conversely for curves found by their identifier. -/
theorem curveOfOid_some {oid : GoString} {c : NistCurve} (h : curveOfOid oid = some c) :
    (c = curve224 ∧ oid = p224.oid) ∨ ∃ d kind, d ∈ sshCurves ∧ oid = d.oid ∧ Matches d c ∧ c.kind = some kind ∧ c.id = d.name ∧
      kind.name = gs! "ecdsa-sha2-" ++ d.name := by
  have key : ∀ d ∈ sshCurves, oid = d.oid → ∃ d kind, d ∈ sshCurves ∧ oid = d.oid ∧ Matches d c ∧ c.kind = some kind ∧
      c.id = d.name ∧ kind.name = gs! "ecdsa-sha2-" ++ d.name := by
    rintro d hd rfl
    obtain ⟨c', kind, h1, h2, h3, h4, h5, _⟩ := curve_cases hd
    rw [h, Option.some.injEq] at h5
    subst h5
    exact ⟨d, kind, hd, rfl, h1, h2, h3, h4⟩
  have h' := h
  unfold curveOfOid at h'
  split at h'
  · rename_i ho
    simp only [Option.some.injEq] at h'
    exact .inl ⟨h'.symm, ho⟩
  split at h'
  · rename_i ho; exact .inr (key _ (List.mem_cons_self ..) ho)
  split at h'
  · rename_i ho; exact .inr (key _ (List.mem_cons_of_mem _ (List.mem_cons_self ..)) ho)
  split at h'
  · rename_i ho; exact .inr (key _ (List.mem_cons_of_mem _ (List.mem_cons_of_mem _ (List.mem_cons_self ..))) ho)
  · simp at h'

theorem curveOfId_some {id : GoString} {c : NistCurve} (h : curveOfId id = some c) :
    ∃ d kind, d ∈ sshCurves ∧ id = d.name ∧ Matches d c ∧ c.kind = some kind ∧ kind.name = gs! "ecdsa-sha2-" ++ d.name := by
  have key : ∀ d ∈ sshCurves, id = d.name → ∃ d kind, d ∈ sshCurves ∧ id = d.name ∧ Matches d c ∧ c.kind = some kind ∧
      kind.name = gs! "ecdsa-sha2-" ++ d.name := by
    rintro d hd rfl
    obtain ⟨c', kind, h1, h2, h3, h4, _, h5, _⟩ := curve_cases hd
    rw [h, Option.some.injEq] at h5
    subst h5
    exact ⟨d, kind, hd, rfl, h1, h2, h4⟩
  unfold curveOfId at h
  split at h
  · rename_i ho; exact key _ (List.mem_cons_self ..) ho
  split at h
  · rename_i ho; exact key _ (List.mem_cons_of_mem _ (List.mem_cons_self ..)) ho
  split at h
  · rename_i ho; exact key _ (List.mem_cons_of_mem _ (List.mem_cons_of_mem _ (List.mem_cons_self ..))) ho
  · simp at h

/-! ## SubjectPublicKeyInfo -/

theorem parsePKIXOther_some {raw : GoString} {k : OtherPub} (h : parsePKIXOther raw = some k) :
    ∃ oid params key, IsSpki raw oid params key ∧ parseOtherKey oid params key = some k ∧ key.length < raw.length := by
  unfold parsePKIXOther at h
  split at h
  rotate_left
  · simp at h
  rename_i c hd
  obtain ⟨el, g1, g2, _⟩ := derTake_iff.1 hd
  rw [List.append_nil] at g2
  subst g2
  split at h
  · simp at h
  rename_i algc c' ha
  obtain ⟨alg, a1, a2, _⟩ := derTake_iff.1 ha
  split at h
  · simp at h
  rename_i oid params ho
  obtain ⟨o, o1, o2, _⟩ := derTake_iff.1 ho
  split at h
  · simp at h
  rename_i bc t hb
  obtain ⟨bits, b1, b2, _⟩ := derTake_iff.1 hb
  split at h
  · simp at h
  rename_i key hk
  have hal := derBits_iff.1 hk
  refine ⟨oid, params, key, ⟨alg, o, bits, bc, t, ?_, ?_, o1, b1, hal⟩, h, ?_⟩
  · rw [List.append_assoc, ← b2, ← a2]; exact g1
  · rw [← o2]; exact a1
  · have l1 := isElement_length g1
    have l2 := isElement_length b1
    have l3 := alignedBits_length hal
    rw [a2, b2] at l1
    simp only [List.length_append] at l1
    omega

theorem spki_takes {raw oid params key : GoString} (h : IsSpki raw oid params key) (hl : raw.length < 2 ^ 31) :
    ∃ c alg c' bc t, derTake 0x30 raw = some (c, []) ∧ derTake 0x30 c = some (alg, c') ∧ derTake 0x06 alg = some (oid, params) ∧
      derTake 0x03 c' = some (bc, t) ∧ derBits bc = some key := by
  obtain ⟨alg, o, bits, bc, t, h1, h2, h3, h4, h5⟩ := h
  have l1 := isElement_length h1
  have l2 := isElement_length h2
  have l3 := isElement_length h3
  have l4 := isElement_length h4
  simp only [List.length_append] at l1 l2
  refine ⟨alg ++ bits ++ t, o ++ params, bits ++ t, bc, t, ?_, ?_, ?_, ?_, derBits_iff.2 h5⟩
  · exact derTake_iff.2 ⟨raw, h1, by simp, by simp only [List.length_append]; omega⟩
  · exact derTake_iff.2 ⟨alg, h2, by simp, by simp only [List.length_append]; omega⟩
  · exact derTake_iff.2 ⟨o, h3, rfl, by omega⟩
  · exact derTake_iff.2 ⟨bits, h4, rfl, by omega⟩

theorem spki_length {raw oid params key : GoString} (h : IsSpki raw oid params key) :
    params.length + key.length < raw.length := by
  obtain ⟨alg, o, bits, bc, t, h1, h2, h3, h4, h5⟩ := h
  have l1 := isElement_length h1
  have l2 := isElement_length h2
  have l4 := isElement_length h4
  have l5 := alignedBits_length h5
  simp only [List.length_append] at l1 l2
  omega

theorem parsePKIXOther_of {raw oid params key : GoString} (h : IsSpki raw oid params key) (hl : raw.length < 2 ^ 31) :
    parsePKIXOther raw = parseOtherKey oid params key := by
  obtain ⟨c, alg, c', bc, t, h1, h2, h3, h4, h5⟩ := spki_takes h hl
  unfold parsePKIXOther
  simp only [h1, h2, h3, h4, h5]

theorem parsePKIX_of {raw oid params key : GoString} (h : IsSpki raw oid params key) (hl : raw.length < 2 ^ 31) (ho : oid ≠ oidRSA) :
    parsePKIX raw = .other := by
  obtain ⟨c, alg, c', bc, t, h1, h2, h3, h4, h5⟩ := spki_takes h hl
  unfold parsePKIX
  simp only [h1, h2, h3, if_neg ho]

/-! ## Keys -/

theorem takeInt_of {l r : GoString} {v : Int} (h : IsInteger l v) (hl : l.length < 2 ^ 31) :
    ∃ c, derTakeInt (l ++ r) = some (v, c, r) := by
  obtain ⟨c, h1, h2⟩ := h
  have := isElement_length h1
  exact ⟨c, derTakeInt_iff.2 ⟨l, h1, rfl, by omega, h2⟩⟩

theorem parseDsaParams_some {params : GoString} {p q g : Int} (h : parseDsaParams params = some (p, q, g)) :
    ∃ seq pi qi gi t1 t2, params = seq ++ t1 ∧ IsElement 0x30 seq (pi ++ qi ++ gi ++ t2) ∧ IsInteger pi p ∧ IsInteger qi q ∧
      IsInteger gi g := by
  unfold parseDsaParams at h
  split at h
  · simp at h
  rename_i c t1 hd
  obtain ⟨seq, s1, s2, _⟩ := derTake_iff.1 hd
  split at h
  · simp at h
  rename_i p' pc c1 hp
  obtain ⟨pi, p1, p2, _, p3⟩ := derTakeInt_iff.1 hp
  split at h
  · simp at h
  rename_i q' qc c2 hq
  obtain ⟨qi, q1, q2, _, q3⟩ := derTakeInt_iff.1 hq
  split at h
  · simp at h
  rename_i g' gc c3 hg
  obtain ⟨gi, g1, g2, _, g3⟩ := derTakeInt_iff.1 hg
  simp only [Option.some.injEq, Prod.mk.injEq] at h
  obtain ⟨rfl, rfl, rfl⟩ := h
  refine ⟨seq, pi, qi, gi, t1, c3, s2, ?_, ⟨pc, p1, p3⟩, ⟨qc, q1, q3⟩, ⟨gc, g1, g3⟩⟩
  rw [List.append_assoc, List.append_assoc, ← g2, ← q2, ← p2]
  exact s1

theorem parseDsaParams_of {seq t1 pi qi gi t2 : GoString} {p q g : Int} (hl : seq.length < 2 ^ 31)
    (hs : IsElement 0x30 seq (pi ++ qi ++ gi ++ t2)) (hp : IsInteger pi p) (hq : IsInteger qi q) (hg : IsInteger gi g) :
    parseDsaParams (seq ++ t1) = some (p, q, g) := by
  have l1 := isElement_length hs
  have d : derTake 0x30 (seq ++ t1) = some (pi ++ qi ++ gi ++ t2, t1) := derTake_iff.2 ⟨seq, hs, rfl, by omega⟩
  simp only [List.length_append] at l1
  rw [List.append_assoc, List.append_assoc] at d
  obtain ⟨pc, e1⟩ := takeInt_of (r := qi ++ (gi ++ t2)) hp (by omega)
  obtain ⟨qc, e2⟩ := takeInt_of (r := gi ++ t2) hq (by omega)
  obtain ⟨gc, e3⟩ := takeInt_of (r := t2) hg (by omega)
  unfold parseDsaParams
  simp only [d, e1, e2, e3]

/-- What `x509.ParsePKIXPublicKey` finds, in the terms of the standards. -/
def OtherPub.Spki (raw : GoString) : OtherPub → Prop
  | .dsa p q g y => DsaSpki raw p q g y
  | .ec c key => ∃ d, (d = p224 ∧ c = curve224 ∨ d ∈ sshCurves ∧ curveOfOid d.oid = some c) ∧ EcSpki raw d key
  | .ed25519 key => EdSpki raw key

theorem parsePKIXOther_sound {raw : GoString} {k : OtherPub} (h : parsePKIXOther raw = some k) : k.Spki raw := by
  obtain ⟨oid, params, key, h1, h2, _⟩ := parsePKIXOther_some h
  unfold parseOtherKey at h2
  split at h2
  · rename_i ho
    subst ho
    split at h2
    rotate_left
    · simp at h2
    rename_i y yc hy
    obtain ⟨yi, y1, y2, _, y3⟩ := derTakeInt_iff.1 hy
    rw [List.append_nil] at y2
    subst y2
    split at h2
    · simp at h2
    rename_i p q g hp
    obtain ⟨seq, pi, qi, gi, t1, t2, rfl, s1, s2, s3, s4⟩ := parseDsaParams_some hp
    split at h2
    rotate_left
    · simp at h2
    rename_i hpos
    simp only [Option.some.injEq] at h2
    subst h2
    exact ⟨key, seq, pi, qi, gi, t1, t2, h1, s1, s2, s3, s4, ⟨yc, y1, y3⟩, hpos⟩
  split at h2
  · rename_i ho
    subst ho
    split at h2
    · simp at h2
    rename_i co t hc
    obtain ⟨o, o1, o2, _⟩ := derTake_iff.1 hc
    subst o2
    split at h2
    · simp at h2
    rename_i c hcur
    split at h2
    rotate_left
    · simp at h2
    rename_i hpt
    simp only [Option.some.injEq] at h2
    subst h2
    rcases curveOfOid_some hcur with ⟨rfl, rfl⟩ | ⟨d, kind, hd, rfl, hm, _⟩
    · exact ⟨p224, .inl ⟨rfl, rfl⟩, o, t, h1, o1, p224_matches.point.1 hpt⟩
    · exact ⟨d, .inr ⟨hd, hcur⟩, o, t, h1, o1, hm.point.1 hpt⟩
  split at h2
  · rename_i ho
    subst ho
    split at h2
    rotate_left
    · simp at h2
    rename_i hk
    simp only [Option.some.injEq] at h2
    subst h2
    obtain ⟨rfl, hk⟩ := hk
    exact ⟨h1, hk⟩
  · simp at h2

theorem parsePKIXOther_complete {raw : GoString} {k : OtherPub} (hl : raw.length < 2 ^ 31) (h : k.Spki raw) :
    parsePKIXOther raw = some k ∧ parsePKIX raw = .other := by
  cases k with
  | dsa p q g y =>
    obtain ⟨key, seq, pi, qi, gi, t1, t2, h1, s1, s2, s3, s4, ⟨yc, y1, y2⟩, hpos⟩ := h
    have l1 := spki_length h1
    simp only [List.length_append] at l1
    have l2 := isElement_length y1
    refine ⟨?_, parsePKIX_of h1 hl (by decide)⟩
    rw [parsePKIXOther_of h1 hl]
    unfold parseOtherKey
    have e : derTakeInt key = some (y, yc, []) := derTakeInt_iff.2 ⟨key, y1, by simp, by omega, y2⟩
    rw [if_pos (by decide), e]
    dsimp only
    rw [parseDsaParams_of (by omega) s1 s2 s3 s4]
    dsimp only
    rw [if_pos hpos]
  | ec c key =>
    obtain ⟨d, hd, o, t, h1, h2, h3⟩ := h
    have l1 := spki_length h1
    simp only [List.length_append] at l1
    have l2 := isElement_length h2
    refine ⟨?_, parsePKIX_of h1 hl (by decide)⟩
    have hc : curveOfOid d.oid = some c ∧ c.point key = true := by
      rcases hd with ⟨rfl, rfl⟩ | ⟨hd, hc⟩
      · exact ⟨rfl, p224_matches.point.2 h3⟩
      · obtain ⟨c', _, hm, _, _, _, hc', _⟩ := curve_cases hd
        rw [hc, Option.some.injEq] at hc'
        subst hc'
        exact ⟨hc, hm.point.2 h3⟩
    rw [parsePKIXOther_of h1 hl]
    unfold parseOtherKey
    have e : derTake 0x06 (o ++ t) = some (d.oid, t) := derTake_iff.2 ⟨o, h2, rfl, by omega⟩
    rw [if_neg (by decide), if_pos (by decide), e]
    dsimp only
    rw [hc.1]
    dsimp only
    rw [if_pos hc.2]
  | ed25519 key =>
    obtain ⟨h1, h2⟩ := h
    refine ⟨?_, parsePKIX_of h1 hl (by decide)⟩
    rw [parsePKIXOther_of h1 hl]
    unfold parseOtherKey
    rw [if_neg (by decide), if_neg (by decide), if_pos (by decide), if_pos ⟨rfl, h2⟩]

/-! ## The SSH form -/

theorem isMpint_iff {raw : GoString} {v : Int} : IsMpint raw v ↔ (intBytes v).length < 2 ^ 32 ∧ raw = sshString (intBytes v) := by
  constructor
  · rintro ⟨c, h1, h2, h3⟩
    rw [isString_iff] at h1
    rw [signedBE_eq] at h2
    have h4 := h3 (intBytes v) (by rw [signedBE_eq, bytesInt_intBytes])
    have h5 := intBytes_bytesInt_length c
    rw [h2] at h5
    have : c = intBytes v := bytesInt_inj (by omega) (by rw [h2, bytesInt_intBytes])
    rw [← this]
    exact h1
  · rintro ⟨h1, rfl⟩
    refine ⟨_, isString_iff.2 ⟨h1, rfl⟩, by rw [signedBE_eq, bytesInt_intBytes], ?_⟩
    intro c hc
    rw [signedBE_eq] at hc
    rw [← hc]
    exact intBytes_bytesInt_length c

theorem isInteger_length {raw : GoString} {v : Int} (h : IsInteger raw v) (hv : 0 < v) : (intBytes v).length < raw.length := by
  obtain ⟨c, h1, h2⟩ := h
  rw [derInteger_iff, if_neg (by omega)] at h2
  rw [← h2]
  exact isElement_length h1

/-- Every key of another algorithm than RSA that is taken over into SSH. -/
theorem pkixToSsh_other_iff {raw t r : GoString} (hl : raw.length < 2 ^ 31) :
    pkixToSsh raw = some (some (.other t r)) ↔ OtherKey raw t (SshPub.other t r).wire := by
  constructor
  · intro h
    unfold pkixToSsh at h
    split at h
    · simp at h
    · simp at h
    split at h
    · simp at h
    · simp at h
    rename_i kind rest hk
    simp only [Option.some.injEq, SshPub.other.injEq] at h
    obtain ⟨rfl, rfl⟩ := h
    rw [Option.map_eq_some_iff] at hk
    obtain ⟨k, hk1, hk2⟩ := hk
    have hs := parsePKIXOther_sound hk1
    cases k with
    | dsa p q g y =>
      simp only [OtherPub.toSsh, Option.some.injEq, Prod.mk.injEq] at hk2
      obtain ⟨rfl, rfl⟩ := hk2
      have hs' := hs
      obtain ⟨key, seq, pi, qi, gi, t1, t2, h1, s1, s2, s3, s4, s5, p1, p2, p3, p4⟩ := hs'
      have l1 := spki_length h1
      have l2 := isElement_length s1
      simp only [List.length_append] at l1 l2
      have m1 := isInteger_length s2 p1
      have m2 := isInteger_length s3 p2
      have m3 := isInteger_length s4 p3
      have m4 := isInteger_length s5 p4
      have := OtherKey.dsa hs (isString_iff.2 ⟨by decide, rfl⟩) (isMpint_iff.2 ⟨by omega, rfl⟩) (isMpint_iff.2 ⟨by omega, rfl⟩)
        (isMpint_iff.2 ⟨by omega, rfl⟩) (isMpint_iff.2 ⟨by omega, rfl⟩)
      simpa [SshPub.wire, dsaWire, PkixKind.name] using this
    | ec c key =>
      simp only [OtherPub.toSsh, Option.map_eq_some_iff] at hk2
      obtain ⟨kind', hk2, hk3⟩ := hk2
      simp only [Prod.mk.injEq] at hk3
      obtain ⟨rfl, rfl⟩ := hk3
      obtain ⟨d, hd, he⟩ := hs
      rcases hd with ⟨rfl, rfl⟩ | ⟨hd, hc⟩
      · simp [curve224] at hk2
      obtain ⟨c', kind, hm, hkind, hid, hname, hc', _⟩ := curve_cases hd
      rw [hc, Option.some.injEq] at hc'
      subst hc'
      rw [hk2, Option.some.injEq] at hkind
      subst hkind
      have hlen : key.length < 2 ^ 31 := by
        obtain ⟨o, t, h1, _⟩ := he
        have := spki_length h1
        omega
      have hn : d.name.length < 100 := by
        clear * - hd
        simp only [sshCurves, List.mem_cons, List.not_mem_nil, or_false] at hd
        rcases hd with rfl | rfl | rfl <;> decide
      have hn' : (gs! "ecdsa-sha2-").length = 11 := rfl
      have := OtherKey.ecdsa hd he (isString_iff.2 ⟨by rw [List.length_append]; omega, rfl⟩) (isString_iff.2 ⟨by omega, rfl⟩)
        (isString_iff.2 ⟨by omega, rfl⟩)
      rw [hname, hid, SshPub.wire, ← List.append_assoc]
      exact this
    | ed25519 key =>
      simp only [OtherPub.toSsh, Option.some.injEq, Prod.mk.injEq] at hk2
      obtain ⟨rfl, rfl⟩ := hk2
      exact OtherKey.ed25519 hs (isString_iff.2 ⟨by decide, rfl⟩) (isString_iff.2 ⟨by rw [hs.2]; decide, rfl⟩)
  · intro h
    generalize hb : (SshPub.other t r).wire = blob at h
    cases h with
    | @ed25519 key a b h ha hb' =>
      rw [isString_iff] at ha hb'
      obtain ⟨_, rfl⟩ := ha
      obtain ⟨_, rfl⟩ := hb'
      rw [SshPub.wire, List.append_cancel_left_eq] at hb
      subst hb
      obtain ⟨e1, e2⟩ := parsePKIXOther_complete (k := .ed25519 key) hl h
      rw [pkixToSsh, e2, e1]
      rfl
    | @ecdsa key a b d c hc h ha hb' hd =>
      rw [isString_iff] at ha hb' hd
      obtain ⟨_, rfl⟩ := ha
      obtain ⟨_, rfl⟩ := hb'
      obtain ⟨_, rfl⟩ := hd
      rw [SshPub.wire, List.append_assoc, List.append_cancel_left_eq] at hb
      subst hb
      obtain ⟨m, kind, hm, hkind, hid, hname, hoid, _⟩ := curve_cases hc
      obtain ⟨e1, e2⟩ := parsePKIXOther_complete (k := .ec m key) hl ⟨c, .inr ⟨hc, hoid⟩, h⟩
      rw [pkixToSsh, e2, e1]
      simp only [Option.map_some, OtherPub.toSsh, hkind, hid, hname]
    | @dsa a b c d e p q g y h ha hb' hc hd he =>
      rw [isString_iff] at ha
      rw [isMpint_iff] at hb' hc hd he
      obtain ⟨_, rfl⟩ := ha
      obtain ⟨_, rfl⟩ := hb'
      obtain ⟨_, rfl⟩ := hc
      obtain ⟨_, rfl⟩ := hd
      obtain ⟨_, rfl⟩ := he
      rw [SshPub.wire, List.append_assoc, List.append_assoc, List.append_assoc, List.append_cancel_left_eq] at hb
      subst hb
      obtain ⟨e1, e2⟩ := parsePKIXOther_complete (k := .dsa p q g y) hl h
      rw [pkixToSsh, e2, e1]
      simp [OtherPub.toSsh, dsaWire, PkixKind.name]

/-! ## Keys in lines -/

theorem sshTakeEC_iff {l r id key : GoString} {kind : PkixKind} :
    sshTakeEC l = some (kind, id, key, r) ↔ ∃ d ∈ sshCurves, id = d.name ∧ kind.name = gs! "ecdsa-sha2-" ++ d.name ∧
      ∃ a b, l = a ++ b ++ r ∧ IsString a d.name ∧ IsString b key ∧ d.IsPoint key := by
  have hinj : ∀ k k' : PkixKind, k.name = k'.name → k = k' := by
    intro k k' h; cases k <;> cases k' <;> first | rfl | (revert h; decide)
  constructor
  · intro h
    unfold sshTakeEC at h
    split at h
    · simp at h
    rename_i id' l' h1
    split at h
    · simp at h
    rename_i c hc
    split at h
    rotate_left
    · simp at h
    rename_i kind' key' r' hk h2
    split at h
    rotate_left
    · simp at h
    rename_i hp
    simp only [Option.some.injEq, Prod.mk.injEq] at h
    obtain ⟨rfl, rfl, rfl, rfl⟩ := h
    obtain ⟨d, kind, hd, rfl, hm, hk', hn⟩ := curveOfId_some hc
    rw [hk, Option.some.injEq] at hk'
    subst hk'
    obtain ⟨rfl, l1⟩ := sshTake_some h1
    obtain ⟨rfl, l2⟩ := sshTake_some h2
    exact ⟨d, hd, rfl, hn, _, _, by rw [List.append_assoc], isString_iff.2 ⟨l1, rfl⟩, isString_iff.2 ⟨l2, rfl⟩, hm.point.1 hp⟩
  · rintro ⟨d, hd, rfl, hn, a, b, rfl, ha, hb, hp⟩
    obtain ⟨c, kind', hm, hk, _, hn', _, hc, _⟩ := curve_cases hd
    rw [isString_iff] at ha hb
    obtain ⟨la, rfl⟩ := ha
    obtain ⟨lb, rfl⟩ := hb
    have hkk : kind' = kind := hinj _ _ (hn'.trans hn.symm)
    subst hkk
    unfold sshTakeEC
    rw [List.append_assoc, sshTake_string la]
    dsimp only
    rw [hc]
    dsimp only
    rw [hk, sshTake_string lb]
    dsimp only
    rw [if_pos (hm.point.2 hp)]

theorem curve_name {d : CurveData} (h : d ∈ sshCurves) :
    gs! "ecdsa-sha2-" ++ d.name = gs! "ecdsa-sha2-nistp256" ∨ gs! "ecdsa-sha2-" ++ d.name = gs! "ecdsa-sha2-nistp384" ∨
      gs! "ecdsa-sha2-" ++ d.name = gs! "ecdsa-sha2-nistp521" := by
  simp only [sshCurves, List.mem_cons, List.not_mem_nil, or_false] at h
  rcases h with rfl | rfl | rfl
  · exact .inl rfl
  · exact .inr (.inl rfl)
  · exact .inr (.inr rfl)

theorem name_curve {n : GoString} (h : n = gs! "ecdsa-sha2-nistp256" ∨ n = gs! "ecdsa-sha2-nistp384" ∨ n = gs! "ecdsa-sha2-nistp521") :
    ∃ d ∈ sshCurves, n = gs! "ecdsa-sha2-" ++ d.name := by
  rcases h with rfl | rfl | rfl
  · exact ⟨_, List.mem_cons_self .., rfl⟩
  · exact ⟨_, List.mem_cons_of_mem _ (List.mem_cons_self ..), rfl⟩
  · exact ⟨_, List.mem_cons_of_mem _ (List.mem_cons_of_mem _ (List.mem_cons_self ..)), rfl⟩

theorem curve_kind {d : CurveData} (h : d ∈ sshCurves) : ∃ kind : PkixKind, kind.name = gs! "ecdsa-sha2-" ++ d.name :=
  (curve_cases h).elim fun _ h => h.elim fun k h => ⟨k, h.2.2.2.1⟩

/-- The keys in lines that are neither RSA keys nor certificates. -/
theorem sshPlain_iff {raw t : GoString} :
    OtherBlob raw t ↔ ∃ algo rest k, sshTake raw = some (algo, rest) ∧ sshPlain algo rest = some (k, []) ∧ k.type = t := by
  constructor
  · intro h
    cases h with
    | @ed25519 a b key ha hb hl =>
      rw [isString_iff] at ha hb
      obtain ⟨la, rfl⟩ := ha
      obtain ⟨lb, rfl⟩ := hb
      have e := sshTake_string lb []
      rw [List.append_nil] at e
      refine ⟨_, _, .other (gs! "ssh-ed25519") (sshString key), sshTake_string la _, ?_, rfl⟩
      unfold sshPlain
      rw [if_neg (by decide), if_neg (by decide), if_pos rfl, e]
      dsimp only
      rw [if_pos hl]
    | @ecdsa a b d key c c' hc hc' ha hb hd hk =>
      obtain ⟨kind, hkind⟩ := curve_kind hc
      rw [isString_iff] at ha
      obtain ⟨la, rfl⟩ := ha
      have e := sshTakeEC_iff.2 ⟨c, hc, rfl, hkind, b, d, (List.append_nil _).symm, hb, hd, hk⟩
      refine ⟨gs! "ecdsa-sha2-" ++ c'.name, b ++ d, .other kind.name (sshString c.name ++ sshString key), ?_, ?_, hkind⟩
      · rw [List.append_assoc]; exact sshTake_string la _
      · have h1 := curve_name hc'
        unfold sshPlain
        rw [if_neg (by rcases h1 with h1 | h1 | h1 <;> rw [h1] <;> decide), if_pos h1, e]
    | @dsa a b c d e p q g y ha hb hc hd he hp =>
      rw [isString_iff] at ha hb hc hd he
      obtain ⟨la, rfl⟩ := ha
      obtain ⟨lb, rfl⟩ := hb
      obtain ⟨lc, rfl⟩ := hc
      obtain ⟨ld, rfl⟩ := hd
      obtain ⟨le, rfl⟩ := he
      rw [signedBE_eq] at hp
      have e := sshTake_string le []
      rw [List.append_nil] at e
      simp only [List.append_assoc]
      refine ⟨_, _, .other (gs! "ssh-dss") (dsaWire (bytesInt p) (bytesInt q) (bytesInt g) (bytesInt y)), sshTake_string la _, ?_, rfl⟩
      unfold sshPlain sshTakeDSA
      simp only [if_true, sshTake_string lb, sshTake_string lc, sshTake_string ld, e, hp, and_self]
    | @skEcdsa a b d e key app c hc hn ha hb hd hk he =>
      obtain ⟨kind, hkind⟩ := curve_kind hc
      rw [isString_iff] at ha he
      obtain ⟨la, rfl⟩ := ha
      obtain ⟨le, rfl⟩ := he
      have h1 := (sshTakeEC_iff (r := sshString app)).2 ⟨c, hc, rfl, hkind, b, d, rfl, hb, hd, hk⟩
      have h2 := sshTake_string le []
      rw [List.append_nil] at h2
      have hp : kind = .p256 := by
        rw [hn] at hkind
        revert hkind
        cases kind <;> first | (intro; rfl) | decide
      subst hp
      refine ⟨gs! "sk-ecdsa-sha2-nistp256@openssh.com", b ++ d ++ sshString app,
        .other (gs! "sk-ecdsa-sha2-nistp256@openssh.com") (sshString c.name ++ sshString key ++ sshString app), ?_, ?_, rfl⟩
      · simp only [List.append_assoc]; exact sshTake_string la _
      · unfold sshPlain
        rw [if_neg (by decide), if_neg (by decide), if_neg (by decide), if_pos rfl, h1]
        dsimp only
        rw [h2]
    | @skEd25519 a b c key app ha hb hl hc =>
      rw [isString_iff] at ha hb hc
      obtain ⟨la, rfl⟩ := ha
      obtain ⟨lb, rfl⟩ := hb
      obtain ⟨lc, rfl⟩ := hc
      have h2 := sshTake_string lc []
      rw [List.append_nil] at h2
      refine ⟨gs! "sk-ssh-ed25519@openssh.com", sshString key ++ sshString app,
        .other (gs! "sk-ssh-ed25519@openssh.com") (sshString key ++ sshString app), ?_, ?_, rfl⟩
      · rw [List.append_assoc]; exact sshTake_string la _
      · unfold sshPlain
        rw [if_neg (by decide), if_neg (by decide), if_neg (by decide), if_neg (by decide), if_pos rfl, sshTake_string lb]
        dsimp only
        rw [h2]
        dsimp only
        rw [if_pos hl]
  · rintro ⟨algo, rest, k, h1, h2, rfl⟩
    obtain ⟨rfl, la⟩ := sshTake_some h1
    unfold sshPlain at h2
    split at h2
    · rename_i ha
      subst ha
      unfold sshTakeDSA at h2
      split at h2
      · simp at h2
      rename_i p q g y l h3
      simp only [Option.some.injEq, Prod.mk.injEq] at h2
      obtain ⟨rfl, rfl⟩ := h2
      cases t1 : sshTake rest with
      | none => rw [t1] at h3; simp at h3
      | some x =>
      obtain ⟨pb, l1⟩ := x
      rw [t1] at h3
      dsimp only at h3
      cases t2 : sshTake l1 with
      | none => rw [t2] at h3; simp at h3
      | some x =>
      obtain ⟨qb, l2⟩ := x
      rw [t2] at h3
      dsimp only at h3
      cases t3 : sshTake l2 with
      | none => rw [t3] at h3; simp at h3
      | some x =>
      obtain ⟨gb, l3⟩ := x
      rw [t3] at h3
      dsimp only at h3
      cases t4 : sshTake l3 with
      | none => rw [t4] at h3; simp at h3
      | some x =>
      obtain ⟨yb, l4⟩ := x
      rw [t4] at h3
      dsimp only at h3
      split at h3
      rotate_left
      · simp at h3
      rename_i hp
      simp only [Option.some.injEq, Prod.mk.injEq] at h3
      obtain ⟨_, rfl⟩ := h3
      obtain ⟨rfl, m1⟩ := sshTake_some t1
      obtain ⟨rfl, m2⟩ := sshTake_some t2
      obtain ⟨rfl, m3⟩ := sshTake_some t3
      obtain ⟨rfl, m4⟩ := sshTake_some t4
      rw [← signedBE_eq] at hp
      have := OtherBlob.dsa (isString_iff.2 ⟨la, rfl⟩) (isString_iff.2 ⟨m1, rfl⟩) (isString_iff.2 ⟨m2, rfl⟩) (isString_iff.2 ⟨m3, rfl⟩)
        (isString_iff.2 ⟨m4, rfl⟩) hp
      simpa [SshPub.type] using this
    split at h2
    · rename_i ha
      obtain ⟨c', hc', rfl⟩ := name_curve ha
      split at h2
      · simp at h2
      rename_i kind id key l h3
      simp only [Option.some.injEq, Prod.mk.injEq] at h2
      obtain ⟨rfl, rfl⟩ := h2
      obtain ⟨c, hc, rfl, hkind, a, b, rfl, g1, g2, g3⟩ := sshTakeEC_iff.1 h3
      rw [SshPub.type, hkind, List.append_nil, ← List.append_assoc]
      exact OtherBlob.ecdsa hc hc' (isString_iff.2 ⟨la, rfl⟩) g1 g2 g3
    split at h2
    · rename_i ha
      subst ha
      split at h2
      · simp at h2
      rename_i key l h3
      split at h2
      rotate_left
      · simp at h2
      rename_i hl
      simp only [Option.some.injEq, Prod.mk.injEq] at h2
      obtain ⟨rfl, rfl⟩ := h2
      obtain ⟨rfl, m⟩ := sshTake_some h3
      rw [List.append_nil]
      exact OtherBlob.ed25519 (isString_iff.2 ⟨la, rfl⟩) (isString_iff.2 ⟨m, rfl⟩) hl
    split at h2
    · rename_i ha
      subst ha
      split at h2
      rotate_left
      · simp at h2
      rename_i id key l h3
      split at h2
      · simp at h2
      rename_i app l' h4
      simp only [Option.some.injEq, Prod.mk.injEq] at h2
      obtain ⟨rfl, rfl⟩ := h2
      obtain ⟨c, hc, rfl, hkind, a, b, rfl, g1, g2, g3⟩ := sshTakeEC_iff.1 h3
      obtain ⟨rfl, m⟩ := sshTake_some h4
      have hn : c.name = gs! "nistp256" := by
        have : gs! "ecdsa-sha2-" ++ c.name = gs! "ecdsa-sha2-" ++ gs! "nistp256" := hkind.symm
        exact List.append_cancel_left this
      have := OtherBlob.skEcdsa hc hn (isString_iff.2 ⟨la, rfl⟩) g1 g2 g3 (isString_iff.2 ⟨m, rfl⟩)
      simpa [SshPub.type] using this
    split at h2
    · rename_i ha
      subst ha
      split at h2
      · simp at h2
      rename_i key l h3
      split at h2
      · simp at h2
      rename_i app l' h4
      split at h2
      rotate_left
      · simp at h2
      rename_i hl
      simp only [Option.some.injEq, Prod.mk.injEq] at h2
      obtain ⟨rfl, rfl⟩ := h2
      obtain ⟨rfl, m1⟩ := sshTake_some h3
      obtain ⟨rfl, m2⟩ := sshTake_some h4
      have := OtherBlob.skEd25519 (isString_iff.2 ⟨la, rfl⟩) (isString_iff.2 ⟨m1, rfl⟩) hl (isString_iff.2 ⟨m2, rfl⟩)
      simpa [SshPub.type] using this
    · simp at h2

theorem sshPlain_algo {algo rest r : GoString} {k : SshPub} (h : sshPlain algo rest = some (k, r)) :
    certTypes.find? (fun x => x.2 = algo) = none ∧ algo ≠ gs! "ssh-rsa" := by
  unfold sshPlain at h
  split at h
  · rename_i e; rw [e]; decide
  split at h
  · rename_i e; rcases e with e | e | e <;> rw [e] <;> decide
  split at h
  · rename_i e; rw [e]; decide
  split at h
  · rename_i e; rw [e]; decide
  split at h
  · rename_i e; rw [e]; decide
  · simp at h

/-- A key in a line that is neither an RSA key nor a certificate is read, and with the type that it names. -/
theorem sshParse_plain {raw t : GoString} (h : OtherBlob raw t) : ∃ w, sshParse raw = some (.other t w) := by
  obtain ⟨algo, rest, k, h1, h2, rfl⟩ := sshPlain_iff.1 h
  obtain ⟨t, w, rfl, _⟩ := sshPlain_other h2
  obtain ⟨h3, h4⟩ := sshPlain_algo h2
  refine ⟨w, ?_⟩
  rw [sshParse, h1]
  dsimp only
  rw [if_neg h4, sshOther.eq_def]
  dsimp only
  rw [h3]
  dsimp only
  rw [h2]
  rfl

/-- Conversely, whatever is read with one of these types is such a key, or a certificate. -/
theorem sshParse_other {raw t w : GoString} (h : sshParse raw = some (.other t w)) :
    OtherBlob raw t ∨ ∃ a r name, raw = a ++ r ∧ IsString a name ∧ name ∈ certTypes.map (·.2) := by
  unfold sshParse at h
  split at h
  · simp at h
  rename_i algo rest h1
  split at h
  · unfold sshParseRsa at h
    repeat' split at h
    all_goals simp at h
  · rw [sshOther.eq_def] at h
    dsimp only at h
    split at h
    · split at h
      · rename_i k h2
        simp only [Option.some.injEq] at h
        subst h
        exact .inl (sshPlain_iff.2 ⟨algo, rest, _, h1, h2, rfl⟩)
      · simp at h
    · rename_i plain cert hf
      obtain ⟨rfl, la⟩ := sshTake_some h1
      have hm := List.mem_of_find?_eq_some hf
      have he := List.find?_some hf
      simp only [decide_eq_true_eq] at he
      exact .inr ⟨_, _, algo, rfl, isString_iff.2 ⟨la, rfl⟩, List.mem_map.2 ⟨_, hm, he⟩⟩

end GoIdentity
