import Verif.Spec.KeyFormats
import Verif.Lemmas.Pem
import Verif.Lemmas.Sha
/-!
# RSA keys as bytes: the model against RFC 4251 and RFC 4253
-/
namespace GoIdentity
open Sha (beNat natBE)
set_option linter.unusedSectionVars false
variable [Ext]

theorem unsignedBE_eq (b : GoString) : unsignedBE b = beNat b := rfl

theorem beNat_notBytes (l : GoString) : beNat (notBytes l) + beNat l + 1 = 256 ^ l.length := by
  induction l with
  | nil => simp [beNat_nil, notBytes]
  | cons b t ih =>
    have hb := b.toNat_lt
    have e : notBytes (b :: t) = UInt8.ofNat (255 - b.toNat) :: notBytes t := rfl
    rw [e, beNat_cons, beNat_cons, notBytes_length, List.length_cons, Nat.pow_succ]
    have h1 : (UInt8.ofNat (255 - b.toNat)).toNat = 255 - b.toNat := by rw [UInt8.toNat_ofNat']; omega
    rw [h1, ← ih]
    generalize beNat (notBytes t) = x at *
    generalize beNat t = y at *
    obtain ⟨c, hc⟩ : ∃ c, c = 255 - b.toNat := ⟨_, rfl⟩
    have : b.toNat = 255 - c := by omega
    rw [this]
    have hc' : c ≤ 255 := by omega
    have e2 : 255 - (255 - c) = c := by omega
    rw [e2]
    have : c * (x + y + 1) + (255 - c) * (x + y + 1) = 255 * (x + y + 1) := by rw [← Nat.add_mul]; congr 1; omega
    omega

theorem signedBE_eq (b : GoString) : signedBE b = bytesInt b := by
  cases b with
  | nil => rfl
  | cons x t =>
    unfold signedBE bytesInt highBit
    dsimp only
    by_cases h : x.toNat < 128
    · rw [if_pos h, if_neg (by simp; omega), unsignedBE_eq]
    · rw [if_neg h, if_pos (by simp; omega), unsignedBE_eq]
      have := beNat_notBytes (x :: t)
      have : ((256 ^ (x :: t).length : Nat) : Int) = beNat (notBytes (x :: t)) + beNat (x :: t) + 1 := by rw [← this]; simp
      rw [Int.natCast_pow] at this
      have e : ((256 : Nat) : Int) = 256 := rfl
      rw [e] at this
      omega

theorem isString_iff {raw s : GoString} : IsString raw s ↔ s.length < 2 ^ 32 ∧ raw = sshString s := by
  constructor
  · rintro ⟨len, h1, h2, rfl⟩
    have h3 := beNat_lt len
    rw [unsignedBE_eq] at h2
    rw [h1] at h3
    refine ⟨by omega, ?_⟩
    rw [sshString, ← h2, ← h1, natBE_beNat]
  · rintro ⟨h, rfl⟩
    refine ⟨natBE 4 s.length, Sha.natBE_length .., ?_, rfl⟩
    rw [unsignedBE_eq, beNat_natBE, Nat.mod_eq_of_lt (by omega)]

theorem sshTake_some {l s r : GoString} (h : sshTake l = some (s, r)) : l = sshString s ++ r ∧ s.length < 2 ^ 32 := by
  refine ⟨?_, sshTake_length h⟩
  unfold sshTake at h
  split at h
  · simp at h
  rename_i h4
  dsimp only at h
  split at h
  · simp at h
  simp only [Option.some.injEq, Prod.mk.injEq] at h
  obtain ⟨rfl, rfl⟩ := h
  have hl : (l.take 4).length = 4 := by rw [List.length_take]; omega
  rw [sshString, List.length_take, Nat.min_eq_left (by omega), List.append_assoc, List.take_append_drop]
  have := natBE_beNat (l.take 4)
  rw [hl] at this
  rw [this, List.take_append_drop]

/-- What the SSH library reads as an RSA key. -/
theorem sshParse_rsa_iff {raw : GoString} {e : Nat} {n : Int} :
    sshParse raw = some (.rsa e n) ↔ OddExponent e ∧ RsaBlob raw e n := by
  constructor
  · intro h
    obtain ⟨⟨h1, h2, h3⟩, _, a, eb, nb, r1, r2, t1, rfl, t2, t3, b1, b2⟩ := sshParse_rsa_inv h
    refine ⟨⟨by omega, by omega, by omega⟩, ?_⟩
    obtain ⟨s1, l1⟩ := sshTake_some t1
    obtain ⟨s2, l2⟩ := sshTake_some t2
    obtain ⟨s3, l3⟩ := sshTake_some t3
    refine ⟨_, _, _, eb, nb, ?_, isString_iff.2 ⟨l1, rfl⟩, isString_iff.2 ⟨l2, rfl⟩, isString_iff.2 ⟨l3, rfl⟩, ?_, ?_⟩
    · rw [s1, s2, s3]; simp
    · rw [signedBE_eq, b1]
    · rw [signedBE_eq, b2]
  · rintro ⟨⟨h1, h2, h3⟩, a, b, c, eb, nb, rfl, ha, hb, hc, be, bn⟩
    rw [isString_iff] at ha hb hc
    obtain ⟨la, rfl⟩ := ha
    obtain ⟨lb, rfl⟩ := hb
    obtain ⟨lc, rfl⟩ := hc
    rw [signedBE_eq] at be bn
    unfold sshParse
    rw [List.append_assoc, sshTake_string la]
    dsimp only
    rw [if_pos rfl, sshParseRsa, sshTake_string lb]
    dsimp only
    have h0 := sshTake_string lc []
    rw [List.append_nil] at h0
    rw [h0]
    dsimp only
    rw [be, bn, if_neg (by omega), if_neg]
    · rfl
    · simp only [Bool.or_eq_true, decide_eq_true_eq, not_or]
      constructor
      · omega
      · omega

theorem wire_blob {e n : Int} {k : Nat} (hk : e = k) (he : (intBytes e).length < 2 ^ 32) (hn : (intBytes n).length < 2 ^ 32) :
    RsaBlob (SshPub.rsa k n).wire e n := by
  subst hk
  refine ⟨_, _, _, intBytes k, intBytes n, rfl, isString_iff.2 ⟨by decide, rfl⟩, isString_iff.2 ⟨he, rfl⟩,
    isString_iff.2 ⟨hn, rfl⟩, ?_, ?_⟩
  · rw [signedBE_eq, bytesInt_intBytes]
  · rw [signedBE_eq, bytesInt_intBytes]

/-- The bytes of an integer are determined by its value and their number. -/
theorem bytesInt_inj {a b : GoString} (hl : a.length = b.length) (h : bytesInt a = bytesInt b) : a = b := by
  have key : ∀ c : GoString, 0 ≤ beNat c ∧ beNat c < 256 ^ c.length := fun c => ⟨Nat.zero_le _, beNat_lt c⟩
  have hb : beNat a = beNat b → a = b := by
    intro h
    rw [← natBE_beNat a, ← natBE_beNat b, h, hl]
  rw [← signedBE_eq, ← signedBE_eq] at h
  apply hb
  have ha := beNat_lt a
  have hb' := beNat_lt b
  rw [hl] at ha
  cases a with
  | nil =>
    cases b with
    | nil => rfl
    | cons => simp at hl
  | cons x t =>
    cases b with
    | nil => simp at hl
    | cons y u =>
      unfold signedBE at h
      simp only [unsignedBE_eq, hl] at h
      have hp : ((256 ^ (y :: u).length : Nat) : Int) = 256 ^ (y :: u).length := by rw [Int.natCast_pow]; rfl
      rw [← hp] at h
      generalize 256 ^ (y :: u).length = P at *
      split at h <;> split at h <;> omega

theorem string_length {raw s : GoString} (h : IsString raw s) : raw.length = 4 + s.length := by
  obtain ⟨len, h1, _, rfl⟩ := h
  rw [List.length_append, h1]

/-- There is only one shortest form: the one the SSH library writes. -/
theorem canonical_iff {raw : GoString} {e : Nat} {n : Int} (he : (intBytes e).length < 2 ^ 32) (hn : (intBytes n).length < 2 ^ 32) :
    CanonicalBlob raw e n ↔ raw = (SshPub.rsa e n).wire := by
  have hw := wire_blob (n := n) rfl he hn
  have hlen : ∀ raw', RsaBlob raw' e n → (SshPub.rsa e n).wire.length ≤ raw'.length ∧
      (raw'.length ≤ (SshPub.rsa e n).wire.length → raw' = (SshPub.rsa e n).wire) := by
    rintro raw' ⟨a, b, c, eb, nb, rfl, ha, hb, hc, he', hn'⟩
    rw [isString_iff] at ha hb hc
    obtain ⟨la, rfl⟩ := ha
    obtain ⟨lb, rfl⟩ := hb
    obtain ⟨lc, rfl⟩ := hc
    rw [signedBE_eq] at he' hn'
    have h1 := intBytes_bytesInt_length eb
    have h2 := intBytes_bytesInt_length nb
    rw [he'] at h1
    rw [hn'] at h2
    simp only [SshPub.wire, sshString, List.length_append, Sha.natBE_length]
    refine ⟨by omega, fun h => ?_⟩
    have e1 : eb = intBytes e := bytesInt_inj (by omega) (by rw [he', bytesInt_intBytes])
    have e2 : nb = intBytes n := bytesInt_inj (by omega) (by rw [hn', bytesInt_intBytes])
    rw [e1, e2]
  constructor
  · rintro ⟨h1, h2⟩
    exact (hlen raw h1).2 (h2 _ hw)
  · rintro rfl
    exact ⟨hw, fun raw' h => (hlen raw' h).1⟩

/-! ## DER and PEM -/

theorem natBytes_unique {bs : GoString} (h : bs.head? ≠ some 0) : natBytes (beNat bs) = bs := by
  cases bs with
  | nil => rfl
  | cons b t =>
    have hb : b.toNat ≠ 0 := by
      intro h0
      apply h
      rw [List.head?_cons, Option.some.injEq]
      exact UInt8.toNat_inj.1 h0
    have hlo : 256 ^ t.length ≤ beNat (b :: t) := by
      rw [beNat_cons]
      have : 1 * 256 ^ t.length ≤ b.toNat * 256 ^ t.length := Nat.mul_le_mul_right _ (by omega)
      omega
    have h1 : (natBytes (beNat (b :: t))).length ≤ (b :: t).length := natBytes_length_le (beNat_lt _)
    have h2 : (b :: t).length ≤ (natBytes (beNat (b :: t))).length := by
      have := lt_natBytes (beNat (b :: t))
      rw [List.length_cons]
      have h3 : 256 ^ t.length < 256 ^ (natBytes (beNat (b :: t))).length := by omega
      exact (Nat.pow_lt_pow_iff_right (by omega)).1 h3
    have hl : (natBytes (beNat (b :: t))).length = (b :: t).length := by omega
    have e1 := natBE_beNat (natBytes (beNat (b :: t)))
    rw [beNat_natBytes, hl, natBE_beNat] at e1
    exact e1.symm

theorem derLength_iff {lb : GoString} {n : Nat} (hn : n < 2 ^ 31) : DerLength lb n ↔ lb = derLenBytes n := by
  unfold DerLength derLenBytes
  constructor
  · rintro (⟨h, b, rfl, rfl⟩ | ⟨h, k, bs, h1, rfl, rfl, h3⟩)
    · rw [if_pos h]; simp
    · rw [if_neg (by omega), unsignedBE_eq, natBytes_unique h3, ← h1]; simp
  · split
    · rintro rfl
      rename_i h
      exact .inl ⟨h, _, by rw [UInt8.toNat_ofNat']; omega, rfl⟩
    · rintro rfl
      rename_i h
      have hl : (natBytes n).length ≤ 4 := natBytes_length_le (by omega)
      refine .inr ⟨by omega, _, natBytes n, ?_, rfl, beNat_natBytes n, ?_⟩
      · rw [UInt8.toNat_ofNat']; omega
      · intro h0
        cases hb : natBytes n with
        | nil => rw [hb] at h0; simp at h0
        | cons b t =>
          rw [hb, List.head?_cons, Option.some.injEq] at h0
          exact natBytes_head hb (by rw [h0]; rfl)

theorem isElement_iff {tag : UInt8} {raw c : GoString} (hc : c.length < 2 ^ 31) : IsElement tag raw c ↔ raw = derElem tag c := by
  unfold IsElement derElem
  constructor
  · rintro ⟨lb, h, rfl⟩
    rw [(derLength_iff hc).1 h]
  · rintro rfl
    exact ⟨_, (derLength_iff hc).2 rfl, rfl⟩

theorem isElement_length {tag : UInt8} {raw c : GoString} (h : IsElement tag raw c) : c.length < raw.length := by
  obtain ⟨lb, _, rfl⟩ := h
  simp only [List.length_append, List.length_cons]
  omega

theorem derInteger_iff {c : GoString} {v : Int} : DerInteger c v ↔ c = if v = 0 then [0] else intBytes v := by
  have hmin : ∀ c' : GoString, c' ≠ [] → bytesInt c' = v → (if v = 0 then [0] else intBytes v).length ≤ c'.length := by
    intro c' hne hv
    split
    · cases c' with
      | nil => exact absurd rfl hne
      | cons => simp
    · have := intBytes_bytesInt_length c'
      rw [hv] at this
      exact this
  have hne : (if v = 0 then [0] else intBytes v) ≠ [] := by
    split
    · simp
    · exact fun h => absurd (intBytes_eq_nil h) ‹_›
  have hval : bytesInt (if v = 0 then [0] else intBytes v) = v := by
    split
    · rename_i h; rw [h]; rfl
    · exact bytesInt_intBytes v
  constructor
  · rintro ⟨h1, h2, h3⟩
    rw [signedBE_eq] at h2
    have := h3 _ hne (by rw [signedBE_eq, hval])
    have := hmin c h1 h2
    exact bytesInt_inj (by omega) (by rw [h2, hval])
  · rintro rfl
    refine ⟨hne, by rw [signedBE_eq, hval], ?_⟩
    intro c' h1 h2
    rw [signedBE_eq] at h2
    exact hmin c' h1 h2

/-- What `x509.MarshalPKIXPublicKey` writes is the DER form, and the only one. -/
theorem rsaSpki_iff {raw : GoString} {e : Nat} {n : Int} (he : 0 < e ∧ e < 2 ^ 63) (hn : (intBytes n).length < 2 ^ 29) :
    RsaSpki raw e n ↔ raw = marshalPKIX e n := by
  have hel : (intBytes e).length ≤ 8 := intBytes_length_of_lt (n := e) (k := 7) (by omega)
  have l1 := derInt_length (n := e) (by omega)
  have l2 := derInt_length (n := n) (by omega)
  have hi := rsaInner_length he hn
  have hb := derElem_length (tag := 0x03) (c := 0 :: rsaInner e n) (by simp; omega)
  rw [List.length_cons] at hb
  have ha : (derElem 0x30 (derElem 0x06 oidRSA ++ [0x05, 0x00])).length ≤ 20 := by decide
  have ho : (derElem 0x06 oidRSA).length ≤ 20 := by decide
  have c1 : (if (n : Int) = 0 then [0] else intBytes n).length < 2 ^ 31 := by split <;> simp <;> omega
  have c2 : (if (e : Int) = 0 then [0] else intBytes e).length < 2 ^ 31 := by split <;> simp <;> omega
  constructor
  · rintro ⟨alg, oid, bits, inner, ni, ei, nc, ec, h1, h2, h3, h4, h5, h6, h7, h8, h9⟩
    rw [derInteger_iff] at h8 h9
    subst h8 h9
    rw [isElement_iff c1] at h6
    rw [isElement_iff c2] at h7
    subst h6 h7
    have e5 : ∀ raw, IsElement 0x30 raw (derElem 0x02 (if n = 0 then [0] else intBytes n) ++
        derElem 0x02 (if (e : Int) = 0 then [0] else intBytes e)) ↔ raw = rsaInner e n :=
      fun raw => isElement_iff (by show (derInt n ++ derInt e).length < _; rw [List.length_append]; omega)
    rw [e5] at h5
    subst h5
    rw [isElement_iff (by simp; omega)] at h4
    rw [isElement_iff (by decide)] at h3
    subst h3 h4
    rw [isElement_iff (by show (derElem 0x06 oidRSA ++ [0x05, 0x00]).length < _; rw [List.length_append]; simp; omega)] at h2
    subst h2
    rw [isElement_iff (by
      show (derElem 0x30 (derElem 0x06 oidRSA ++ [0x05, 0x00]) ++ derElem 0x03 (0 :: rsaInner e n)).length < _
      simp only [List.length_append] at *; omega)] at h1
    exact h1
  · rintro rfl
    refine ⟨_, _, _, rsaInner e n, derInt n, derInt e, _, _, (isElement_iff ?_).2 rfl, (isElement_iff ?_).2 rfl,
      (isElement_iff ?_).2 rfl, (isElement_iff ?_).2 rfl, (isElement_iff ?_).2 rfl, (isElement_iff ?_).2 rfl,
      (isElement_iff ?_).2 rfl, derInteger_iff.2 rfl, derInteger_iff.2 rfl⟩
    · show (derElem 0x30 (derElem 0x06 oidRSA ++ [0x05, 0x00]) ++ derElem 0x03 (0 :: rsaInner e n)).length < _
      simp only [List.length_append] at *; omega
    · decide
    · decide
    · simp; omega
    · rw [List.length_append]; omega
    · exact c1
    · exact c2

theorem rsaSpki_length {raw : GoString} {e n : Int} (h : RsaSpki raw e n) : (intBytes n).length < raw.length := by
  obtain ⟨alg, oid, bits, inner, ni, ei, nc, ec, h1, h2, h3, h4, h5, h6, h7, h8, h9⟩ := h
  have l1 := isElement_length h1
  have l4 := isElement_length h4
  have l5 := isElement_length h5
  have l6 := isElement_length h6
  have := intBytes_bytesInt_length nc
  rw [← signedBE_eq, h8.2.1] at this
  simp only [List.length_append, List.length_cons] at l1 l4 l5
  omega

theorem rsaBlob_length {raw : GoString} {e n : Int} (h : RsaBlob raw e n) :
    (intBytes n).length < 2 ^ 32 ∧ (intBytes e).length < 2 ^ 32 ∧ (intBytes n).length < raw.length := by
  obtain ⟨a, b, c, eb, nb, rfl, ha, hb, hc, be, bn⟩ := h
  have l3 := string_length hc
  rw [isString_iff] at ha hb hc
  obtain ⟨lb, rfl⟩ := hb
  obtain ⟨lc, rfl⟩ := hc
  rw [signedBE_eq] at be bn
  have h1 := intBytes_bytesInt_length eb
  have h2 := intBytes_bytesInt_length nb
  rw [be] at h1
  rw [bn] at h2
  rw [List.length_append, List.length_append]
  omega

theorem lines64_iff {text l : GoString} (fuel : Nat) (hf : l.length ≤ fuel) : Lines64 text l ↔ text = wrap64 fuel l := by
  induction fuel generalizing text l with
  | zero =>
    have : l = [] := List.length_eq_zero_iff.1 (by omega)
    subst this
    simp only [wrap64]
    constructor
    · generalize hl : ([] : GoString) = l
      intro h
      cases h with
      | nil => rfl
      | last h => exact absurd hl.symm h
      | more h => have := congrArg List.length hl; simp at this; omega
    · rintro rfl; exact .nil
  | succ fuel ih =>
    cases l with
    | nil =>
      simp only [wrap64]
      constructor
      · generalize hl : ([] : GoString) = l
        intro h
        cases h with
        | nil => rfl
        | last h => exact absurd hl.symm h
        | more h => have := congrArg List.length hl; simp at this; omega
      · rintro rfl; exact .nil
    | cons b t =>
      rw [wrap64]
      by_cases hlen : (b :: t).length ≤ 64
      · rw [List.take_of_length_le hlen, List.drop_of_length_le hlen]
        have hw : wrap64 fuel [] = [] := by cases fuel <;> rfl
        rw [hw]
        constructor
        · generalize hl : b :: t = l at hlen
          intro h
          cases h with
          | nil => simp at hl
          | last h => rfl
          | more h ht =>
            rw [List.length_append] at hlen
            have := List.length_pos_iff.2 ht
            omega
        · rintro rfl; exact .last (by simp) hlen
      · have hd : (b :: t).drop 64 ≠ [] := by
          intro h
          have := congrArg List.length h
          rw [List.length_drop] at this
          simp at this hlen; omega
        have ih' := @ih (wrap64 fuel ((b :: t).drop 64)) ((b :: t).drop 64) (by rw [List.length_drop]; simp at hf ⊢; omega)
        constructor
        · generalize hl : b :: t = l at hlen hd ih' hf
          intro h
          cases h with
          | nil => simp at hl
          | last h h' => omega
          | @more l' text' t' h ht htl =>
            have e1 : (l' ++ t').take 64 = l' := by rw [← h]; simp
            have e2 : (l' ++ t').drop 64 = t' := by rw [← h]; simp
            rw [e1, e2]
            rw [(@ih text' t' (by rw [List.length_append] at hf; omega)).1 htl]
            simp
        · rintro rfl
          have := Lines64.more (l := (b :: t).take 64) (by rw [List.length_take]; omega) hd (ih'.2 rfl)
          rw [List.take_append_drop] at this
          simpa using this

theorem isPem_iff {text der : GoString} : IsPem text der ↔ text = pemEncode (gs! "RSA PUBLIC KEY") der := by
  rw [pemEncode_core]
  unfold IsPem rsaPemCore
  constructor
  · rintro ⟨lines, h, rfl⟩
    rw [(lines64_iff _ (Nat.le_refl _)).1 h]
    simp
  · rintro rfl
    exact ⟨_, (lines64_iff _ (Nat.le_refl _)).2 rfl, by simp⟩

/-! ## Fingerprints -/

theorem md5Steps_length (x : List Nat) (i : Nat) (ts s : List Nat) : (Md5.steps x i ts s).length = s.length := by
  fun_induction Md5.steps x i ts s with
  | case1 i t ts a b c d f k s h ih => rw [ih]; rfl
  | case2 => rfl

theorem flatMap_natLE_length (k : Nat) (l : List Nat) : (l.flatMap (Md5.natLE k)).length = l.length * k := by
  have hk : ∀ k n, (Md5.natLE k n).length = k := by
    intro k
    induction k with
    | zero => intro n; rfl
    | succ k ih => intro n; simp [Md5.natLE, ih]
  induction l with
  | nil => simp
  | cons a l ih => rw [List.flatMap_cons, List.length_append, ih, hk, List.length_cons, Nat.succ_mul, Nat.add_comm]

theorem md5_length (m : GoString) : (Md5.md5 m).length = 16 := by
  rw [Md5.md5, flatMap_natLE_length, Sha.overBlocks_length (m := 4) ?_ _ _ _ _ rfl]
  intro s b hs
  rw [Md5.block, List.length_zipWith, md5Steps_length, Nat.min_self, hs]

theorem hexDigit_fin_inj : ∀ a b : Fin 16, hexDigit a.val = hexDigit b.val → a = b := by decide +kernel

theorem hexPairs_inj : ∀ {a b : GoString}, a.length = b.length →
    joinWith [58] (a.map fun b => [hexDigit (b.toNat / 16), hexDigit (b.toNat % 16)]) =
      joinWith [58] (b.map fun b => [hexDigit (b.toNat / 16), hexDigit (b.toNat % 16)]) → a = b
  | [], [], _, _ => rfl
  | x :: t, y :: u, hl, h => by
    have hx := x.toNat_lt
    have hy := y.toNat_lt
    have key : hexDigit (x.toNat / 16) = hexDigit (y.toNat / 16) → hexDigit (x.toNat % 16) = hexDigit (y.toNat % 16) → x = y := by
      intro h1 h2
      have e1 := Fin.val_eq_of_eq (hexDigit_fin_inj ⟨x.toNat / 16, by omega⟩ ⟨y.toNat / 16, by omega⟩ h1)
      have e2 := Fin.val_eq_of_eq (hexDigit_fin_inj ⟨x.toNat % 16, by omega⟩ ⟨y.toNat % 16, by omega⟩ h2)
      dsimp only at e1 e2
      exact UInt8.toNat_inj.1 (by omega)
    cases t with
    | nil =>
      cases u with
      | nil =>
        simp only [List.map_cons, List.map_nil, joinWith, List.cons.injEq, and_true] at h
        rw [key h.1 h.2]
      | cons => simp at hl
    | cons x' t' =>
      cases u with
      | nil => simp at hl
      | cons y' u' =>
        simp only [List.length_cons, Nat.add_right_cancel_iff] at hl
        have ih := @hexPairs_inj (x' :: t') (y' :: u') (by simp [hl])
        simp only [List.map_cons, joinWith, List.cons_append, List.nil_append, List.cons.injEq, true_and] at h ih
        rw [key h.1 h.2.1, (ih h.2.2).1, (ih h.2.2).2]

theorem b64Char_ne_pad {n : Nat} (h : n < 64) : b64Char n ≠ 61 := by
  have : ∀ n : Fin 64, b64Char n.val ≠ 61 := by decide
  exact this ⟨n, h⟩

/-- The padding depends on the length only. -/
theorem b64Encode_padding (s : GoString) :
    b64Encode s = (b64Encode s).filter (· != 61) ++ List.replicate ((3 - s.length % 3) % 3) 61 := by
  have keep : ∀ {n : Nat} (l : GoString), n < 64 → (b64Char n :: l).filter (· != 61) = b64Char n :: l.filter (· != 61) := by
    intro n l h
    rw [List.filter_cons_of_pos (by simpa using b64Char_ne_pad h)]
  induction s using b64Encode.induct with
  | case1 => rfl
  | case2 a =>
    have ha := a.toNat_lt
    rw [b64Encode, keep _ (by omega), keep _ (by omega)]
    rfl
  | case3 a b =>
    have ha := a.toNat_lt
    have hb := b.toNat_lt
    rw [b64Encode, keep _ (by omega), keep _ (by omega), keep _ (by omega)]
    rfl
  | case4 a b c t ih =>
    have ha := a.toNat_lt
    have hb := b.toNat_lt
    have hc := c.toNat_lt
    rw [b64Encode, keep _ (by omega), keep _ (by omega), keep _ (by omega), keep _ (by omega)]
    have : (a :: b :: c :: t).length % 3 = t.length % 3 := by simp only [List.length_cons]; omega
    rw [this]
    simp only [List.cons_append, List.cons.injEq, true_and]
    exact ih

theorem b64_unpadded_inj {s t : GoString} (hl : s.length = t.length)
    (h : (b64Encode s).filter (· != 61) = (b64Encode t).filter (· != 61)) : s = t := by
  apply b64Encode_inj
  rw [b64Encode_padding s, b64Encode_padding t, h, hl]

end GoIdentity
