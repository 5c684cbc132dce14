import Verif.Model.PublicKeys
import Verif.Lemmas.Numbers
import Verif.Lemmas.Qr
/-!
# Round trips of the key formats: SSH wire form, DER, PEM
-/
set_option linter.unusedSectionVars false
namespace GoIdentity
variable [Ext]
open Sha (beNat natBE)

/-! ## SSH wire form -/

theorem sshTake_string {s : GoString} (h : s.length < 2 ^ 32) (r : GoString) : sshTake (sshString s ++ r) = some (s, r) := by
  have h4 : (natBE 4 s.length).length = 4 := Sha.natBE_length ..
  have ht : (sshString s ++ r).take 4 = natBE 4 s.length := by
    rw [sshString, List.append_assoc, List.take_append_of_le_length (by omega), List.take_of_length_le (by omega)]
  have hd : (sshString s ++ r).drop 4 = s ++ r := by
    rw [sshString, List.append_assoc, List.drop_append, h4, List.drop_of_length_le (by omega)]; simp
  have hb : beNat (natBE 4 s.length) = s.length := by
    rw [beNat_natBE]; exact Nat.mod_eq_of_lt h
  unfold sshTake
  rw [ht, hd, hb, if_neg (by rw [sshString]; simp only [List.length_append, h4]; omega)]
  dsimp only
  rw [if_neg (by simp only [List.length_append]; omega)]
  simp

theorem sshTake_length {l s r : GoString} (h : sshTake l = some (s, r)) : s.length < 2 ^ 32 := by
  unfold sshTake at h
  split at h
  · simp at h
  dsimp only at h
  split at h
  · simp at h
  rename_i h1 h2
  simp only [Option.some.injEq, Prod.mk.injEq] at h
  rw [← h.1, List.length_take]
  have := beNat_lt (l.take 4)
  rw [List.length_take, Nat.min_eq_left (by omega)] at this
  have e : 256 ^ 4 = 2 ^ 32 := by decide
  omega

/-- What the SSH library accepts as an RSA exponent. -/
def SshExponent (e : Nat) : Prop := 3 ≤ e ∧ e < 2 ^ 24 ∧ e % 2 = 1

theorem intBytes_length_of_lt {n k : Nat} (h : n < 128 * 256 ^ k) : (intBytes n).length ≤ k + 1 := by
  have h1 : highBit (natBE (k + 1) n) = false := by
    have : n / 256 ^ k < 128 := Nat.div_lt_of_lt_mul (by rw [Nat.mul_comm]; exact h)
    simp only [natBE, highBit, UInt8.toNat_ofNat', Nat.reducePow, decide_eq_false_iff_not]
    generalize n / 256 ^ k = q at this ⊢
    omega
  have h2 : bytesInt (natBE (k + 1) n) = n := by
    rw [bytesInt, h1, beNat_natBE, Nat.mod_eq_of_lt]
    · rfl
    · rw [Nat.pow_succ]; omega
  have h3 := intBytes_bytesInt_length (natBE (k + 1) n)
  rwa [h2, Sha.natBE_length] at h3

theorem sshParse_rsa {e : Nat} {n : Int} (he : SshExponent e) (hn : (intBytes n).length < 2 ^ 32) :
    sshParse (SshPub.rsa e n).wire = some (.rsa e n) := by
  obtain ⟨h1, h2, h3⟩ := he
  have hel : (intBytes e).length < 2 ^ 32 := by
    have := intBytes_length_of_lt (n := e) (k := 3) (by omega)
    omega
  unfold sshParse
  rw [SshPub.wire, List.append_assoc, sshTake_string (by decide)]
  dsimp only
  rw [if_pos rfl]
  have hs : sshString (intBytes n) = sshString (intBytes n) ++ [] := by simp
  unfold sshParseRsa
  rw [sshTake_string hel]
  dsimp only
  rw [hs, sshTake_string hn]
  dsimp only
  rw [bytesInt_intBytes, bytesInt_intBytes, if_neg (by omega), if_neg]
  · rfl
  · simp only [Bool.or_eq_true, decide_eq_true_eq]; omega

/-- The types of keys that are neither RSA keys nor certificates. -/
theorem sshPlain_other {algo l r : GoString} {k : SshPub} (h : sshPlain algo l = some (k, r)) :
    ∃ t w, k = .other t w ∧ t ∈ otherSshTypes ∧ t ≠ gs! "ssh-rsa" := by
  have hk : ∀ kind : PkixKind, kind.name ∈ otherSshTypes ∧ kind.name ≠ gs! "ssh-rsa" := by
    intro kind; cases kind <;> decide
  unfold sshPlain at h
  repeat' split at h
  all_goals
    first
    | (simp at h; done)
    | (simp only [Option.some.injEq, Prod.mk.injEq] at h
       obtain ⟨rfl, _⟩ := h
       refine ⟨_, _, rfl, ?_⟩
       first
       | decide
       | (rw [‹algo = _›]; decide)
       | exact hk _)

/-- Every key that is not of type RSA is kept with one of the other types. -/
theorem sshOther_other {fuel : Nat} {algo l : GoString} {k : SshPub} (h : sshOther fuel algo l = some k) :
    ∃ t w, k = .other t w ∧ t ∈ otherSshTypes ∧ t ≠ gs! "ssh-rsa" := by
  have hc : ∀ x ∈ certTypes, x.2 ∈ otherSshTypes ∧ x.2 ≠ gs! "ssh-rsa" := by decide
  rw [sshOther.eq_def] at h
  dsimp only at h
  split at h
  · split at h
    · rename_i k' hp
      simp only [Option.some.injEq] at h
      subst h
      exact sshPlain_other hp
    · simp at h
  · repeat' split at h
    all_goals
      first
      | (simp at h; done)
      | (rw [Option.map_eq_some_iff] at h
         obtain ⟨x, hx, rfl⟩ := h
         exact ⟨_, _, rfl, hc x (List.mem_of_find?_eq_some hx)⟩)

/-- What `ssh.ParsePublicKey` accepts as an RSA key. -/
theorem sshParse_rsa_inv {l : GoString} {e : Nat} {n : Int} (h : sshParse l = some (.rsa e n)) :
    SshExponent e ∧ (intBytes n).length < 2 ^ 32 ∧
      ∃ a eb nb r1 r2, sshTake l = some (a, r1) ∧ a = gs! "ssh-rsa" ∧ sshTake r1 = some (eb, r2) ∧ sshTake r2 = some (nb, []) ∧
        bytesInt eb = e ∧ bytesInt nb = n := by
  unfold sshParse at h
  cases h0 : sshTake l with
  | none => rw [h0] at h; simp at h
  | some x =>
    obtain ⟨a, r1⟩ := x
    rw [h0] at h
    dsimp only at h
    split at h
    rotate_left
    · obtain ⟨t, w, hk, _⟩ := sshOther_other h
      simp at hk
    rename_i ha
    unfold sshParseRsa at h
    cases h1 : sshTake r1 with
    | none => rw [h1] at h; simp at h
    | some x =>
      obtain ⟨eb, r2⟩ := x
      rw [h1] at h
      dsimp only at h
      split at h
      rotate_left
      · simp at h
      rename_i nb h2
      split at h
      · simp at h
      rename_i hsz
      split at h
      · simp at h
      rename_i hodd
      simp only [Option.some.injEq, SshPub.rsa.injEq] at h
      simp only [Bool.or_eq_true, decide_eq_true_eq, not_or] at hodd
      obtain ⟨he, hn⟩ := h
      refine ⟨⟨by omega, by omega, by omega⟩, ?_, a, eb, nb, r1, r2, rfl, ha, h1, h2, by omega, hn⟩
      rw [← hn]
      exact Nat.lt_of_le_of_lt (intBytes_bytesInt_length nb) (sshTake_length h2)

/-- Marshalling and parsing again, as in public_key.go:171-175, gives the same key. -/
theorem sshParse_again {l : GoString} {e : Nat} {n : Int} (h : sshParse l = some (.rsa e n)) :
    sshParse (SshPub.rsa e n).wire = some (.rsa e n) :=
  sshParse_rsa (sshParse_rsa_inv h).1 (sshParse_rsa_inv h).2.1

theorem sshParse_type {l : GoString} {k : SshPub} (h : sshParse l = some k) :
    (k.type = gs! "ssh-rsa" ∧ ∃ e n, k = .rsa e n) ∨ (k.type ∈ otherSshTypes ∧ k.type ≠ gs! "ssh-rsa") := by
  cases k with
  | rsa e n => exact .inl ⟨rfl, e, n, rfl⟩
  | other t r =>
    right
    unfold sshParse at h
    split at h
    · simp at h
    split at h
    · unfold sshParseRsa at h
      repeat' split at h
      all_goals first | (simp at h; done) | skip
    obtain ⟨t', w, hk, ht⟩ := sshOther_other h
    simp only [SshPub.other.injEq] at hk
    rw [SshPub.type, hk.1]
    exact ht

/-- The wire form determines the key. -/
theorem wire_rsa_inj {e e' : Nat} {n n' : Int} (he : (intBytes e).length < 2 ^ 32) (he' : (intBytes e').length < 2 ^ 32)
    (hn : (intBytes n).length < 2 ^ 32) (hn' : (intBytes n').length < 2 ^ 32)
    (h : (SshPub.rsa e n).wire = (SshPub.rsa e' n').wire) : e = e' ∧ n = n' := by
  simp only [SshPub.wire, List.append_assoc, List.append_cancel_left_eq] at h
  have h1 := sshTake_string he (sshString (intBytes n))
  rw [h, sshTake_string he'] at h1
  simp only [Option.some.injEq, Prod.mk.injEq] at h1
  have h2 := sshTake_string hn []
  rw [List.append_nil, ← h1.2, ← List.append_nil (sshString (intBytes n')), sshTake_string hn'] at h2
  simp only [Option.some.injEq, Prod.mk.injEq, and_true] at h2
  have e1 := congrArg bytesInt h1.1
  have e2 := congrArg bytesInt h2
  rw [bytesInt_intBytes, bytesInt_intBytes] at e1 e2
  exact ⟨by omega, e2.symm⟩

/-! ## DER -/

theorem derLongLen_append (l r : GoString) (acc : Nat) (hlt : acc * 256 ^ l.length + beNat l < 2 ^ 31)
    (hz : acc ≠ 0 ∨ ∀ b ∈ l.head?, b.toNat ≠ 0) :
    derLongLen l.length acc (l ++ r) = some (acc * 256 ^ l.length + beNat l, r) := by
  induction l generalizing acc with
  | nil => simp [derLongLen, beNat_nil]
  | cons b t ih =>
    rw [List.length_cons, List.cons_append, derLongLen]
    rw [beNat_cons, List.length_cons, Nat.pow_succ] at hlt
    have hp : 1 ≤ 256 ^ t.length := Nat.pow_pos (by decide)
    have h1 : acc * (256 ^ t.length * 256) ≥ acc * 256 := Nat.mul_le_mul_left _ (by omega)
    have e : acc * 256 ^ (t.length + 1) + beNat (b :: t) = (acc * 256 + b.toNat) * 256 ^ t.length + beNat t := by
      rw [beNat_cons, Nat.pow_succ]; grind
    rw [if_neg (by omega), if_neg, ih, e]
    · have : (acc * 256 + b.toNat) * 256 ^ t.length = acc * (256 ^ t.length * 256) + b.toNat * 256 ^ t.length := by grind
      omega
    · left
      rcases hz with hz | hz
      · omega
      · have := hz b (by simp); omega
    · rcases hz with hz | hz
      · omega
      · have := hz b (by simp); omega

theorem derLen_append {n : Nat} (h : n < 2 ^ 31) (r : GoString) : derLen (derLenBytes n ++ r) = some (n, r) := by
  unfold derLenBytes
  split
  · rename_i h1
    have e : (UInt8.ofNat n).toNat = n := by rw [UInt8.toNat_ofNat']; omega
    rw [List.cons_append, derLen, if_pos (by omega), e]; rfl
  · rename_i h1
    have hl : (natBytes n).length ≤ 4 := natBytes_length_le (by omega)
    have hne : (natBytes n) ≠ [] := natBytes_ne_nil (by omega)
    have hlp := List.length_pos_iff.2 hne
    have e : (UInt8.ofNat (128 + (natBytes n).length)).toNat = 128 + (natBytes n).length := by
      rw [UInt8.toNat_ofNat']; omega
    rw [List.cons_append, derLen, e, if_neg (by omega), if_neg (by omega), Nat.add_sub_cancel_left]
    have := derLongLen_append (natBytes n) r 0 (by rw [beNat_natBytes]; omega) (.inr (by
      intro b hb
      cases hc : natBytes n with
      | nil => rw [hc] at hb; simp at hb
      | cons c t =>
        rw [hc] at hb
        simp at hb
        subst hb
        exact natBytes_head hc))
    rw [this, beNat_natBytes]
    simp only [Nat.zero_mul, Nat.zero_add]
    rw [if_neg h1]

theorem derTake_elem {tag : UInt8} {c : GoString} (h : c.length < 2 ^ 31) (r : GoString) :
    derTake tag (derElem tag c ++ r) = some (c, r) := by
  rw [derElem, List.append_assoc, List.cons_append, derTake, if_pos rfl, derLen_append h]
  dsimp only
  rw [if_neg (by simp only [List.length_append]; omega)]
  simp

theorem derElem_length {tag : UInt8} {c : GoString} (h : c.length < 2 ^ 31) :
    (derElem tag c).length ≤ c.length + 6 := by
  have : (derLenBytes c.length).length ≤ 5 := by
    unfold derLenBytes
    split
    · simp
    · have := natBytes_length_le (n := c.length) (k := 4) (by omega)
      simp; omega
  rw [derElem]
  simp only [List.cons_append, List.length_cons, List.length_append]
  omega

theorem highBit_iff {b : UInt8} {t : GoString} : highBit (b :: t) = true ↔ 128 ≤ b.toNat := by simp [highBit]

theorem derIntOk_intBytes {n : Int} (h : n ≠ 0) : derIntOk (intBytes n) = true := by
  have key : ∀ (a b : UInt8) (t : GoString), ¬ (a.toNat = 0 ∧ b.toNat < 128) → ¬ (a.toNat = 255 ∧ 128 ≤ b.toNat) →
      derIntOk (a :: b :: t) = true := by
    intro a b t h1 h2
    simp only [derIntOk, Bool.not_eq_true', Bool.or_eq_false_iff, Bool.and_eq_false_iff, decide_eq_false_iff_not]
    constructor <;> omega
  cases n with
  | ofNat n =>
    have hn : n ≠ 0 := by rintro rfl; exact h rfl
    have hne := natBytes_ne_nil hn
    simp only [intBytes]
    cases hb : natBytes n with
    | nil => exact absurd hb hne
    | cons b t =>
      have h0 := natBytes_head hb
      split
      · rename_i hh
        rw [highBit_iff] at hh
        exact key 0 b t (by omega) (by simp)
      · rename_i hh
        rw [highBit_iff] at hh
        cases t with
        | nil => rfl
        | cons c t => exact key b c t (by omega) (by omega)
  | negSucc n =>
    simp only [intBytes]
    cases hb : natBytes n with
    | nil => rfl
    | cons b t =>
      have h0 := natBytes_head hb
      have hlt := b.toNat_lt
      have hnb : notBytes (b :: t) = UInt8.ofNat (255 - b.toNat) :: notBytes t := rfl
      have hv : (UInt8.ofNat (255 - b.toNat)).toNat = 255 - b.toNat := by rw [UInt8.toNat_ofNat']; omega
      rw [hnb]
      split
      · rename_i hh
        rw [highBit_iff, hv] at hh
        cases hc : notBytes t with
        | nil => rfl
        | cons c u => exact key _ c u (by rw [hv]; omega) (by rw [hv]; omega)
      · rename_i hh
        rw [highBit_iff, hv] at hh
        exact key 255 _ _ (by simp) (by rw [hv]; simp; omega)

theorem derTakeInt_append {n : Int} (h : (intBytes n).length < 2 ^ 30) (r : GoString) :
    derTakeInt (derInt n ++ r) = some (n, if n = 0 then [0] else intBytes n, r) := by
  have hl : (if n = 0 then [0] else intBytes n).length < 2 ^ 31 := by split <;> simp <;> omega
  rw [derTakeInt, derInt, derTake_elem hl]
  dsimp only
  split
  · rename_i h0; subst h0; rfl
  · rename_i h0
    rw [if_pos (derIntOk_intBytes h0), bytesInt_intBytes]

theorem derInt_length {n : Int} (h : (intBytes n).length < 2 ^ 30) : (derInt n).length ≤ (intBytes n).length + 7 := by
  have hl : (if n = 0 then [0] else intBytes n).length ≤ (intBytes n).length + 1 := by split <;> simp
  have := derElem_length (tag := 2) (c := if n = 0 then [0] else intBytes n) (by omega)
  rw [derInt]; omega

theorem rsaInner_parse {e : Nat} {n : Int} (he : 0 < e ∧ e < 2 ^ 63) (hn : (intBytes n).length < 2 ^ 29) :
    parseRsaInner (rsaInner e n) = if n ≤ 0 then none else some (e, n) := by
  have hel : (intBytes e).length ≤ 8 := intBytes_length_of_lt (n := e) (k := 7) (by omega)
  have l1 := derInt_length (n := e) (by omega)
  have l2 := derInt_length (n := n) (by omega)
  have hc : (derInt n ++ derInt e).length < 2 ^ 31 := by rw [List.length_append]; omega
  have e1 : rsaInner e n = derElem 0x30 (derInt n ++ derInt e) ++ [] := by simp [rsaInner]
  unfold parseRsaInner
  rw [e1, derTake_elem hc]
  dsimp only
  rw [derTakeInt_append (by omega)]
  dsimp only
  have e2 : derInt (e : Int) = derInt (e : Int) ++ [] := by simp
  rw [e2, derTakeInt_append (by omega)]
  dsimp only
  rw [if_neg (by rw [if_neg (by omega)]; omega)]
  split
  · rfl
  · rw [if_neg (by omega)]; rfl

theorem rsaInner_length {e : Nat} {n : Int} (he : 0 < e ∧ e < 2 ^ 63) (hn : (intBytes n).length < 2 ^ 29) :
    (rsaInner e n).length ≤ (intBytes n).length + 30 := by
  have hel : (intBytes e).length ≤ 8 := intBytes_length_of_lt (n := e) (k := 7) (by omega)
  have l1 := derInt_length (n := e) (by omega)
  have l2 := derInt_length (n := n) (by omega)
  have := derElem_length (tag := 0x30) (c := derInt n ++ derInt e) (by rw [List.length_append]; omega)
  rw [rsaInner]
  simp only [List.length_append] at this ⊢
  omega

/-- Reading back the DER form of an RSA key: it succeeds exactly if the modulus is positive. -/
theorem parsePKIX_marshal {e : Nat} {n : Int} (he : 0 < e ∧ e < 2 ^ 63) (hn : (intBytes n).length < 2 ^ 29) :
    parsePKIX (marshalPKIX e n) = if n ≤ 0 then .bad else .rsa e n := by
  have hi := rsaInner_length he hn
  have hb := derElem_length (tag := 0x03) (c := 0 :: rsaInner e n) (by simp; omega)
  have ha : (derElem 0x30 (derElem 0x06 oidRSA ++ [0x05, 0x00])).length ≤ 20 := by decide
  have e0 : marshalPKIX e n = derElem 0x30 (derElem 0x30 (derElem 0x06 oidRSA ++ [0x05, 0x00]) ++
      derElem 0x03 (0 :: rsaInner e n)) ++ [] := by simp [marshalPKIX]
  simp only [List.length_cons] at hb
  unfold parsePKIX
  rw [e0, derTake_elem (by rw [List.length_append]; omega)]
  dsimp only
  rw [derTake_elem (by decide)]
  dsimp only
  rw [derTake_elem (by decide)]
  dsimp only
  rw [if_pos rfl, if_pos (by decide)]
  have e1 : derElem 0x03 (0 :: rsaInner e n) = derElem 0x03 (0 :: rsaInner e n) ++ [] := by simp
  rw [e1, derTake_elem (by simp; omega)]
  dsimp only
  have e2 : derBits (0 :: rsaInner e n) = some (rsaInner e n) := by
    rw [derBits, if_neg]
    · rfl
    · simp [Nat.mod_one]
  rw [e2, Option.bind_some, rsaInner_parse he hn]
  by_cases h : n ≤ 0
  · rw [if_pos h, if_pos h]
  · rw [if_neg h, if_neg h]

/-- The DER form determines the key. -/
theorem derElem_inj {tag : UInt8} {c c' : GoString} (h : c.length < 2 ^ 31) (h' : c'.length < 2 ^ 31)
    (he : derElem tag c = derElem tag c') : c = c' := by
  have h1 := derTake_elem (tag := tag) h []
  rw [he, derTake_elem h'] at h1
  simp only [Option.some.injEq, Prod.mk.injEq, and_true] at h1
  exact h1.symm

theorem marshalPKIX_inj {e e' : Nat} {n n' : Int} (he : 0 < e ∧ e < 2 ^ 63) (he' : 0 < e' ∧ e' < 2 ^ 63)
    (hn : (intBytes n).length < 2 ^ 29) (hn' : (intBytes n').length < 2 ^ 29)
    (h : marshalPKIX e n = marshalPKIX e' n') : e = e' ∧ n = n' := by
  have hel : (intBytes e).length ≤ 8 := intBytes_length_of_lt (n := e) (k := 7) (by omega)
  have hel' : (intBytes e').length ≤ 8 := intBytes_length_of_lt (n := e') (k := 7) (by omega)
  have hi := rsaInner_length he hn
  have hi' := rsaInner_length he' hn'
  have hb := derElem_length (tag := 0x03) (c := 0 :: rsaInner e n) (by simp; omega)
  have hb' := derElem_length (tag := 0x03) (c := 0 :: rsaInner e' n') (by simp; omega)
  have ha : (derElem 0x30 (derElem 0x06 oidRSA ++ [0x05, 0x00])).length ≤ 20 := by decide
  simp only [List.length_cons] at hb hb'
  have h1 := derElem_inj (by rw [List.length_append]; omega) (by rw [List.length_append]; omega) h
  rw [List.append_cancel_left_eq] at h1
  have h2 := derElem_inj (by simp; omega) (by simp; omega) h1
  simp only [List.cons.injEq, true_and] at h2
  have l1 := derInt_length (n := e) (by omega)
  have l2 := derInt_length (n := n) (by omega)
  have l3 := derInt_length (n := e') (by omega)
  have l4 := derInt_length (n := n') (by omega)
  have h3 := derElem_inj (by rw [List.length_append]; omega) (by rw [List.length_append]; omega) h2
  have h4 := derTakeInt_append (n := n) (by omega) (derInt e)
  rw [h3, derTakeInt_append (by omega)] at h4
  simp only [Option.some.injEq, Prod.mk.injEq] at h4
  have h5 := derTakeInt_append (n := e) (by omega) []
  rw [List.append_nil, ← h4.2.2, ← List.append_nil (derInt (e' : Int)), derTakeInt_append (by omega)] at h5
  simp only [Option.some.injEq, Prod.mk.injEq] at h5
  exact ⟨by omega, h4.1.symm⟩

end GoIdentity
