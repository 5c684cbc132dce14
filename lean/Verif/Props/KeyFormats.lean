import Verif.Lemmas.KeySpec
import Verif.Props.PublicKeys
import Verif.Props.Success
/-!
# RSA keys in the formats of SSH, X.509 and PEM: C81
-/
namespace GoIdentity
open Toy

/-! ## C81 -/

/-- The fingerprint `ssh-keygen -l` shows: SHA-256 of the key, in base64 without padding. -/
def Sha256Print (blob : GoString) : GoString := (b64Encode (Sha.sha256 blob)).filter (· != 61)

/-- The older fingerprint: MD5 of the key in hexadecimal with colons. -/
def Md5Print (blob : GoString) : GoString :=
  joinWith [58] ((Md5.md5 blob).map fun b => [hexDigit (b.toNat / 16), hexDigit (b.toNat % 16)])

/-- A payload that is read as an OpenSSH line, its base64 field and its comment. -/
structure IsLine (k : ReqKey) (f c : GoString) : Prop where
  usage : k.usage = gs! "ssh" ∨ k.usage = gs! "gpg"
  notPem : ¬ Contains (gs! "RSA PUBLIC KEY") k.payload
  start : gs! "ssh-rsa " <+: k.payload
  fields : LineFields k.payload f c

theorem lineFields_unique {s f c f' c' : GoString} (h : LineFields s f c) (h' : LineFields s f' c') : f = f' ∧ c = c' := by
  obtain ⟨r, h1, rfl⟩ := h
  obtain ⟨r', h2, rfl⟩ := h'
  obtain ⟨rfl, rfl⟩ := cut_unique h1 h2
  exact ⟨rfl, rfl⟩

theorem line_iff [Ext] {now : Clock} {id : GoString} {k : ReqKey} {f c : GoString} (h : IsLine k f c) (p : PublicKey) :
    newPublicKey now id k = .ok p ↔ ∃ raw e n, b64Decode f = some raw ∧ sshParse raw = some (.rsa e n) ∧
      p = { freshKey now id k with
            type := gs! "ssh-rsa", fingerprintMD5 := (SshPub.rsa e n).md5, openSSH := f
            fingerprint := gs! "SHA256:" ++ (SshPub.rsa e n).sha256, payload := rsaPem e n
            comment := if c = [] then k.comment else c } := by
  rw [C69_accepts_iff]
  constructor
  · rintro ⟨_, h1 | h1 | h1⟩
    · exact absurd h1.1 h.notPem
    · obtain ⟨_, _, f', c', raw, e, n, h2, h3, h4, rfl⟩ := h1
      obtain ⟨rfl, rfl⟩ := lineFields_unique h.fields h2
      exact ⟨raw, e, n, h3, h4, rfl⟩
    · exact absurd h.start h1.2.1
  · rintro ⟨raw, e, n, h1, h2, rfl⟩
    exact ⟨h.usage, .inr (.inl ⟨h.notPem, h.start, f, c, raw, e, n, h.fields, h1, h2, rfl⟩)⟩

theorem rsaBlob_inj {raw : GoString} {e n e' n' : Int} (h : RsaBlob raw e n) (h' : RsaBlob raw e' n') : e = e' ∧ n = n' := by
  obtain ⟨a, b, c, eb, nb, rfl, ha, hb, hc, be, bn⟩ := h
  obtain ⟨a', b', c', eb', nb', hraw, ha', hb', hc', be', bn'⟩ := h'
  rw [isString_iff] at ha hb hc ha' hb' hc'
  obtain ⟨la, rfl⟩ := ha
  obtain ⟨lb, rfl⟩ := hb
  obtain ⟨lc, rfl⟩ := hc
  obtain ⟨_, rfl⟩ := ha'
  obtain ⟨lb', rfl⟩ := hb'
  obtain ⟨lc', rfl⟩ := hc'
  simp only [List.append_assoc, List.append_cancel_left_eq] at hraw
  have t1 := sshTake_string lb (sshString nb)
  rw [hraw, sshTake_string lb'] at t1
  simp only [Option.some.injEq, Prod.mk.injEq] at t1
  obtain ⟨rfl, t2⟩ := t1
  have t3 := sshTake_string lc []
  rw [List.append_nil, ← t2] at t3
  have t4 := sshTake_string lc' []
  rw [List.append_nil, t3] at t4
  simp only [Option.some.injEq, Prod.mk.injEq, and_true] at t4
  subst t4
  exact ⟨by rw [← be, ← be'], by rw [← bn, ← bn']⟩

theorem blob_canonical {raw : GoString} {e : Nat} {n : Int} (h : RsaBlob raw e n) : CanonicalBlob (SshPub.rsa e n).wire e n := by
  obtain ⟨b1, b2, _⟩ := rsaBlob_length h
  exact (canonical_iff b2 b1).2 rfl

theorem canonical_unique {a b : GoString} {e : Nat} {n : Int} (ha : CanonicalBlob a e n) (hb : CanonicalBlob b e n) : a = b := by
  obtain ⟨b1, b2, _⟩ := rsaBlob_length ha.1
  rw [(canonical_iff b2 b1).1 ha, (canonical_iff b2 b1).1 hb]

theorem marshalPKIX_length {e : Nat} {n : Int} (he : 0 < e ∧ e < 2 ^ 63) (hn : (intBytes n).length < 2 ^ 28) :
    (marshalPKIX e n).length < 2 ^ 29 := by
  have hi := rsaInner_length he (n := n) (by omega)
  have hb := derElem_length (tag := 0x03) (c := 0 :: rsaInner e n) (by simp; omega)
  rw [List.length_cons] at hb
  have ha : (derElem 0x30 (derElem 0x06 oidRSA ++ [0x05, 0x00])).length ≤ 20 := by decide
  have hc := derElem_length (tag := 0x30) (c := derElem 0x30 (derElem 0x06 oidRSA ++ [0x05, 0x00]) ++ derElem 0x03 (0 :: rsaInner e n))
    (by rw [List.length_append]; omega)
  rw [List.length_append] at hc
  show (derElem 0x30 (derElem 0x30 (derElem 0x06 oidRSA ++ [0x05, 0x00]) ++ derElem 0x03 (0 :: rsaInner e n))).length < _
  omega

/-- The text starts and ends with a visible ASCII character. -/
def VisibleEnds (s : GoString) : Prop :=
  (∃ b, s.head? = some b ∧ 33 ≤ b.toNat ∧ b.toNat < 128) ∧ ∃ b, s.getLast? = some b ∧ 33 ≤ b.toNat ∧ b.toNat < 128

theorem visible_not_space {b : UInt8} (h : 33 ≤ b.toNat ∧ b.toNat < 128) :
    ∀ p ∈ spaceRunes, p.head? ≠ some b ∧ p.getLast? ≠ some b := by
  have h1 : ∀ p ∈ spaceRunes, ¬ (33 ≤ (p.headD 0).toNat ∧ (p.headD 0).toNat < 128) ∧
      ¬ (33 ≤ (p.getLastD 0).toNat ∧ (p.getLastD 0).toNat < 128) := by decide
  intro p hp
  have := h1 p hp
  constructor
  · intro e
    rw [List.headD_eq_head?_getD, e] at this
    exact this.1 h
  · intro e
    rw [List.getLastD_eq_getLast?, e] at this
    exact this.2 h

theorem VisibleEnds.clear {s : GoString} (h : VisibleEnds s) : (∀ t, ClearStart (s ++ t)) ∧ ClearEnd s := by
  obtain ⟨⟨b, hb, hv⟩, c, hc, hw⟩ := h
  constructor
  · intro t
    cases s with
    | nil => simp at hb
    | cons x l =>
      rw [List.head?_cons, Option.some.injEq] at hb
      subst hb
      exact clearStart_cons fun p hp => (visible_not_space hv p hp).1
  · have hne : s ≠ [] := by rintro rfl; simp at hc
    rw [List.getLast?_eq_some_getLast hne, Option.some.injEq] at hc
    rw [← List.dropLast_concat_getLast hne, hc]
    exact clearEnd_concat fun p hp => (visible_not_space hw p hp).2

theorem VisibleEnds.ne_nil {s : GoString} (h : VisibleEnds s) : s ≠ [] := by
  rintro rfl
  obtain ⟨⟨b, hb, _⟩, _⟩ := h
  simp at hb

theorem visibleEnds_append {a s b : GoString} (ha : VisibleEnds a) (hb : VisibleEnds b) : VisibleEnds (a ++ s ++ b) := by
  obtain ⟨⟨x, hx, hv⟩, _⟩ := id ha
  obtain ⟨_, y, hy, hw⟩ := id hb
  refine ⟨⟨x, ?_, hv⟩, y, ?_, hw⟩
  · rw [List.append_assoc, List.head?_append, hx]; rfl
  · rw [List.getLast?_append, hy]; rfl

theorem visibleEnds_of_graph {s : GoString} (hne : s ≠ []) (h : ∀ b ∈ s, 33 ≤ b.toNat ∧ b.toNat < 128) : VisibleEnds s :=
  ⟨⟨s.head hne, List.head?_eq_some_head hne, h _ (List.head_mem hne)⟩,
    s.getLast hne, List.getLast?_eq_some_getLast hne, h _ (List.getLast_mem hne)⟩

/-- What follows the base64 field of a line: white space, or a space, a comment and white space. -/
def LineTail (tail c : GoString) : Prop :=
  (Blank tail ∧ c = []) ∨ ∃ b, Blank b ∧ VisibleEnds c ∧ tail = 32 :: c ++ b

theorem blank_space : Blank [32] := ⟨[[32]], by decide, rfl⟩

theorem lineFields_of {f tail c : GoString} (hne : f ≠ []) (hf : ∀ b ∈ f, 33 ≤ b.toNat ∧ b.toNat < 128) (ht : LineTail tail c) :
    LineFields (gs! "ssh-rsa " ++ f ++ tail) f c := by
  have hfv := visibleEnds_of_graph hne hf
  have hpre : VisibleEnds (gs! "ssh-rsa") := visibleEnds_of_graph (by decide) (by decide)
  have hcut : ∀ b ∈ f, b ≠ 32 ∧ b ≠ 9 := by
    intro b hb
    have := hf b hb
    constructor <;> (rintro rfl; simp at this)
  rcases ht with ⟨hb, rfl⟩ | ⟨b, hb, hc, rfl⟩
  · have e1 : trimSpace (gs! "ssh-rsa " ++ f ++ tail) = gs! "ssh-rsa " ++ f := by
      have hv := visibleEnds_append (s := [32]) hpre hfv
      exact trimSpace_around (a := []) (s := gs! "ssh-rsa " ++ f) blank_nil hb hv.clear.1 hv.clear.2
    refine ⟨[], ⟨?_, hcut, by simp⟩, by decide⟩
    rw [e1]
    have := trimSpace_around (a := [32]) (b := []) (s := f) blank_space blank_nil hfv.clear.1 hfv.clear.2
    simpa using this
  · have e1 : trimSpace (gs! "ssh-rsa " ++ f ++ (32 :: c ++ b)) = gs! "ssh-rsa " ++ f ++ 32 :: c := by
      have hv := visibleEnds_append (s := [32] ++ f ++ [32]) hpre hc
      have := trimSpace_around (a := []) blank_nil hb hv.clear.1 hv.clear.2
      simpa using this
    refine ⟨32 :: c, ⟨?_, hcut, by simp⟩, ?_⟩
    · rw [e1]
      have hv := visibleEnds_append (s := [32]) hfv hc
      have := trimSpace_around (a := [32]) (b := []) blank_space blank_nil hv.clear.1 hv.clear.2
      simpa using this
    · have := trimSpace_around (a := [32]) (b := []) (s := c) blank_space blank_nil hc.clear.1 hc.clear.2
      simpa using this.symm

theorem not_pem_line {f tail : GoString} (hf : ∀ b ∈ f, b ≠ 32) (ht : ∀ b ∈ tail, b ≠ 32) :
    ¬ Contains (gs! "RSA PUBLIC KEY") (gs! "ssh-rsa " ++ f ++ tail) := by
  rintro ⟨a, b, hab⟩
  have hcount := congrArg (List.count (32 : UInt8)) hab
  simp only [List.count_append] at hcount
  have h0 : List.count (32 : UInt8) f = 0 := List.count_eq_zero.2 fun hm => hf 32 hm rfl
  have h3 : List.count (32 : UInt8) tail = 0 := List.count_eq_zero.2 fun hm => ht 32 hm rfl
  have h1 : List.count (32 : UInt8) (gs! "ssh-rsa ") = 1 := by decide
  have h2 : List.count (32 : UInt8) (gs! "RSA PUBLIC KEY") = 2 := by decide
  omega

/-- C81: an OpenSSH line is accepted exactly if its base64 field holds an RSA key in the format of RFC 4253 with an odd
exponent from 3 up to 24 bits; nothing is required of the modulus. -/
theorem C81_line_accepted_iff [Ext] {now : Clock} {id : GoString} {k : ReqKey} {f c : GoString} (h : IsLine k f c) :
    (∃ p, newPublicKey now id k = .ok p) ↔ ∃ raw e n, b64Decode f = some raw ∧ RsaBlob raw e n ∧ OddExponent e := by
  constructor
  · rintro ⟨p, hp⟩
    obtain ⟨raw, e, n, h1, h2, _⟩ := (line_iff h p).1 hp
    rw [sshParse_rsa_iff] at h2
    exact ⟨raw, e, n, h1, h2.2, h2.1⟩
  · rintro ⟨raw, e, n, h1, h2, h3⟩
    obtain ⟨m, rfl⟩ : ∃ m : Nat, e = m := ⟨e.toNat, by have := h3.1; omega⟩
    exact ⟨_, (line_iff h _).2 ⟨raw, m, n, h1, sshParse_rsa_iff.2 ⟨h3, h2⟩, rfl⟩⟩

/-- C81: what is stored of such a line.  Both fingerprints are those of the key in its shortest form, however it was written; the
line's base64 field is kept as it is; the payload becomes a PEM block holding the key in the DER form of X.509. -/
theorem C81_line_stored [Ext] {now : Clock} {id : GoString} {k : ReqKey} {f c raw blob : GoString} {e n : Int} {p : PublicKey}
    (h : IsLine k f c) (hp : newPublicKey now id k = .ok p) (hf : b64Decode f = some raw) (hr : RsaBlob raw e n)
    (hb : CanonicalBlob blob e n) :
    p.id = id ∧ p.usage = k.usage ∧ p.createdAt = now 0 ∧ p.type = gs! "ssh-rsa" ∧
    p.fingerprint = gs! "SHA256:" ++ Sha256Print blob ∧ p.fingerprintMD5 = Md5Print blob ∧ p.openSSH = f ∧
    p.comment = (if c = [] then k.comment else c) ∧
    (raw.length < 2 ^ 29 → ∃ der, IsPem p.payload der ∧ RsaSpki der e n) := by
  obtain ⟨raw', m, n', h1, h2, rfl⟩ := (line_iff h p).1 hp
  rw [hf, Option.some.injEq] at h1
  subst h1
  obtain ⟨h3, h4⟩ := sshParse_rsa_iff.1 h2
  obtain ⟨rfl, rfl⟩ := rsaBlob_inj hr h4
  obtain ⟨b1, b2, b3⟩ := rsaBlob_length hb.1
  obtain rfl := (canonical_iff b2 b1).1 hb
  refine ⟨rfl, rfl, rfl, rfl, rfl, rfl, rfl, rfl, fun hl => ⟨marshalPKIX m n, isPem_iff.2 rfl, ?_⟩⟩
  have h3' := h3
  obtain ⟨e1, e2, _⟩ := h3'
  rw [rsaSpki_iff ⟨by omega, by omega⟩]
  have := (rsaBlob_length hr).2.2
  omega

/-- C81: a PEM block of type `RSA PUBLIC KEY` holding any RSA key in the DER form of X.509 is accepted, with white space around
it or not, provided the modulus is positive and the exponent positive and below `2 ^ 63`; the fingerprints are those of the key
in the SSH format. -/
theorem C81_pem_accepted [Ext] {now : Clock} {id : GoString} {k : ReqKey} {a b text der blob : GoString} {e n : Int}
    (hu : k.usage = gs! "ssh") (hk : k.payload = a ++ text ++ b) (ha : Blank a) (hb : Blank b) (ht : IsPem text der)
    (hd : RsaSpki der e n) (hlen : der.length < 2 ^ 29) (he : 0 < e ∧ e < 2 ^ 63) (hn : 0 < n) (hblob : CanonicalBlob blob e n) :
    newPublicKey now id k = .ok
      { freshKey now id k with
        type := gs! "ssh-rsa", fingerprint := Sha256Print blob, fingerprintMD5 := Md5Print blob
        openSSH := b64Encode blob ++ [10] } := by
  obtain ⟨m, rfl⟩ : ∃ m : Nat, e = m := ⟨e.toNat, by omega⟩
  have hl := rsaSpki_length hd
  have he' : 0 < m ∧ m < 2 ^ 63 := ⟨by omega, by omega⟩
  obtain rfl := (rsaSpki_iff he' (by omega)).1 hd
  obtain ⟨b1, b2, _⟩ := rsaBlob_length hblob.1
  obtain rfl := (canonical_iff b2 b1).1 hblob
  have hpem : pemDecode (trimSpace k.payload) = some (gs! "RSA PUBLIC KEY", marshalPKIX m n) := by
    rw [hk, isPem_iff.1 ht]
    exact pemDecode_encode (by simp [marshalPKIX, derElem]) ha hb
  have hkey : pkixToSsh (marshalPKIX m n) = some (some (.rsa m n)) := by
    rw [pkixToSsh, parsePKIX_marshal he' (by omega), if_neg (by omega)]
  rw [C69_accepts_iff]
  refine ⟨.inl hu, .inl ⟨?_, hu, _, _, hpem, hkey, rfl⟩⟩
  obtain ⟨lines, _, rfl⟩ := ht
  refine ⟨a ++ gs! "-----BEGIN ", gs! "-----\n" ++ lines ++ gs! "-----END RSA PUBLIC KEY-----\n" ++ b, ?_⟩
  rw [hk]
  simp

/-- C81: the PEM block stored for an OpenSSH line can be given back to `NewPublicKey`: the result has the same type, the same MD5
fingerprint and the same SHA-256 fingerprint but without the prefix `SHA256:`. -/
theorem C81_stored_pem_reads_back [Ext] {now now' : Clock} {id id' : GoString} {k : ReqKey} {f c raw : GoString} {e n : Int}
    {p : PublicKey} (h : IsLine k f c) (hp : newPublicKey now id k = .ok p) (hf : b64Decode f = some raw) (hr : RsaBlob raw e n)
    (hn : 0 < n) (hlen : raw.length < 2 ^ 28) :
    ∃ p', newPublicKey now' id' { usage := gs! "ssh", payload := p.payload } = .ok p' ∧ p'.type = p.type ∧
      p'.fingerprintMD5 = p.fingerprintMD5 ∧ p.fingerprint = gs! "SHA256:" ++ p'.fingerprint ∧ p'.payload = p.payload := by
  obtain ⟨raw', m, n', h1, h2, rfl⟩ := (line_iff h p).1 hp
  rw [hf, Option.some.injEq] at h1
  subst h1
  obtain ⟨h3, h4⟩ := sshParse_rsa_iff.1 h2
  obtain ⟨rfl, rfl⟩ := rsaBlob_inj hr h4
  obtain ⟨e1, e2, _⟩ := h3
  have hl := (rsaBlob_length hr).2.2
  have he : 0 < m ∧ m < 2 ^ 63 := ⟨by omega, by omega⟩
  refine ⟨_, C81_pem_accepted (a := []) (b := []) (text := rsaPem m n) (e := m) (n := n) rfl (by simp) blank_nil blank_nil
    (isPem_iff.2 rfl) ((rsaSpki_iff he (by omega)).2 rfl) (marshalPKIX_length he (by omega)) ⟨by omega, by omega⟩ hn
    (blob_canonical hr), rfl, rfl, rfl, rfl⟩

/-- C81: the modulus of an OpenSSH line is not looked at: with a negative or zero modulus the line is accepted just the same, but
the PEM block stored for it is one that `NewPublicKey` itself refuses. -/
theorem C81_modulus_not_checked [Ext] {now now' : Clock} {id id' : GoString} {k : ReqKey} {f c raw : GoString} {e n : Int}
    (h : IsLine k f c) (hf : b64Decode f = some raw) (hr : RsaBlob raw e n) (he : OddExponent e) (hn : n ≤ 0)
    (hlen : raw.length < 2 ^ 28) :
    ∃ p, newPublicKey now id k = .ok p ∧
      ∀ p', newPublicKey now' id' { usage := gs! "ssh", payload := p.payload } ≠ .ok p' := by
  obtain ⟨m, rfl⟩ : ∃ m : Nat, e = m := ⟨e.toNat, by have := he.1; omega⟩
  refine ⟨_, (line_iff h _).2 ⟨raw, m, n, hf, sshParse_rsa_iff.2 ⟨he, hr⟩, rfl⟩, ?_⟩
  intro p' hp'
  obtain ⟨e1, e2, _⟩ := he
  have hl := (rsaBlob_length hr).2.2
  have hpem : pemDecode (trimSpace (rsaPem m n)) = some (gs! "RSA PUBLIC KEY", marshalPKIX m n) := by
    have := pemDecode_encode (bytes := marshalPKIX m n) (by simp [marshalPKIX, derElem]) blank_nil blank_nil
    simpa [rsaPem] using this
  have hc : Contains (gs! "RSA PUBLIC KEY") (rsaPem m n) := by
    obtain ⟨lines, _, hl⟩ := isPem_iff.2 (rfl : rsaPem m n = _)
    exact ⟨gs! "-----BEGIN ", gs! "-----\n" ++ lines ++ gs! "-----END RSA PUBLIC KEY-----\n", by rw [hl]; simp⟩
  rw [C69_accepts_iff] at hp'
  rcases hp'.2 with h1 | h1 | h1
  · obtain ⟨_, _, der, key, h2, h3, _⟩ := h1
    rw [show ({ usage := gs! "ssh", payload := rsaPem m n } : ReqKey).payload = rsaPem m n from rfl, hpem] at h2
    simp only [Option.some.injEq, Prod.mk.injEq, true_and] at h2
    subst h2
    rw [pkixToSsh, parsePKIX_marshal ⟨by omega, by omega⟩ (by omega), if_pos hn] at h3
    cases h3
  · exact h1.1 hc
  · exact h1.1 hc

/-- C81: how the integers of a line are padded makes no difference to anything but the stored copy of the line: two lines with the
same exponent and modulus give the same type, fingerprints and payload. -/
theorem C81_padding_irrelevant [Ext] {now now' : Clock} {id id' : GoString} {k k' : ReqKey} {f c f' c' raw raw' : GoString} {e n : Int}
    {p p' : PublicKey} (h : IsLine k f c) (h' : IsLine k' f' c') (hp : newPublicKey now id k = .ok p)
    (hp' : newPublicKey now' id' k' = .ok p') (hf : b64Decode f = some raw) (hf' : b64Decode f' = some raw')
    (hr : RsaBlob raw e n) (hr' : RsaBlob raw' e n) :
    p.type = p'.type ∧ p.fingerprint = p'.fingerprint ∧ p.fingerprintMD5 = p'.fingerprintMD5 ∧ p.payload = p'.payload := by
  obtain ⟨raw1, m1, n1, h1, h2, rfl⟩ := (line_iff h p).1 hp
  obtain ⟨raw2, m2, n2, h1', h2', rfl⟩ := (line_iff h' p').1 hp'
  rw [hf, Option.some.injEq] at h1
  rw [hf', Option.some.injEq] at h1'
  subst h1 h1'
  obtain ⟨a1, a2⟩ := rsaBlob_inj hr (sshParse_rsa_iff.1 h2).2
  obtain ⟨b1, b2⟩ := rsaBlob_inj hr' (sshParse_rsa_iff.1 h2').2
  obtain rfl : m1 = m2 := by omega
  obtain rfl : n1 = n2 := by omega
  exact ⟨rfl, rfl, rfl, rfl⟩

/-- C81: equal fingerprints mean equal keys, unless two different keys with the same SHA-256 digest are at hand. -/
theorem C81_fingerprint_identifies [Ext] {now now' : Clock} {id id' : GoString} {k k' : ReqKey} {f c f' c' raw raw' : GoString}
    {e n e' n' : Int} {p p' : PublicKey} (h : IsLine k f c) (h' : IsLine k' f' c') (hp : newPublicKey now id k = .ok p)
    (hp' : newPublicKey now' id' k' = .ok p') (hf : b64Decode f = some raw) (hf' : b64Decode f' = some raw')
    (hr : RsaBlob raw e n) (hr' : RsaBlob raw' e' n') (heq : p.fingerprint = p'.fingerprint) :
    (e = e' ∧ n = n') ∨
      ∃ blob blob', CanonicalBlob blob e n ∧ CanonicalBlob blob' e' n' ∧ blob ≠ blob' ∧ Sha.sha256 blob = Sha.sha256 blob' := by
  obtain ⟨raw1, m, n1, h1, h2, rfl⟩ := (line_iff h p).1 hp
  obtain ⟨raw2, m', n2, h1', h2', rfl⟩ := (line_iff h' p').1 hp'
  rw [hf, Option.some.injEq] at h1
  rw [hf', Option.some.injEq] at h1'
  subst h1 h1'
  obtain ⟨rfl, rfl⟩ := rsaBlob_inj hr (sshParse_rsa_iff.1 h2).2
  obtain ⟨rfl, rfl⟩ := rsaBlob_inj hr' (sshParse_rsa_iff.1 h2').2
  have hs : Sha.sha256 (SshPub.rsa m n).wire = Sha.sha256 (SshPub.rsa m' n').wire := by
    have := List.append_cancel_left heq
    exact b64_unpadded_inj (by rw [Sha.sha256, Sha.sha256, Sha.sha2_length _ rfl, Sha.sha2_length _ rfl]) this
  by_cases hw : (SshPub.rsa m n).wire = (SshPub.rsa m' n').wire
  · left
    have c1 := (blob_canonical hr).1
    rw [hw] at c1
    exact rsaBlob_inj c1 (blob_canonical hr').1
  · exact .inr ⟨_, _, blob_canonical hr, blob_canonical hr', hw, hs⟩

/-- C81: the SSH library is stricter about exponents than the X.509 library.  A key with an even exponent, exponent 1 or one above
24 bits is accepted as PEM, but the OpenSSH text stored for it is not accepted as a line. -/
theorem C81_exponent_gap [Ext] {now now' : Clock} {id id' : GoString} {k : ReqKey} {text der blob : GoString} {e n : Int}
    (hu : k.usage = gs! "ssh") (hk : k.payload = text) (ht : IsPem text der) (hd : RsaSpki der e n) (hlen : der.length < 2 ^ 29)
    (he : 0 < e ∧ e < 2 ^ 63) (hn : 0 < n) (hgap : ¬ OddExponent e) (hblob : CanonicalBlob blob e n) :
    ∃ p, newPublicKey now id k = .ok p ∧ ∀ usage p',
      newPublicKey now' id' { usage := usage, payload := gs! "ssh-rsa " ++ p.openSSH } ≠ .ok p' := by
  refine ⟨_, C81_pem_accepted (a := []) (b := []) hu (by simpa using hk) blank_nil blank_nil ht hd hlen he hn hblob, ?_⟩
  intro usage p' hp'
  have hne : b64Encode blob ≠ [] := by
    apply b64Encode_ne_nil
    obtain ⟨_, _, h3⟩ := rsaBlob_length hblob.1
    rintro rfl
    simp at h3
  have hg := fun x hx => (b64Encode_plain blob x hx)
  have hl : IsLine { usage := usage, payload := gs! "ssh-rsa " ++ (b64Encode blob ++ [10]) } (b64Encode blob) [] := by
    refine ⟨((C69_accepts_iff _ _ _ _).1 hp').1, ?_, ⟨_, rfl⟩, ?_⟩
    · rw [← List.append_assoc]
      exact not_pem_line (fun b hb h => by have := hg b hb; rw [h] at this; simp at this) (by decide)
    · rw [← List.append_assoc]
      exact lineFields_of hne (fun b hb => ⟨(hg b hb).1, (hg b hb).2.1⟩) (.inl ⟨blank_newline, rfl⟩)
  obtain ⟨raw, e', n', h1, h2, h3⟩ := (C81_line_accepted_iff hl).1 ⟨p', hp'⟩
  rw [b64_roundtrip, Option.some.injEq] at h1
  subst h1
  exact hgap ((rsaBlob_inj h2 hblob.1).1 ▸ h3)

/-- C81: the two forms in which RSA public keys are commonly written in PEM are both refused.  A block of type `RSA PUBLIC KEY` is
commonly the bare sequence of modulus and exponent (PKCS #1, RFC 8017), whereas the code wants the X.509 form in it. -/
theorem C81_pkcs1_refused [Ext] {now : Clock} {id : GoString} {k : ReqKey} {a b text der ni ei nc : GoString} {p : PublicKey}
    (hk : k.payload = a ++ text ++ b) (ha : Blank a) (hb : Blank b) (ht : IsPem text der)
    (hd : IsElement 0x30 der (ni ++ ei)) (hi : IsElement 0x02 ni nc) (hlen : der.length < 2 ^ 29) :
    newPublicKey now id k ≠ .ok p := by
  intro hp
  have hl := isElement_length hd
  obtain rfl := (isElement_iff (by omega)).1 hd
  have hpem : pemDecode (trimSpace k.payload) = some (gs! "RSA PUBLIC KEY", derElem 0x30 (ni ++ ei)) := by
    rw [hk, isPem_iff.1 ht]
    exact pemDecode_encode (by simp [derElem]) ha hb
  have hc : Contains (gs! "RSA PUBLIC KEY") k.payload := by
    obtain ⟨lines, _, hl⟩ := ht
    exact ⟨a ++ gs! "-----BEGIN ", gs! "-----\n" ++ lines ++ gs! "-----END RSA PUBLIC KEY-----\n" ++ b, by rw [hk, hl]; simp⟩
  rw [C69_accepts_iff] at hp
  rcases hp.2 with h1 | h1 | h1
  · obtain ⟨_, _, der, key, h2, h3, _⟩ := h1
    rw [hpem] at h2
    simp only [Option.some.injEq, Prod.mk.injEq, true_and] at h2
    subst h2
    have hbad : parsePKIX (derElem 0x30 (ni ++ ei)) = .bad := by
      have := derTake_elem (tag := 0x30) (c := ni ++ ei) (by omega) []
      rw [List.append_nil] at this
      rw [parsePKIX, this]
      obtain ⟨lb, _, rfl⟩ := hi
      rfl
    rw [pkixToSsh, hbad] at h3
    cases h3
  · exact h1.1 hc
  · exact h1.1 hc

theorem no_pair_of_first {x y : UInt8} {s : GoString} (h : x ∉ s) : ¬ Contains [x, y] s := by
  rintro ⟨a, b, rfl⟩; exact h (by simp)

theorem no_pair_of_second {x y : UInt8} {s : GoString} (h : y ∉ s) : ¬ Contains [x, y] s := by
  rintro ⟨a, b, rfl⟩; exact h (by simp)

theorem no_pair_append {x y : UInt8} {s t : GoString} (hs : ¬ Contains [x, y] s) (ht : ¬ Contains [x, y] t)
    (hb : s.getLast? ≠ some x ∨ t.head? ≠ some y) : ¬ Contains [x, y] (s ++ t) := by
  induction s with
  | nil => exact ht
  | cons z s ih =>
    rintro ⟨a, b, hab⟩
    cases a with
    | nil =>
      simp only [List.cons_append, List.nil_append, List.cons.injEq] at hab
      obtain ⟨rfl, h⟩ := hab
      cases s with
      | nil =>
        simp only [List.nil_append] at h
        subst h
        rcases hb with hb | hb
        · exact hb rfl
        · exact hb rfl
      | cons w s =>
        simp only [List.cons_append, List.cons.injEq] at h
        obtain ⟨rfl, h⟩ := h
        exact hs ⟨[], s, rfl⟩
    | cons z' a =>
      simp only [List.cons_append, List.cons.injEq] at hab
      obtain ⟨rfl, h⟩ := hab
      refine ih (fun ⟨a', b', h'⟩ => hs ⟨z :: a', b', by rw [h']; rfl⟩) ?_ ⟨a, b, by simpa using h⟩
      rcases hb with hb | hb
      · cases s with
        | nil => left; simp
        | cons w s => left; simpa [List.getLast?_cons_cons] using hb
      · exact .inr hb

theorem lines64_no_space {text l : GoString} (h : Lines64 text l) (hl : ∀ x ∈ l, x ≠ 32) : (32 : UInt8) ∉ text := by
  induction h with
  | nil => simp
  | last =>
    intro h
    rw [List.mem_append] at h
    rcases h with h | h
    · exact hl _ h rfl
    · simp at h
  | more _ _ _ ih =>
    intro h
    rw [List.mem_append, List.mem_append] at h
    rcases h with (h | h) | h
    · exact hl _ (List.mem_append_left _ h) rfl
    · simp at h
    · exact ih (fun x hx => hl x (List.mem_append_right _ hx)) h

/-- C81: and a block of type `PUBLIC KEY`, the usual name for the X.509 form, is not looked at. -/
theorem C81_public_key_label_refused [Ext] {now : Clock} {id : GoString} {k : ReqKey} {a b lines der : GoString} {p : PublicKey}
    (hl : Lines64 lines (b64Encode der)) (ha : Blank a) (hb : Blank b)
    (hk : k.payload = a ++ (gs! "-----BEGIN PUBLIC KEY-----\n" ++ lines ++ gs! "-----END PUBLIC KEY-----\n") ++ b) :
    newPublicKey now id k ≠ .ok p := by
  have hblank : ∀ {s : GoString}, Blank s → ∀ x ∈ s, x ≠ 65 ∧ x ≠ 80 ∧ x ≠ 97 := by
    rintro s ⟨ps, hps, rfl⟩ x hx
    obtain ⟨q, hq, hx⟩ := List.mem_flatten.1 hx
    have : ∀ q ∈ spaceRunes, ∀ x ∈ q, x ≠ 65 ∧ x ≠ 80 ∧ x ≠ 97 := by decide
    exact this q (hps q hq) x hx
  have hlines := lines64_no_space hl fun x hx h => by
    have := (b64Encode_plain der x hx).1
    rw [h] at this
    simp at this
  have key : ∀ x : UInt8, (x = 65 ∨ x = 80 ∨ x = 97) → ¬ Contains [x, 32] k.payload := by
    intro x hx
    have ne : ∀ {s : GoString}, Blank s → x ∉ s := by
      intro s hs hm
      have := hblank hs x hm
      rcases hx with rfl | rfl | rfl <;> simp at this
    rw [hk]
    refine no_pair_append ?_ (no_pair_of_first (ne hb)) (.inl ?_)
    · refine no_pair_append (no_pair_of_first (ne ha)) ?_ (.inr (by simp))
      refine no_pair_append (no_pair_append ?_ (no_pair_of_second hlines) (.inr ?_)) ?_ (.inr (by simp))
      · rw [← containsSub_iff]; rcases hx with rfl | rfl | rfl <;> decide
      · intro h
        exact hlines (List.mem_of_mem_head? h)
      · rw [← containsSub_iff]; rcases hx with rfl | rfl | rfl <;> decide
    · rw [← List.append_assoc, List.getLast?_append]
      rcases hx with rfl | rfl | rfl <;> simp
  intro hp
  rw [C69_accepts_iff] at hp
  rcases hp.2 with h1 | h1 | h1
  · obtain ⟨c, d, h⟩ := h1.1
    exact key 65 (by simp) ⟨c ++ gs! "RS", gs! "PUBLIC KEY" ++ d, by rw [h]; simp⟩
  · obtain ⟨d, h⟩ := h1.2.1
    exact key 97 (by simp) ⟨gs! "ssh-rs", d, by rw [← h]; simp⟩
  · obtain ⟨c, d, h⟩ := h1.2.2.1
    exact key 80 (by simp) ⟨c ++ gs! "BEGIN PG", gs! "PUBLIC KEY BLOCK" ++ d, by rw [h]; simp⟩

/-- C81: every RSA key can be stored twice for one user, once in each form: adding the PEM block and then the line succeeds if the
user holds no key with these fingerprints. -/
theorem C81_every_key_twice [Ext] {db : Database} (h : Reach Opened db) {nd nd' : Nondet} {fs : FS} {req req' : Request} {u : User}
    {der blob : GoString} {e n : Int} (hu : Addressed db req u) (hu' : req'.user = req.user) (he : OddExponent e) (hn : 0 < n)
    (hd : RsaSpki der e n) (hb : CanonicalBlob blob e n) (hlen : der.length < 2 ^ 29)
    (hk : req.key.usage = gs! "ssh" ∧ IsPem req.key.payload der)
    (hk' : req'.key.usage = gs! "ssh" ∧ req'.key.payload = gs! "ssh-rsa " ++ b64Encode blob)
    (hnew : ∀ x ∈ u.publicKeys, x.fingerprint ≠ Sha256Print blob ∧ x.fingerprint ≠ gs! "SHA256:" ++ Sha256Print blob)
    (hw : CanWrite nd fs db.path) (hw' : CanWrite nd' (exec .addPublicKey nd db fs req).fs db.path) :
    (exec .addPublicKey nd db fs req).Succeeded ∧
      (exec .addPublicKey nd' (exec .addPublicKey nd db fs req).db (exec .addPublicKey nd db fs req).fs req').Succeeded := by
  obtain ⟨e1, e2, _⟩ := id he
  have hpem : newPublicKey nd.now (getRandomString nd.seedRand 0 40) req.key = .ok _ :=
    C81_pem_accepted (a := []) (b := []) hk.1 (by simp) blank_nil blank_nil hk.2 hd hlen ⟨by omega, by omega⟩ hn hb
  have h1 : (exec .addPublicKey nd db fs req).Succeeded :=
    (C68_add_public_key h nd fs req).2 ⟨⟨u, _, hu, hpem, fun x hx => .inr (hnew x hx).1⟩, hw⟩
  refine ⟨h1, ?_⟩
  have hreach : Reach Opened (exec .addPublicKey nd db fs req).db := .step h ..
  have hne : b64Encode blob ≠ [] := by
    apply b64Encode_ne_nil
    obtain ⟨_, _, h3⟩ := rsaBlob_length hb.1
    rintro rfl
    simp at h3
  have hg := fun x hx => (b64Encode_plain blob x hx)
  have hline : IsLine req'.key (b64Encode blob) [] := by
    refine ⟨.inl hk'.1, ?_, ⟨_, hk'.2.symm⟩, ?_⟩
    · have := not_pem_line (f := b64Encode blob) (tail := [])
        (fun b hb h => by have := hg b hb; rw [h] at this; simp at this) (by simp)
      rw [hk'.2]
      simpa using this
    · have := lineFields_of hne (fun b hb => ⟨(hg b hb).1, (hg b hb).2.1⟩) (.inl ⟨blank_nil, rfl⟩)
      rw [hk'.2]
      simpa using this
  obtain ⟨p, hp⟩ := (C81_line_accepted_iff (now := nd'.now) (id := getRandomString nd'.seedRand 0 40) hline).2
    ⟨blob, e, n, b64_roundtrip blob, hb.1, he⟩
  have hst := C81_line_stored hline hp (b64_roundtrip blob) hb.1 hb
  obtain ⟨db', m, hc⟩ := exec_success rfl h1
  have hpath : (exec .addPublicKey nd db fs req).db.path = db.path := by
    rw [hc.db_eq]
    cases m
    rfl
  have hus : (exec .addPublicKey nd db fs req).db.users = db'.users := by rw [hc.db_eq]; rfl
  rw [C68_add_public_key hreach]
  refine ⟨?_, by rw [hpath]; exact hw'⟩
  obtain ⟨i0, hi0⟩ := (addressed_iff (reach_inv h)).2 hu
  obtain ⟨g1, g2, w, hw1, hw2, hw3⟩ := (validate_iff (reach_inv h)).1 hi0
  cases m with
  | addPublicKey i v v' hv hadd =>
    rw [hi0] at hv
    simp only [Except.ok.injEq, Prod.mk.injEq] at hv
    obtain ⟨rfl, rfl⟩ := hv
    obtain ⟨key, h2, h3, rfl⟩ := User.addPublicKey_ok hadd
    have hkey := h2
    rw [hpem] at hkey
    simp only [Res.ok.injEq] at hkey
    generalize hv' : User.revise (nd.now.skip 2) { u with publicKeys := u.publicKeys ++ [key] } = v' at *
    have hset : (exec .addPublicKey nd db fs req).db.users = db.users.set i0 v' := by rw [hus]; rfl
    have hi : i0 < db.users.length := (List.getElem?_eq_some_iff.1 g1).1
    refine ⟨v', p, ⟨?_, ?_, ?_⟩, hp, ?_⟩
    · rw [hset]
      exact List.mem_set hi _
    · rw [hu', ← hv']; exact g2
    · rw [hset, hu']
      obtain ⟨j, hj⟩ := List.getElem?_of_mem hw1
      by_cases hij : i0 = j
      · subst hij
        rw [g1, Option.some.injEq] at hj
        subst hj
        exact ⟨v', List.mem_set hi _, by rw [← hv']; exact hw2, rfl⟩
      · refine ⟨w, ?_, hw2, by rw [← hv']; exact hw3.symm⟩
        exact List.mem_of_getElem? (i := j) (by rw [List.getElem?_set_ne hij]; exact hj)
    · intro x hx
      right
      rw [hst.2.2.2.2.1]
      have hx : x ∈ u.publicKeys ++ [key] := by rw [← hv'] at hx; exact hx
      rw [List.mem_append, List.mem_singleton] at hx
      rcases hx with hx | rfl
      · exact (hnew x hx).2
      · rw [← hkey]
        intro h
        have h := congrArg List.length h
        rw [List.length_append] at h
        simp at h

/-! ## Concrete cases -/

-- RFC 1321, A.5: the test suite of MD5.
example : ([gs! "", gs! "a", gs! "abc", gs! "message digest", gs! "abcdefghijklmnopqrstuvwxyz",
      gs! "ABCDEFGHIJKLMNOPQRSTUVWXYZabcdefghijklmnopqrstuvwxyz0123456789",
      gs! "12345678901234567890123456789012345678901234567890123456789012345678901234567890"].map fun s => hexBytes (Md5.md5 s)) =
    [gs! "d41d8cd98f00b204e9800998ecf8427e", gs! "0cc175b9c0f1b6a831c399e269772661", gs! "900150983cd24fb0d6963f7d28e17f72",
     gs! "f96b697d7cb7938d525a2f31aaf161d0", gs! "c3fcd3d76192e4007dfb496cca67e13b", gs! "d174ab98d277d9f5a5611c2c9f419d9f",
     gs! "57edf4a22be3c955ac49da2e2107b67a"] := by decide +kernel

def keygenB64 : GoString := gs!
"AAAAB3NzaC1yc2EAAAADAQABAAAAgQC0FadleCwX4KLx6Fo26+Y5Q78Gf5GeOoCAR3xzIIll5kqhC+nMBD2UfdncO55h2L4uwXKnwnnoVAGaSlVGDRaFAYLLQc8h/T9I1edt6swGD/VVpcdgVLLYg1IKZDLD5VeqgZxSRC/lbbXluk513Pid09YmTyWPEi8XmP/6UDyp1Q=="
/-- A key made with `ssh-keygen -t rsa -b 1024`. -/
def keygenLine : ReqKey := { usage := gs! "ssh", payload := gs!
"ssh-rsa AAAAB3NzaC1yc2EAAAADAQABAAAAgQC0FadleCwX4KLx6Fo26+Y5Q78Gf5GeOoCAR3xzIIll5kqhC+nMBD2UfdncO55h2L4uwXKnwnnoVAGaSlVGDRaFAYLLQc8h/T9I1edt6swGD/VVpcdgVLLYg1IKZDLD5VeqgZxSRC/lbbXluk513Pid09YmTyWPEi8XmP/6UDyp1Q== joe@laptop\n" }
def keygenN : Int := 126459696514187293429357756871343395554804572455034507178349581081751933426353065229363337777164242901586506996120057424554618751152608889346289020275381853819572542898774478871256102699133446712225306005925958543673777953021127463990718044833207940758221650620075017974925193868894745240859444916075393493461

/-- The same key as written by `ssh-keygen -e -m PKCS8`, under the label the code wants. -/
def keygenPem : GoString := gs!
"-----BEGIN RSA PUBLIC KEY-----\nMIGfMA0GCSqGSIb3DQEBAQUAA4GNADCBiQKBgQC0FadleCwX4KLx6Fo26+Y5Q78G\nf5GeOoCAR3xzIIll5kqhC+nMBD2UfdncO55h2L4uwXKnwnnoVAGaSlVGDRaFAYLL\nQc8h/T9I1edt6swGD/VVpcdgVLLYg1IKZDLD5VeqgZxSRC/lbbXluk513Pid09Ym\nTyWPEi8XmP/6UDyp1QIDAQAB\n-----END RSA PUBLIC KEY-----\n"

/-- What `ssh-keygen -l` says about it, and the PEM block. -/
example : newPublicKey nd.now [1] keygenLine = .ok
    { freshKey nd.now [1] keygenLine with
      type := gs! "ssh-rsa", comment := gs! "joe@laptop", payload := keygenPem
      fingerprint := gs! "SHA256:1rx5rOTo0SAyzN/nYnbZKHOBzlFX2AdE/YNOa/aUA9s"
      fingerprintMD5 := gs! "89:0a:3d:3d:fc:44:13:aa:ee:7f:4c:16:54:f9:c7:26"
      openSSH := keygenB64 } := by
  decide +kernel
example : newPublicKey nd.now [1] { usage := gs! "ssh", payload := keygenPem } = .ok
    { freshKey nd.now [1] { usage := gs! "ssh", payload := keygenPem } with
      type := gs! "ssh-rsa", fingerprint := gs! "1rx5rOTo0SAyzN/nYnbZKHOBzlFX2AdE/YNOa/aUA9s"
      fingerprintMD5 := gs! "89:0a:3d:3d:fc:44:13:aa:ee:7f:4c:16:54:f9:c7:26"
      openSSH := keygenB64 ++ [10] } := by
  decide +kernel

/-- The hypotheses of the theorems hold for it. -/
example : IsLine keygenLine keygenB64 (gs! "joe@laptop") := by
  have e : keygenLine.payload = gs! "ssh-rsa " ++ keygenB64 ++ (32 :: gs! "joe@laptop" ++ [10]) := by decide +kernel
  refine ⟨.inl rfl, ?_, ?_, ?_⟩
  · rw [← containsSub_iff]; decide +kernel
  · rw [← List.isPrefixOf_iff_prefix]; decide +kernel
  · rw [e]
    refine lineFields_of (by decide +kernel) (by decide +kernel) (.inr ⟨[10], blank_newline, ?_, rfl⟩)
    exact ⟨⟨106, by decide, by decide, by decide⟩, 112, by decide, by decide, by decide⟩
theorem keygen_blob : CanonicalBlob (SshPub.rsa 65537 keygenN).wire (65537 : Nat) keygenN :=
  (canonical_iff (by decide +kernel) (by decide +kernel)).2 rfl
example : b64Decode keygenB64 =
    some (SshPub.rsa 65537 keygenN).wire := by decide +kernel
theorem keygen_spki : RsaSpki (marshalPKIX 65537 keygenN) (65537 : Nat) keygenN :=
  (rsaSpki_iff ⟨by decide, by decide⟩ (by decide +kernel)).2 rfl
theorem keygen_pem : IsPem keygenPem (marshalPKIX 65537 keygenN) := isPem_iff.2 (by decide +kernel)
example : OddExponent (65537 : Nat) ∧ 0 < keygenN ∧ (marshalPKIX 65537 keygenN).length < 2 ^ 29 :=
  ⟨⟨by decide, by decide, by decide⟩, by decide, by decide +kernel⟩

/-- `ssh-keygen -e -m PEM` writes it like this, which is refused. -/
example : (newPublicKey nd.now [1] { usage := gs! "ssh", payload := gs!
"-----BEGIN RSA PUBLIC KEY-----\nMIGJAoGBALQVp2V4LBfgovHoWjbr5jlDvwZ/kZ46gIBHfHMgiWXmSqEL6cwEPZR9\n2dw7nmHYvi7BcqfCeehUAZpKVUYNFoUBgstBzyH9P0jV523qzAYP9VWlx2BUstiD\nUgpkMsPlV6qBnFJEL+VtteW6TnXc+J3T1iZPJY8SLxeY//pQPKnVAgMBAAE=\n-----END RSA PUBLIC KEY-----\n" } matches
    .err _) = true := by decide +kernel

/-- The key with exponent 3 and modulus 33, padded with zeros: another line, the same fingerprints. -/
example : (match newPublicKey nd.now [1] reqLine.key, newPublicKey nd.now [1]
      { usage := gs! "ssh", payload := gs! "ssh-rsa AAAAB3NzaC1yc2EAAAADAAADAAAAAgAh" } with
    | .ok p, .ok q => decide (p.openSSH ≠ q.openSSH ∧ p = { q with openSSH := p.openSSH })
    | _, _ => false) = true := by decide +kernel

/-- A modulus of -1. -/
example : (match newPublicKey nd.now [1] { usage := gs! "ssh", payload := gs! "ssh-rsa AAAAB3NzaC1yc2EAAAABAwAAAAH/" } with
    | .ok p => (newPublicKey nd.now [1] { usage := gs! "ssh", payload := p.payload } matches .err _)
    | _ => false) = true := by decide +kernel
example : RsaBlob (SshPub.rsa 3 (-1)).wire (3 : Nat) (-1) := wire_blob rfl (by decide) (by decide)

/-- The exponent 2. -/
example : (match newPublicKey nd.now [1] { usage := gs! "ssh", payload := rsaPem 2 33 } with
    | .ok p => decide (p.openSSH = gs! "AAAAB3NzaC1yc2EAAAABAgAAAAEh\n") &&
        (newPublicKey nd.now [1] { usage := gs! "ssh", payload := gs! "ssh-rsa " ++ p.openSSH } matches .err _)
    | _ => false) = true := by decide +kernel
example : ¬ OddExponent (2 : Nat) ∧ RsaSpki (marshalPKIX 2 33) (2 : Nat) 33 :=
  ⟨fun h => absurd h.1 (by decide), (rsaSpki_iff ⟨by decide, by decide⟩ (by decide +kernel)).2 rfl⟩

/-- Joe is addressed and has no key yet. -/
example : ∃ u, Addressed db1 reqPem u ∧ u.publicKeys = [] := by
  have h : (exec .addPublicKey nd db1 fs1 reqPem).Succeeded := by unfold Result.Succeeded; decide +kernel
  obtain ⟨⟨u, _, hu, _⟩, _⟩ := (C68_add_public_key db1_reachO nd fs1 reqPem).1 h
  have : ∀ u ∈ db1.users, u.publicKeys.isEmpty = true := by decide +kernel
  exact ⟨u, hu, List.isEmpty_iff.1 (this u hu.1)⟩

end GoIdentity
