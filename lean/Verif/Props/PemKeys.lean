import Verif.Lemmas.PemSound
import Verif.Props.KeyFormats
/-!
# What is accepted as an RSA key in PEM: C90
-/
namespace GoIdentity
open Toy

/-! ## C90 -/

theorem pkixKind_not_rsa (kind : PkixKind) : kind.name ≠ gs! "ssh-rsa" := by cases kind <;> decide

theorem pkixToSsh_rsa [Ext] {der : GoString} {key : SshPub} (h : pkixToSsh der = some (some key)) (ht : key.type = gs! "ssh-rsa") :
    ∃ e n, parsePKIX der = .rsa e n ∧ key = .rsa e n := by
  unfold pkixToSsh at h
  split at h
  · simp at h
  · rename_i e n he
    simp only [Option.some.injEq] at h
    exact ⟨e, n, he, h.symm⟩
  · split at h
    · simp at h
    · simp at h
    · simp only [Option.some.injEq] at h
      subst h
      exact absurd ht (pkixKind_not_rsa _)

theorem looseSpki_length [Ext] {raw : GoString} {e n : Int} (h : LooseSpki raw e n) (hn : n ≠ 0) : (intBytes n).length < raw.length := by
  obtain ⟨alg, oid, bits, bc, inner, ni, ei, nc, ec, t1, t2, t3, h1, h2, h3, h4, h5, h6, h7, h8, h9, h10⟩ := h
  have l1 := isElement_length h1
  have l4 := isElement_length h4
  have l5 := alignedBits_length h5
  have l6 := isElement_length h6
  have l7 := isElement_length h7
  rw [derInteger_iff, if_neg hn] at h9
  simp only [List.length_append] at *
  rw [← h9]
  omega

/-- C90: whatever is stored as an RSA key from a PEM payload stands in a block at the beginning of a line, with the label
`RSA PUBLIC KEY` at both ends and nothing after the second one on its line; inside is the DER form of X.509, with a positive modulus
and an exponent from 1 up to 63 bits, and the fingerprints are those of that key. -/
theorem C90_stored_key_is_in_the_block [Ext] {now : Clock} {id : GoString} {k : ReqKey} {p : PublicKey}
    (hp : newPublicKey now id k = .ok p) (hc : Contains (gs! "RSA PUBLIC KEY") k.payload) (ht : p.type = gs! "ssh-rsa") :
    k.usage = gs! "ssh" ∧ ∃ a text b der blob e n,
      k.payload = a ++ text ++ b ∧ Blank a ∧ Blank b ∧ HasBlock text (gs! "RSA PUBLIC KEY") der ∧
      LooseSpki der e n ∧ 0 < n ∧ 0 < e ∧ e < 2 ^ 63 ∧
      (der.length < 2 ^ 32 → CanonicalBlob blob e n) ∧ p.fingerprint = Sha256Print blob ∧ p.fingerprintMD5 = Md5Print blob ∧
      p.openSSH = b64Encode blob ++ [10] ∧ p.payload = k.payload := by
  rw [C69_accepts_iff] at hp
  rcases hp.2 with h1 | h1 | h1
  · obtain ⟨_, hu, der, key, h2, h3, rfl⟩ := h1
    obtain ⟨e, n, h4, rfl⟩ := pkixToSsh_rsa h3 ht
    obtain ⟨h5, hn, he1, he2⟩ := parsePKIX_rsa_iff.1 h4
    obtain ⟨a, b, ha, hb, hs, _⟩ := trimSpace_spec k.payload
    refine ⟨hu, a, _, b, der, (SshPub.rsa e n).wire, e, n, hs, ha, hb, pemDecode_spec h2, h5, hn, by omega, by omega, ?_, rfl, rfl, rfl,
      rfl⟩
    intro hl
    have h6 := looseSpki_length h5 (by omega)
    have h7 : (intBytes e).length ≤ 8 := intBytes_length_of_lt (n := e) (k := 7) (by omega)
    exact (canonical_iff (by omega) (by omega)).2 rfl
  · exact absurd hc h1.1
  · exact absurd hc h1.1

/-- C90: a payload that mentions `RSA PUBLIC KEY` but has no `-----END RSA PUBLIC KEY-----` after a
`-----BEGIN RSA PUBLIC KEY-----` is never accepted: both ends of a block must carry the label. -/
theorem C90_mislabelled_block_refused [Ext] {now : Clock} {id : GoString} {k : ReqKey} {p : PublicKey}
    (hc : Contains (gs! "RSA PUBLIC KEY") k.payload)
    (hno : ¬ ∃ a b c, k.payload = a ++ gs! "-----BEGIN RSA PUBLIC KEY-----" ++ b ++ gs! "-----END RSA PUBLIC KEY-----" ++ c) :
    newPublicKey now id k ≠ .ok p := by
  intro hp
  rw [C69_accepts_iff] at hp
  rcases hp.2 with h1 | h1 | h1
  · obtain ⟨_, _, der, key, h2, _⟩ := h1
    obtain ⟨a, b, _, _, hs, _⟩ := trimSpace_spec k.payload
    obtain ⟨pre, e, hdr, body, brk, post, hd, _⟩ := pemDecode_spec h2
    refine hno ⟨a ++ pre, e ++ hdr ++ body ++ brk, post ++ b, ?_⟩
    rw [hs, hd]
    simp
  · exact absurd hc h1.1
  · exact absurd hc h1.1

/-- C90: conversely a block without headers holding any such DER form is accepted, not only the one form that X.509 writes. -/
theorem C90_loose_form_accepted [Ext] {now : Clock} {id : GoString} {k : ReqKey} {a b text der blob : GoString} {e n : Int}
    (hu : k.usage = gs! "ssh") (hk : k.payload = a ++ text ++ b) (ha : Blank a) (hb : Blank b) (ht : IsPem text der)
    (hd : LooseSpki der e n) (hlen : der.length < 2 ^ 31) (he : 0 < e ∧ e < 2 ^ 63) (hn : 0 < n) (hblob : CanonicalBlob blob e n) :
    newPublicKey now id k = .ok
      { freshKey now id k with
        type := gs! "ssh-rsa", fingerprint := Sha256Print blob, fingerprintMD5 := Md5Print blob
        openSSH := b64Encode blob ++ [10] } := by
  obtain ⟨m, rfl⟩ : ∃ m : Nat, e = m := ⟨e.toNat, by omega⟩
  obtain ⟨b1, b2, _⟩ := rsaBlob_length hblob.1
  obtain rfl := (canonical_iff b2 b1).1 hblob
  have hne : der ≠ [] := by
    obtain ⟨_, _, _, _, _, _, _, _, _, _, _, _, h1, _⟩ := hd
    have := isElement_length h1
    rintro rfl
    simp at this
  have hpem : pemDecode (trimSpace k.payload) = some (gs! "RSA PUBLIC KEY", der) := by
    rw [hk, isPem_iff.1 ht]
    exact pemDecode_encode hne ha hb
  have hkey : pkixToSsh der = some (some (.rsa m n)) := by
    rw [pkixToSsh, parsePKIX_rsa_iff.2 hlen ⟨hd, hn, by omega, by omega⟩]
  rw [C69_accepts_iff]
  refine ⟨.inl hu, .inl ⟨?_, hu, _, _, hpem, hkey, rfl⟩⟩
  obtain ⟨lines, _, rfl⟩ := ht
  refine ⟨a ++ gs! "-----BEGIN ", gs! "-----\n" ++ lines ++ gs! "-----END RSA PUBLIC KEY-----\n" ++ b, ?_⟩
  rw [hk]
  simp

theorem element_exists [Ext] (tag : UInt8) {c : GoString} (h : c.length < 2 ^ 31) :
    IsElement tag (derElem tag c) c ∧ (derElem tag c).length ≤ c.length + 6 :=
  ⟨(isElement_iff h).2 rfl, derElem_length h⟩

theorem looseSpki_with [Ext] {e n : Int} (t : GoString) (he : 0 < e ∧ e < 2 ^ 63) (hn : 0 < n)
    (hlen : (intBytes n).length + t.length < 2 ^ 28) :
    ∃ der, LooseSpki der e n ∧ der.length < 2 ^ 31 ∧ t <:+ der := by
  have hel : (intBytes e).length ≤ 8 := by
    obtain ⟨m, rfl⟩ : ∃ m : Nat, e = m := ⟨e.toNat, by omega⟩
    exact intBytes_length_of_lt (n := m) (k := 7) (by omega)
  obtain ⟨n1, n2⟩ := element_exists 0x02 (c := intBytes n) (by omega)
  obtain ⟨e1, e2⟩ := element_exists 0x02 (c := intBytes e) (by omega)
  generalize derElem 0x02 (intBytes n) = ni at *
  generalize derElem 0x02 (intBytes e) = ei at *
  obtain ⟨i1, i2⟩ := element_exists 0x30 (c := ni ++ ei ++ []) (by simp only [List.length_append, List.length_nil]; omega)
  generalize derElem 0x30 (ni ++ ei ++ []) = inner at *
  simp only [List.length_append, List.length_nil] at i2
  obtain ⟨b1, b2⟩ := element_exists 0x03 (c := 0 :: inner) (by simp only [List.length_cons]; omega)
  generalize derElem 0x03 (0 :: inner) = bits at *
  obtain ⟨o1, o2⟩ := element_exists 0x06 (c := [0x2a, 0x86, 0x48, 0x86, 0xf7, 0x0d, 0x01, 0x01, 0x01]) (by decide)
  generalize derElem 0x06 [0x2a, 0x86, 0x48, 0x86, 0xf7, 0x0d, 0x01, 0x01, 0x01] = oid at *
  simp only [List.length_cons, List.length_nil] at o2 b2
  obtain ⟨a1, a2⟩ := element_exists 0x30 (c := oid ++ [0x05, 0x00] ++ []) (by
    simp only [List.length_append, List.length_cons, List.length_nil]; omega)
  generalize derElem 0x30 (oid ++ [0x05, 0x00] ++ []) = alg at *
  simp only [List.length_append, List.length_cons, List.length_nil] at a2
  obtain ⟨r1, r2⟩ := element_exists 0x30 (c := alg ++ bits ++ t) (by simp only [List.length_append]; omega)
  refine ⟨derElem 0x30 (alg ++ bits ++ t), ⟨alg, oid, bits, 0 :: inner, inner, ni, ei, intBytes n, intBytes e, t, [], [], r1, a1, o1, b1,
    ⟨0, inner, rfl, by decide, fun _ => rfl, rfl, by simp⟩, i1, n1, e1, ?_, ?_⟩, ?_, ?_⟩
  · rw [derInteger_iff, if_neg (by omega)]
  · rw [derInteger_iff, if_neg (by omega)]
  · simp only [List.length_append] at r2; omega
  · rw [derElem]
    exact ⟨0x30 :: derLenBytes (alg ++ bits ++ t).length ++ (alg ++ bits), by simp⟩

/-- C90: so the text stored with a key is not determined by the key.  Bytes of anyone's choice can be put after the key inside the
block: the key is accepted with the same fingerprints, and the stored payload carries the bytes. -/
theorem C90_block_carries_other_bytes [Ext] {blob : GoString} {e n : Int} (t : GoString) (he : 0 < e ∧ e < 2 ^ 63) (hn : 0 < n)
    (hblob : CanonicalBlob blob e n) (hlen : blob.length + t.length < 2 ^ 28) :
    ∃ payload der, IsPem payload der ∧ t <:+ der ∧ ∀ (now : Clock) (id : GoString),
      ∃ p, newPublicKey now id { usage := gs! "ssh", payload := payload } = .ok p ∧ p.type = gs! "ssh-rsa" ∧
        p.fingerprint = Sha256Print blob ∧ p.fingerprintMD5 = Md5Print blob ∧ p.payload = payload := by
  obtain ⟨_, _, h3⟩ := rsaBlob_length hblob.1
  obtain ⟨der, h1, h2, h4⟩ := looseSpki_with t he hn (by omega)
  refine ⟨pemEncode (gs! "RSA PUBLIC KEY") der, der, isPem_iff.2 rfl, h4, fun now id => ⟨_, C90_loose_form_accepted (a := []) (b := [])
    rfl (by simp) blank_nil blank_nil (isPem_iff.2 rfl) h1 h2 he hn hblob, rfl, rfl, rfl, rfl⟩⟩

/-! ## Concrete cases -/

/-- The key of `keygenPem` with headers, Windows line ends, blanks after the labels and text around. -/
def keygenOdd : GoString := gs!
"Here it is:\r\n-----BEGIN RSA PUBLIC KEY-----  \r\nComment: joe\r\n\r\nMIGfMA0GCSqGSIb3DQEBAQUAA4GNADCBiQKBgQC0FadleCwX4KLx6Fo26+Y5Q78G\r\nf5GeOoCAR3xzIIll5kqhC+nMBD2UfdncO55h2L4uwXKnwnnoVAGaSlVGDRaFAYLL\r\nQc8h/T9I1edt6swGD/VVpcdgVLLYg1IKZDLD5VeqgZxSRC/lbbXluk513Pid09Ym\r\nTyWPEi8XmP/6UDyp1QIDAQAB\r\n-----END RSA PUBLIC KEY----- \t\r\nBye\r\n"

example : Contains (gs! "RSA PUBLIC KEY") keygenOdd ∧
    newPublicKey nd.now [1] { usage := gs! "ssh", payload := keygenOdd } = .ok
      { freshKey nd.now [1] { usage := gs! "ssh", payload := keygenOdd } with
        type := gs! "ssh-rsa", fingerprint := gs! "1rx5rOTo0SAyzN/nYnbZKHOBzlFX2AdE/YNOa/aUA9s"
        fingerprintMD5 := gs! "89:0a:3d:3d:fc:44:13:aa:ee:7f:4c:16:54:f9:c7:26"
        openSSH := keygenB64 ++ [10] } :=
  ⟨containsSub_iff.1 (by decide +kernel), by decide +kernel⟩

/-- The same block with another second label. -/
example : (newPublicKey nd.now [1] { usage := gs! "ssh", payload := gs!
"-----BEGIN RSA PUBLIC KEY-----\nMIGfMA0GCSqGSIb3DQEBAQUAA4GNADCBiQKBgQC0FadleCwX4KLx6Fo26+Y5Q78G\nf5GeOoCAR3xzIIll5kqhC+nMBD2UfdncO55h2L4uwXKnwnnoVAGaSlVGDRaFAYLL\nQc8h/T9I1edt6swGD/VVpcdgVLLYg1IKZDLD5VeqgZxSRC/lbbXluk513Pid09Ym\nTyWPEi8XmP/6UDyp1QIDAQAB\n-----END PUBLIC KEY-----\n" } matches
    .err _) = true := by decide +kernel

/-- The key with exponent 3 and modulus 33 followed by the bytes 1, 2, 3; and in a bit string with an unused bit. -/
example : parsePKIX [0x30, 0x1d, 0x30, 0x0d, 0x06, 0x09, 0x2a, 0x86, 0x48, 0x86, 0xf7, 0x0d, 0x01, 0x01, 0x01, 0x05, 0x00,
      0x03, 0x09, 0x00, 0x30, 0x06, 0x02, 0x01, 0x21, 0x02, 0x01, 0x03, 1, 2, 3] = .rsa 3 33 ∧
    parsePKIX [0x30, 0x1a, 0x30, 0x0d, 0x06, 0x09, 0x2a, 0x86, 0x48, 0x86, 0xf7, 0x0d, 0x01, 0x01, 0x01, 0x05, 0x00,
      0x03, 0x09, 0x01, 0x60, 0x0c, 0x04, 0x02, 0x42, 0x04, 0x02, 0x06] = .rsa 3 33 := by decide +kernel
example : LooseSpki [0x30, 0x1a, 0x30, 0x0d, 0x06, 0x09, 0x2a, 0x86, 0x48, 0x86, 0xf7, 0x0d, 0x01, 0x01, 0x01, 0x05, 0x00,
      0x03, 0x09, 0x01, 0x60, 0x0c, 0x04, 0x02, 0x42, 0x04, 0x02, 0x06] (3 : Nat) 33 :=
  (parsePKIX_rsa_iff.1 (by decide +kernel)).1
example : CanonicalBlob (SshPub.rsa 3 33).wire (3 : Nat) 33 := (canonical_iff (by decide) (by decide)).2 rfl

end GoIdentity
