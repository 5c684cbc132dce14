import Verif.Lemmas.Pkix
import Verif.Props.PemKeys
/-!
# Keys of other algorithms than RSA: C113
-/
namespace GoIdentity
open Toy

/-! ## C113 -/

theorem otherKey_wire [Ext] {raw t blob : GoString} (h : OtherKey raw t blob) : ∃ r, blob = (SshPub.other t r).wire := by
  cases h with
  | @ed25519 key a b h ha hb =>
    rw [isString_iff] at ha
    exact ⟨b, by rw [ha.2]; rfl⟩
  | @ecdsa key a b d c hc h ha hb hd =>
    rw [isString_iff] at ha
    exact ⟨b ++ d, by rw [ha.2, List.append_assoc]; rfl⟩
  | @dsa a b c d e p q g y h ha hb hc hd he =>
    rw [isString_iff] at ha
    exact ⟨b ++ c ++ d ++ e, by rw [ha.2]; simp [SshPub.wire]⟩

theorem otherKey_spki [Ext] {raw t blob : GoString} (h : OtherKey raw t blob) : ∃ oid params key, IsSpki raw oid params key := by
  cases h with
  | ed25519 h => exact ⟨_, _, _, h.1⟩
  | ecdsa _ h => obtain ⟨_, _, h, _⟩ := h; exact ⟨_, _, _, h⟩
  | dsa h => obtain ⟨_, _, _, _, _, _, _, h, _⟩ := h; exact ⟨_, _, _, h⟩

theorem spki_ne_nil [Ext] {raw oid params key : GoString} (h : IsSpki raw oid params key) : raw ≠ [] := by
  have := spki_length h
  rintro rfl
  simp at this

theorem pem_mentions [Ext] {a b text der : GoString} {k : ReqKey} (hk : k.payload = a ++ text ++ b) (ht : IsPem text der) :
    Contains (gs! "RSA PUBLIC KEY") k.payload := by
  obtain ⟨lines, _, rfl⟩ := ht
  refine ⟨a ++ gs! "-----BEGIN ", gs! "-----\n" ++ lines ++ gs! "-----END RSA PUBLIC KEY-----\n" ++ b, ?_⟩
  rw [hk]
  simp

/-- C113: the block `RSA PUBLIC KEY` need not hold an RSA key.  An Ed25519, ECDSA (P-256, P-384 or P-521) or DSA key in X.509 form is
accepted as well, under the SSH name of its own algorithm and with the fingerprints of its SSH form. -/
theorem C113_other_key_accepted [Ext] {now : Clock} {id : GoString} {k : ReqKey} {a b text der t blob : GoString}
    (hu : k.usage = gs! "ssh") (hk : k.payload = a ++ text ++ b) (ha : Blank a) (hb : Blank b) (ht : IsPem text der)
    (hd : OtherKey der t blob) (hlen : der.length < 2 ^ 31) :
    newPublicKey now id k = .ok
      { freshKey now id k with
        type := t, fingerprint := Sha256Print blob, fingerprintMD5 := Md5Print blob, openSSH := b64Encode blob ++ [10] } := by
  obtain ⟨r, rfl⟩ := otherKey_wire hd
  obtain ⟨_, _, _, hs⟩ := otherKey_spki hd
  have hpem : pemDecode (trimSpace k.payload) = some (gs! "RSA PUBLIC KEY", der) := by
    rw [hk, isPem_iff.1 ht]
    exact pemDecode_encode (spki_ne_nil hs) ha hb
  rw [C69_accepts_iff]
  exact ⟨.inl hu, .inl ⟨pem_mentions hk ht, hu, _, _, hpem, (pkixToSsh_other_iff hlen).2 hd, rfl⟩⟩

/-- C113: and nothing else is.  Whatever is stored from a PEM payload with another type than `ssh-rsa` stands in a block
`RSA PUBLIC KEY` and is a key of one of these algorithms. -/
theorem C113_stored_key_is_in_the_block [Ext] {now : Clock} {id : GoString} {k : ReqKey} {p : PublicKey}
    (hp : newPublicKey now id k = .ok p) (hc : Contains (gs! "RSA PUBLIC KEY") k.payload) (ht : p.type ≠ gs! "ssh-rsa") :
    k.usage = gs! "ssh" ∧ ∃ a text b der blob,
      k.payload = a ++ text ++ b ∧ Blank a ∧ Blank b ∧ HasBlock text (gs! "RSA PUBLIC KEY") der ∧
      (der.length < 2 ^ 31 → OtherKey der p.type blob) ∧ p.fingerprint = Sha256Print blob ∧ p.fingerprintMD5 = Md5Print blob ∧
      p.openSSH = b64Encode blob ++ [10] ∧ p.payload = k.payload := by
  rw [C69_accepts_iff] at hp
  rcases hp.2 with h1 | h1 | h1
  · obtain ⟨_, hu, der, key, h2, h3, rfl⟩ := h1
    obtain ⟨a, b, ha, hb, hs, _⟩ := trimSpace_spec k.payload
    cases key with
    | rsa e n => exact absurd rfl ht
    | other t r =>
      exact ⟨hu, a, _, b, der, (SshPub.other t r).wire, hs, ha, hb, pemDecode_spec h2, fun hl => (pkixToSsh_other_iff hl).1 h3, rfl,
        rfl, rfl, rfl⟩
  · exact absurd hc h1.1
  · exact absurd hc h1.1

theorem otherKey_type [Ext] {raw t blob : GoString} (h : OtherKey raw t blob) :
    t ∈ [gs! "ssh-dss", gs! "ecdsa-sha2-nistp256", gs! "ecdsa-sha2-nistp384", gs! "ecdsa-sha2-nistp521", gs! "ssh-ed25519"] := by
  cases h with
  | ed25519 => decide
  | ecdsa hc =>
    simp only [sshCurves, List.mem_cons, List.not_mem_nil, or_false] at hc
    rcases hc with rfl | rfl | rfl <;> decide
  | dsa => decide

/-- C113: every key stored from a PEM payload has one of six types, and for each of them `ssh-rsa` alone is an RSA key. -/
theorem C113_types [Ext] {now : Clock} {id : GoString} {k : ReqKey} {p : PublicKey} (hp : newPublicKey now id k = .ok p)
    (hc : Contains (gs! "RSA PUBLIC KEY") k.payload) :
    p.type ∈ [gs! "ssh-rsa", gs! "ssh-dss", gs! "ecdsa-sha2-nistp256", gs! "ecdsa-sha2-nistp384", gs! "ecdsa-sha2-nistp521",
      gs! "ssh-ed25519"] := by
  rw [C69_accepts_iff] at hp
  rcases hp.2 with h1 | h1 | h1
  · obtain ⟨_, hu, der, key, h2, h3, rfl⟩ := h1
    rcases pkixToSsh_type h3 with h | ⟨kind, h⟩
    · show key.type ∈ _
      rw [h]; decide
    · show key.type ∈ _
      rw [h]; cases kind <;> decide
  · exact absurd hc h1.1
  · exact absurd hc h1.1

/-- C113: a key on the curve P-224 is understood but not taken over, since SSH has no such keys. -/
theorem C113_p224_refused [Ext] {now : Clock} {id : GoString} {k : ReqKey} {a b text der key : GoString}
    (hu : k.usage = gs! "ssh") (hk : k.payload = a ++ text ++ b) (ha : Blank a) (hb : Blank b) (ht : IsPem text der)
    (hd : EcSpki der p224 key) (hlen : der.length < 2 ^ 31) :
    newPublicKey now id k = .err (.ext (gs! "failed ssh.NewPublicKey")) := by
  have hs : ∃ oid params key, IsSpki der oid params key := by obtain ⟨_, _, h, _⟩ := hd; exact ⟨_, _, _, h⟩
  obtain ⟨_, _, _, hs⟩ := hs
  have hpem : pemDecode (trimSpace k.payload) = some (gs! "RSA PUBLIC KEY", der) := by
    rw [hk, isPem_iff.1 ht]
    exact pemDecode_encode (spki_ne_nil hs) ha hb
  have hc := pem_mentions hk ht
  have hne : k.payload ≠ [] := by
    rintro h
    obtain ⟨x, y, hxy⟩ := hc
    rw [h] at hxy
    have := congrArg List.length hxy
    simp at this
  obtain ⟨e1, e2⟩ := parsePKIXOther_complete (k := .ec curve224 key) hlen ⟨p224, .inl ⟨rfl, rfl⟩, hd⟩
  have hx : pkixToSsh der = some none := by rw [pkixToSsh, e2, e1]; rfl
  unfold newPublicKey parsePublicKey
  dsimp only
  rw [if_neg (by simp [hu]), if_neg hne, if_pos (containsSub_iff.2 hc), parsePublicKeyRSA_eq]
  dsimp only
  rw [if_neg (by simp [hu]), hpem]
  dsimp only
  rw [if_neg (by simp), hx]

theorem spki_exists [Ext] {oid params key : GoString} (hl : oid.length + params.length + key.length < 2 ^ 30) :
    ∃ raw, IsSpki raw oid params key ∧ raw.length < 2 ^ 31 := by
  obtain ⟨o1, o2⟩ := element_exists 0x06 (c := oid) (by omega)
  generalize derElem 0x06 oid = o at *
  obtain ⟨a1, a2⟩ := element_exists 0x30 (c := o ++ params) (by simp only [List.length_append]; omega)
  generalize derElem 0x30 (o ++ params) = alg at *
  simp only [List.length_append] at a2
  obtain ⟨b1, b2⟩ := element_exists 0x03 (c := 0 :: key) (by simp only [List.length_cons]; omega)
  generalize derElem 0x03 (0 :: key) = bits at *
  simp only [List.length_cons] at b2
  obtain ⟨r1, r2⟩ := element_exists 0x30 (c := alg ++ bits ++ []) (by simp only [List.length_append, List.length_nil]; omega)
  simp only [List.length_append, List.length_nil] at r2
  exact ⟨_, ⟨alg, o, bits, 0 :: key, [], r1, a1, o1, b1, 0, key, rfl, by decide, fun _ => rfl, rfl, by simp⟩, by omega⟩

/-- C113: no check is made of an Ed25519 key but for its length: any 32 bytes are accepted as one. -/
theorem C113_any_32_bytes [Ext] {key : GoString} (h : key.length = 32) :
    ∃ payload blob a b, IsString a (gs! "ssh-ed25519") ∧ IsString b key ∧ blob = a ++ b ∧ ∀ (now : Clock) (id : GoString),
      ∃ p, newPublicKey now id { usage := gs! "ssh", payload := payload } = .ok p ∧ p.type = gs! "ssh-ed25519" ∧
        p.openSSH = b64Encode blob ++ [10] ∧ p.fingerprint = Sha256Print blob := by
  obtain ⟨der, hd, hl⟩ := spki_exists (oid := [0x2b, 0x65, 0x70]) (params := []) (key := key) (by simp [h])
  have ha : IsString (sshString (gs! "ssh-ed25519")) (gs! "ssh-ed25519") := isString_iff.2 ⟨by decide, rfl⟩
  have hb : IsString (sshString key) key := isString_iff.2 ⟨by rw [h]; decide, rfl⟩
  refine ⟨pemEncode (gs! "RSA PUBLIC KEY") der, _, _, _, ha, hb, rfl, fun now id => ⟨_, C113_other_key_accepted (a := []) (b := [])
    rfl (by simp) blank_nil blank_nil (isPem_iff.2 rfl) (.ed25519 ⟨hd, h⟩ ha hb) hl, rfl, rfl, rfl⟩⟩

theorem integer_exists [Ext] {v : Int} (hv : 0 < v) (hl : (intBytes v).length < 2 ^ 26) :
    ∃ raw, IsInteger raw v ∧ raw.length < 2 ^ 26 + 6 := by
  obtain ⟨h1, h2⟩ := element_exists 0x02 (c := intBytes v) (by omega)
  refine ⟨_, ⟨_, h1, ?_⟩, by omega⟩
  rw [derInteger_iff, if_neg (by omega)]

/-- C113: nor of the numbers of a DSA key but for their signs: any four positive numbers are accepted as one, such as the number one
four times. -/
theorem C113_any_four_numbers [Ext] {p q g y : Int} (hp : 0 < p) (hq : 0 < q) (hg : 0 < g) (hy : 0 < y)
    (hl : (intBytes p).length < 2 ^ 26 ∧ (intBytes q).length < 2 ^ 26 ∧ (intBytes g).length < 2 ^ 26 ∧ (intBytes y).length < 2 ^ 26) :
    ∃ payload blob a b c d e, IsString a (gs! "ssh-dss") ∧ IsMpint b p ∧ IsMpint c q ∧ IsMpint d g ∧ IsMpint e y ∧
      blob = a ++ b ++ c ++ d ++ e ∧ ∀ (now : Clock) (id : GoString),
        ∃ k, newPublicKey now id { usage := gs! "ssh", payload := payload } = .ok k ∧ k.type = gs! "ssh-dss" ∧
          k.openSSH = b64Encode blob ++ [10] ∧ k.fingerprint = Sha256Print blob := by
  obtain ⟨pi, p1, p2⟩ := integer_exists hp hl.1
  obtain ⟨qi, q1, q2⟩ := integer_exists hq hl.2.1
  obtain ⟨gi, g1, g2⟩ := integer_exists hg hl.2.2.1
  obtain ⟨yi, y1, y2⟩ := integer_exists hy hl.2.2.2
  obtain ⟨s1, s2⟩ := element_exists 0x30 (c := pi ++ qi ++ gi ++ []) (by simp only [List.length_append, List.length_nil]; omega)
  generalize derElem 0x30 (pi ++ qi ++ gi ++ []) = seq at *
  simp only [List.length_append, List.length_nil] at s2
  obtain ⟨der, hd, hlen⟩ := spki_exists (oid := [0x2a, 0x86, 0x48, 0xce, 0x38, 0x04, 0x01]) (params := seq ++ []) (key := yi) (by
    simp only [List.length_append, List.length_cons, List.length_nil]; omega)
  have ha : IsString (sshString (gs! "ssh-dss")) (gs! "ssh-dss") := isString_iff.2 ⟨by decide, rfl⟩
  have hb := isMpint_iff.2 ⟨show (intBytes p).length < 2 ^ 32 by omega, rfl⟩
  have hc := isMpint_iff.2 ⟨show (intBytes q).length < 2 ^ 32 by omega, rfl⟩
  have hdd := isMpint_iff.2 ⟨show (intBytes g).length < 2 ^ 32 by omega, rfl⟩
  have he := isMpint_iff.2 ⟨show (intBytes y).length < 2 ^ 32 by omega, rfl⟩
  refine ⟨pemEncode (gs! "RSA PUBLIC KEY") der, _, _, _, _, _, _, ha, hb, hc, hdd, he, rfl, fun now id =>
    ⟨_, C113_other_key_accepted (a := []) (b := []) rfl (by simp) blank_nil blank_nil (isPem_iff.2 rfl)
      (.dsa ⟨yi, seq, pi, qi, gi, [], [], hd, s1, p1, q1, g1, y1, hp, hq, hg, hy⟩ ha hb hc hdd he) hlen, rfl, rfl, rfl⟩⟩

/-- What is made of an OpenSSH line whose base64 text can be read. -/
theorem line_outcome [Ext] {now : Clock} {id : GoString} {k : ReqKey} {f c raw : GoString} (h : IsLine k f c)
    (hf : b64Decode f = some raw) :
    (sshParse raw = none ∧ newPublicKey now id k = .err (.withE .publicKeyParse [] (.ext (gs! "ssh")))) ∨
    (∃ t w, sshParse raw = some (.other t w) ∧ newPublicKey now id k = .err (.withV .publicKeyTypeUnsupported [t] [])) ∨
    ∃ e n p, sshParse raw = some (.rsa e n) ∧ newPublicKey now id k = .ok p := by
  have hc : containsSub (gs! "RSA PUBLIC KEY") k.payload = false := by
    rw [← Bool.not_eq_true, containsSub_iff]; exact h.notPem
  have hpre : hasPrefix k.payload (gs! "ssh-rsa ") = true := List.isPrefixOf_iff_prefix.2 h.start
  have hne : k.payload ≠ [] := by
    rintro e
    have := h.start
    rw [e] at this
    simp at this
  have hs := (lineFields_iff h.start).1 h.fields
  have hu : ¬ ¬ (k.usage = gs! "ssh" ∨ k.usage = gs! "gpg") := not_not_intro h.usage
  unfold newPublicKey parsePublicKey
  dsimp only
  rw [if_neg hu, if_neg hne, hc, if_neg (by decide), if_pos hpre, parsePublicKeyOpenSSH_eq]
  dsimp only
  rw [hs, hf]
  dsimp only
  cases hk : sshParse raw with
  | none => exact .inl ⟨rfl, rfl⟩
  | some key =>
    cases key with
    | rsa e n => exact .inr (.inr ⟨e, n, _, rfl, rfl⟩)
    | other t w => exact .inr (.inl ⟨t, w, rfl, rfl⟩)

/-- C113: a line with such a key is refused, and the error names the type of the key.  For an ECDSA key that is the type of the
curve, whatever name the key bears. -/
theorem C113_line_refused [Ext] {now : Clock} {id : GoString} {k : ReqKey} {f c raw t : GoString} (h : IsLine k f c)
    (hf : b64Decode f = some raw) (ho : OtherBlob raw t) :
    newPublicKey now id k = .err (.withV .publicKeyTypeUnsupported [t] []) := by
  obtain ⟨w, hw⟩ := sshParse_plain ho
  rcases line_outcome (now := now) (id := id) h hf with ⟨h1, _⟩ | ⟨t', w', h1, h2⟩ | ⟨_, _, _, h1, _⟩
  · rw [hw] at h1; simp at h1
  · rw [hw] at h1
    simp only [Option.some.injEq, SshPub.other.injEq] at h1
    rw [h1.1]; exact h2
  · rw [hw] at h1; simp at h1

/-- C113: conversely that error is given only for these keys and for certificates; anything else that is not an RSA key is refused
as unreadable. -/
theorem C113_line_errors [Ext] {now : Clock} {id : GoString} {k : ReqKey} {f c raw : GoString} (h : IsLine k f c)
    (hf : b64Decode f = some raw) (hr : ¬ ∃ e n, OddExponent e ∧ RsaBlob raw e n) :
    newPublicKey now id k = .err (.withE .publicKeyParse [] (.ext (gs! "ssh"))) ∨
    ∃ t, newPublicKey now id k = .err (.withV .publicKeyTypeUnsupported [t] []) ∧
      (OtherBlob raw t ∨ ∃ a r name, raw = a ++ r ∧ IsString a name ∧ gs! "-cert-v01@openssh.com" <:+ name) := by
  have hcert : ∀ x ∈ certTypes.map (·.2), gs! "-cert-v01@openssh.com" <:+ x := by decide
  rcases line_outcome (now := now) (id := id) h hf with ⟨_, h1⟩ | ⟨t, w, h1, h2⟩ | ⟨e, n, p, h1, _⟩
  · exact .inl h1
  · refine .inr ⟨t, h2, ?_⟩
    rcases sshParse_other h1 with h3 | ⟨a, r, name, h3, h4, h5⟩
    · exact .inl h3
    · exact .inr ⟨a, r, name, h3, h4, hcert _ h5⟩
  · exact absurd ⟨e, n, sshParse_rsa_iff.1 h1⟩ hr

/-- C113: so one and the same Ed25519 or ECDSA key is accepted in a PEM block and refused as an OpenSSH line. -/
theorem C113_format_decides [Ext] {now : Clock} {id : GoString} {k : ReqKey} {f c der t blob : GoString} (h : IsLine k f c)
    (hf : b64Decode f = some blob) (ho : OtherKey der t blob) (ht : t ≠ gs! "ssh-dss") :
    newPublicKey now id k = .err (.withV .publicKeyTypeUnsupported [t] []) := by
  refine C113_line_refused h hf ?_
  cases ho with
  | ed25519 h ha hb => exact .ed25519 ha hb h.2
  | ecdsa hc h ha hb hd =>
    obtain ⟨_, _, _, _, hk⟩ := h
    exact .ecdsa hc hc ha hb hd hk
  | dsa => exact absurd rfl ht

/-! ## Concrete cases

Keys made with `openssl genpkey`, their labels changed to `RSA PUBLIC KEY`; the fingerprints are those that `ssh-keygen -l` and
`ssh-keygen -E md5 -l` show for them. -/

/-- A key of type `ssh-ed25519`. -/
def ed25519Pem : GoString := gs!
"-----BEGIN RSA PUBLIC KEY-----\nMCowBQYDK2VwAyEAgclJ5IeIWp/Oi0eR5r8JO0YYCNXgomQ+AjtdYe4bcuA=\n-----END RSA PUBLIC KEY-----\n"

example : newPublicKey nd.now [1] { usage := gs! "ssh", payload := ed25519Pem } = .ok
    { freshKey nd.now [1] { usage := gs! "ssh", payload := ed25519Pem } with
      type := gs! "ssh-ed25519", fingerprint := gs! "s8MenLsAg3LuORknd2oYN8nCTAusHEFHFRB+58bOmpU"
      fingerprintMD5 := gs! "5a:61:87:76:4f:cf:23:35:d1:b4:f7:b8:5b:59:78:26"
      openSSH := gs!
"AAAAC3NzaC1lZDI1NTE5AAAAIIHJSeSHiFqfzotHkea/CTtGGAjV4KJkPgI7XWHuG3Lg\n" } := by
  decide +kernel

/-- A key of type `ecdsa-sha2-nistp256`. -/
def p256Pem : GoString := gs!
"-----BEGIN RSA PUBLIC KEY-----\nMFkwEwYHKoZIzj0CAQYIKoZIzj0DAQcDQgAEJ6UsJ8CLRJ8wjQmqn1ZmMrfu3qjw\nF7QVRivAUXAQK5hTmZUJqhV03Ytb5gJgqzPsgF3ritzKEXvoWnNEb6dkXQ==\n-----END RSA PUBLIC KEY-----\n"

example : newPublicKey nd.now [1] { usage := gs! "ssh", payload := p256Pem } = .ok
    { freshKey nd.now [1] { usage := gs! "ssh", payload := p256Pem } with
      type := gs! "ecdsa-sha2-nistp256", fingerprint := gs! "jYMklLQNwrrvk3fLDQ/P/5tMuDq7iiHLhTu/3CmxwgY"
      fingerprintMD5 := gs! "ab:d9:96:d4:35:7e:d3:54:00:55:8a:12:88:35:14:fe"
      openSSH := gs!
"AAAAE2VjZHNhLXNoYTItbmlzdHAyNTYAAAAIbmlzdHAyNTYAAABBBCelLCfAi0SfMI0Jqp9WZjK37t6o8Be0FUYrwFFwECuYU5mVCaoVdN2LW+YCYKsz7IBd64rcyhF76FpzRG+nZF0=\n" } := by
  decide +kernel

/-- A key of type `ecdsa-sha2-nistp384`. -/
def p384Pem : GoString := gs!
"-----BEGIN RSA PUBLIC KEY-----\nMHYwEAYHKoZIzj0CAQYFK4EEACIDYgAE+1bDm8Blb+9TjmxI9bdqq3s/zAz++RAW\n84V1/vDIgnKWbrGRc21U7cykjbLEz60r7pBhIFJNbQ5FPta63SU0Q61FQUM5G9PT\ns6c4lHJbsQ+MzJFgo92/ZY0tbESwqDlj\n-----END RSA PUBLIC KEY-----\n"

example : newPublicKey nd.now [1] { usage := gs! "ssh", payload := p384Pem } = .ok
    { freshKey nd.now [1] { usage := gs! "ssh", payload := p384Pem } with
      type := gs! "ecdsa-sha2-nistp384", fingerprint := gs! "4FuGid3pk6maIGigIgvnxSxRQ66BPKqy7z811gBlfpc"
      fingerprintMD5 := gs! "42:f7:97:cd:2c:58:2a:2c:cb:9c:f6:a1:93:40:b2:90"
      openSSH := gs!
"AAAAE2VjZHNhLXNoYTItbmlzdHAzODQAAAAIbmlzdHAzODQAAABhBPtWw5vAZW/vU45sSPW3aqt7P8wM/vkQFvOFdf7wyIJylm6xkXNtVO3MpI2yxM+tK+6QYSBSTW0ORT7Wut0lNEOtRUFDORvT07OnOJRyW7EPjMyRYKPdv2WNLWxEsKg5Yw==\n" } := by
  decide +kernel

/-- A key of type `ecdsa-sha2-nistp521`. -/
def p521Pem : GoString := gs!
"-----BEGIN RSA PUBLIC KEY-----\nMIGbMBAGByqGSM49AgEGBSuBBAAjA4GGAAQAe1tLICYB8lSgB8pkIxk6xfbcgsIa\now3PtzNcbme56w6xvdJuU8kDn+MoxDnG4QrRoOh6YcfiwEcESTpw+D8lw/oBmbUx\n+q91U+kffySh1i9ivSvY6Hg2qzxGfjSlL25Ic1IinF3UmNbD72VvqdfRpzBgSDuE\ncubf//qiBwndFSRk+ac=\n-----END RSA PUBLIC KEY-----\n"

example : newPublicKey nd.now [1] { usage := gs! "ssh", payload := p521Pem } = .ok
    { freshKey nd.now [1] { usage := gs! "ssh", payload := p521Pem } with
      type := gs! "ecdsa-sha2-nistp521", fingerprint := gs! "KqhxhflTVDoMotcm0QG05ZkItA8WYrHnrAYkh7zmXEQ"
      fingerprintMD5 := gs! "28:47:ca:d0:7f:57:cc:5e:60:b4:42:6b:9b:5a:6d:8c"
      openSSH := gs!
"AAAAE2VjZHNhLXNoYTItbmlzdHA1MjEAAAAIbmlzdHA1MjEAAACFBAB7W0sgJgHyVKAHymQjGTrF9tyCwhqjDc+3M1xuZ7nrDrG90m5TyQOf4yjEOcbhCtGg6Hphx+LARwRJOnD4PyXD+gGZtTH6r3VT6R9/JKHWL2K9K9joeDarPEZ+NKUvbkhzUiKcXdSY1sPvZW+p19GnMGBIO4Ry5t//+qIHCd0VJGT5pw==\n" } := by
  decide +kernel

/-- A key of type `ssh-dss`. -/
def dsaPem : GoString := gs!
"-----BEGIN RSA PUBLIC KEY-----\nMIIBvjCCATMGByqGSM44BAEwggEmAoGBAOxjlbe5FrYnqkmB43dkPgwfrFZwVaM7\naR0HxhGfZ2CbFUwabkq6JoOqfbeHX5H76wGkbealuAePT03xW4zFsr8ZHEsSPAkG\nviwptAz94IA1zbAyXNhqDfeJvmC0+D8rbdTB4kDrtu4MMHUFB563tQOEP4WRs/yo\nRk8vPA+6hxsnAh0A3Vf87DB70C5EuxJ60iLFp++oLD7WuGBIcX/98wKBgHg1y+dM\nZGy8Ex5psf13vis08gJG8ZFToCuSprD0xR+rngu0W5pe5N4TZhpTTV52STUXqwiI\n3quJ73bkqsPmtpd48+y/2F03U1vP+dQo0d/y/q8rMv+55r5i3Pez0T/t1Qmf8Gfi\noAZeY0tacuXnUAbXMAuxsbRtwR/9bsDEqLlQA4GEAAKBgEb8VY/bOVJU/SuIivYi\nVHVcfFTGJM5yUkb3LSDxlodFLfXDjGKvbVGl2gFJB9Iw3IzGU1SeYq4ZNoMAo3r0\nltg4vgHFQHh/zZ6P/zTxQRG78bXYGQukghc4lQSMvx5p0bOeVRlg38RRa5yjH+Q+\nQa+rwPcbv9r82sKXVgKeTTwU\n-----END RSA PUBLIC KEY-----\n"

example : newPublicKey nd.now [1] { usage := gs! "ssh", payload := dsaPem } = .ok
    { freshKey nd.now [1] { usage := gs! "ssh", payload := dsaPem } with
      type := gs! "ssh-dss", fingerprint := gs! "byPmCffpvURYRqm1rRY0ng1f2uCLLiXFQd5YCYWSz+A"
      fingerprintMD5 := gs! "a9:d5:8f:09:88:15:e5:8d:a6:ab:5d:37:b6:ad:e4:f6"
      openSSH := gs!
"AAAAB3NzaC1kc3MAAACBAOxjlbe5FrYnqkmB43dkPgwfrFZwVaM7aR0HxhGfZ2CbFUwabkq6JoOqfbeHX5H76wGkbealuAePT03xW4zFsr8ZHEsSPAkGviwptAz94IA1zbAyXNhqDfeJvmC0+D8rbdTB4kDrtu4MMHUFB563tQOEP4WRs/yoRk8vPA+6hxsnAAAAHQDdV/zsMHvQLkS7EnrSIsWn76gsPta4YEhxf/3zAAAAgHg1y+dMZGy8Ex5psf13vis08gJG8ZFToCuSprD0xR+rngu0W5pe5N4TZhpTTV52STUXqwiI3quJ73bkqsPmtpd48+y/2F03U1vP+dQo0d/y/q8rMv+55r5i3Pez0T/t1Qmf8GfioAZeY0tacuXnUAbXMAuxsbRtwR/9bsDEqLlQAAAAgEb8VY/bOVJU/SuIivYiVHVcfFTGJM5yUkb3LSDxlodFLfXDjGKvbVGl2gFJB9Iw3IzGU1SeYq4ZNoMAo3r0ltg4vgHFQHh/zZ6P/zTxQRG78bXYGQukghc4lQSMvx5p0bOeVRlg38RRa5yjH+Q+Qa+rwPcbv9r82sKXVgKeTTwU\n" } := by
  decide +kernel

/-- A key on the curve P-224. -/
example : newPublicKey nd.now [1] { usage := gs! "ssh", payload := gs!
"-----BEGIN RSA PUBLIC KEY-----\nME4wEAYHKoZIzj0CAQYFK4EEACEDOgAEOiYnydXUtlVqun5p5VWcmFNeZG6L5bn8\neDvI9S6cvR+NxOLeeR1ByFZrc8AOPWpRxL3bhq/Sitg=\n-----END RSA PUBLIC KEY-----\n" } =
    .err (.ext (gs! "failed ssh.NewPublicKey")) := by decide +kernel

/-- The hypotheses of the theorems hold of the Ed25519 key. -/
def edDer : GoString := [0x30, 0x2a, 0x30, 0x05, 0x06, 0x03, 0x2b, 0x65, 0x70, 0x03, 0x21, 0x00] ++ List.replicate 32 7

example : ∃ blob, OtherKey edDer (gs! "ssh-ed25519") blob ∧ edDer.length < 2 ^ 31 :=
  ⟨_, (pkixToSsh_other_iff (by decide)).1 (show pkixToSsh edDer = some (some (.other (gs! "ssh-ed25519")
    (sshString (List.replicate 32 7)))) by decide +kernel), by decide⟩

/-- A byte too few, and parameters where none may be. -/
example : pkixToSsh ([0x30, 0x29, 0x30, 0x05, 0x06, 0x03, 0x2b, 0x65, 0x70, 0x03, 0x20, 0x00] ++ List.replicate 31 7) = none ∧
    pkixToSsh ([0x30, 0x2c, 0x30, 0x07, 0x06, 0x03, 0x2b, 0x65, 0x70, 0x05, 0x00, 0x03, 0x21, 0x00] ++ List.replicate 32 7) = none ∧
    (pkixToSsh ([0x30, 0x2a, 0x30, 0x05, 0x06, 0x03, 0x2b, 0x65, 0x70, 0x03, 0x21, 0x00] ++ List.replicate 32 7)).isSome = true := by
  decide +kernel

/-- The numbers one, four times, as a DSA key. -/
example : pkixToSsh [0x30, 0x1c, 0x30, 0x14, 0x06, 0x07, 0x2a, 0x86, 0x48, 0xce, 0x38, 0x04, 0x01, 0x30, 0x09, 2, 1, 1, 2, 1, 1, 2, 1, 1,
    0x03, 0x04, 0x00, 2, 1, 1] = some (some (.other (gs! "ssh-dss") (dsaWire 1 1 1 1))) := by decide +kernel

/-- The bytes of the P-256 key with one bit of the point changed. -/
example : (pemDecode p256Pem).any (fun x => (pkixToSsh x.2).isSome && !(pkixToSsh (x.2.set 40 0)).isSome) = true := by decide +kernel

/-- Lines with the P-256 key, under its own name and under that of P-384, and with certificates that `ssh-keygen -s` made. -/
def ecLine (name : GoString) : GoString :=
  gs! "ssh-rsa " ++ b64Encode (sshString name ++ ((b64Decode (gs!
"AAAAE2VjZHNhLXNoYTItbmlzdHAyNTYAAAAIbmlzdHAyNTYAAABBBCelLCfAi0SfMI0Jqp9WZjK37t6o8Be0FUYrwFFwECuYU5mVCaoVdN2LW+YCYKsz7IBd64rcyhF76FpzRG+nZF0=")).getD []).drop 23)

example : newPublicKey nd.now [1] { usage := gs! "ssh", payload := ecLine (gs! "ecdsa-sha2-nistp256") } =
      .err (.withV .publicKeyTypeUnsupported [gs! "ecdsa-sha2-nistp256"] []) ∧
    newPublicKey nd.now [1] { usage := gs! "ssh", payload := ecLine (gs! "ecdsa-sha2-nistp384") } =
      .err (.withV .publicKeyTypeUnsupported [gs! "ecdsa-sha2-nistp256"] []) ∧
    newPublicKey nd.now [1] { usage := gs! "ssh", payload := ecLine (gs! "ecdsa-sha2-nistp224") } =
      .err (.withE .publicKeyParse [] (.ext (gs! "ssh"))) := by decide +kernel

example : newPublicKey nd.now [1] { usage := gs! "ssh", payload := gs!
"ssh-rsa AAAAHHNzaC1yc2EtY2VydC12MDFAb3BlbnNzaC5jb20AAAAgOyE8dTXAGJMF3cwCoxIw4DR8k+UJ2dywsi1fMZXQlYEAAAADAQABAAAAgQDokhXQC4f5W9cbS6LRoB/QmFXx18uazhItMt7qSTw+7x2paFEEXGY76doT7EBfCvo9td3kGIGbRdUcokH5QXKkqIVpbv9+zPQHAcDHXH146HB4ImYaC9RukGXPDozpeYs4I9doY2GohAEkepCCbkMaTenKT/gRdi2Hoqjm74iYIwAAAAAAAAAAAAAAAQAAAANqb2UAAAAOAAAAA2pvZQAAAANhbm4AAAAAavu2iAAAAABs25jOAAAAAAAAAIIAAAAVcGVybWl0LVgxMS1mb3J3YXJkaW5nAAAAAAAAABdwZXJtaXQtYWdlbnQtZm9yd2FyZGluZwAAAAAAAAAWcGVybWl0LXBvcnQtZm9yd2FyZGluZwAAAAAAAAAKcGVybWl0LXB0eQAAAAAAAAAOcGVybWl0LXVzZXItcmMAAAAAAAAAAAAAADMAAAALc3NoLWVkMjU1MTkAAAAgOiAqz7QfeKBS2sEIDZzsL7MfJ6mCiIHqxwNpThBmVogAAABTAAAAC3NzaC1lZDI1NTE5AAAAQKxVpLMBOsUSOT28CrTuYCtE6kIfaDgmlpZDY8SxIjorAGzYJMXzeIwE0CspR89eNgXscvOkdUyuinmsqpsHQAg=" } =
    .err (.withV .publicKeyTypeUnsupported [gs! "ssh-rsa-cert-v01@openssh.com"] []) := by decide +kernel

/-- The same without its last three bytes. -/
example : newPublicKey nd.now [1] { usage := gs! "ssh", payload := gs!
"ssh-rsa AAAAHHNzaC1yc2EtY2VydC12MDFAb3BlbnNzaC5jb20AAAAgOyE8dTXAGJMF3cwCoxIw4DR8k+UJ2dywsi1fMZXQlYEAAAADAQABAAAAgQDokhXQC4f5W9cbS6LRoB/QmFXx18uazhItMt7qSTw+7x2paFEEXGY76doT7EBfCvo9td3kGIGbRdUcokH5QXKkqIVpbv9+zPQHAcDHXH146HB4ImYaC9RukGXPDozpeYs4I9doY2GohAEkepCCbkMaTenKT/gRdi2Hoqjm74iYIwAAAAAAAAAAAAAAAQAAAANqb2UAAAAOAAAAA2pvZQAAAANhbm4AAAAAavu2iAAAAABs25jOAAAAAAAAAIIAAAAVcGVybWl0LVgxMS1mb3J3YXJkaW5nAAAAAAAAABdwZXJtaXQtYWdlbnQtZm9yd2FyZGluZwAAAAAAAAAWcGVybWl0LXBvcnQtZm9yd2FyZGluZwAAAAAAAAAKcGVybWl0LXB0eQAAAAAAAAAOcGVybWl0LXVzZXItcmMAAAAAAAAAAAAAADMAAAALc3NoLWVkMjU1MTkAAAAgOiAqz7QfeKBS2sEIDZzsL7MfJ6mCiIHqxwNpThBmVogAAABTAAAAC3NzaC1lZDI1NTE5AAAAQKxVpLMBOsUSOT28CrTuYCtE6kIfaDgmlpZDY8SxIjorAGzYJMXzeIwE0CspR89eNgXscvOkdUyuinmsqps=" } =
    .err (.withE .publicKeyParse [] (.ext (gs! "ssh"))) := by decide +kernel

example : newPublicKey nd.now [1] { usage := gs! "ssh", payload := gs!
"ssh-rsa AAAAKGVjZHNhLXNoYTItbmlzdHAyNTYtY2VydC12MDFAb3BlbnNzaC5jb20AAAAg4OI2vQvMRyw8kEIR8JcaT5Km4VGJYaDa14nqzp8SuE8AAAAIbmlzdHAyNTYAAABBBH0PFQejQTz97rstanV9U2ckqX9qelMCjNx0bnGFwkx6R2SwqrqeSEvSo+yb77MdZN5ycfYpuv7Kyg201FQviKAAAAAAAAAAAAAAAAIAAAADd2ViAAAABwAAAAN3ZWIAAAAAAAAAAP//////////AAAAAAAAAAAAAAAAAAAAlwAAAAdzc2gtcnNhAAAAAwEAAQAAAIEAyKxFeFM2OdPEqgl3i73mY2YMr3RemQSxznByoDz492Bm+zk1AsJuymN54125CEA2HnuPYS1WQ6lCSeattCHlvqa3h84SSKp2EfaBAO669OdSDYiOZDH/hLeyIyxcWt6wtIzEQV/v9Ikcs0S865m1cyOFEO5CXoN5CuBTqGLCRaMAAACUAAAADHJzYS1zaGEyLTUxMgAAAIDFwnKPNXjUwwX9bNLNNPO8/l3ddX3HW48FqaebShhHLKKrSmKoIZDh7np/cKz82dQgM3XWVEYOgTb/KekxuRnYCk8rGNf7xsiU9fpgFEcEww8G6mYxWAYz0O7eVKX4ExSrO+oWf7NX7oT3TVW35CFp2Bvv5116VCAMXo6sPx1Otg==" } =
    .err (.withV .publicKeyTypeUnsupported [gs! "ecdsa-sha2-nistp256-cert-v01@openssh.com"] []) := by decide +kernel

/-- The same without its last three bytes. -/
example : newPublicKey nd.now [1] { usage := gs! "ssh", payload := gs!
"ssh-rsa AAAAKGVjZHNhLXNoYTItbmlzdHAyNTYtY2VydC12MDFAb3BlbnNzaC5jb20AAAAg4OI2vQvMRyw8kEIR8JcaT5Km4VGJYaDa14nqzp8SuE8AAAAIbmlzdHAyNTYAAABBBH0PFQejQTz97rstanV9U2ckqX9qelMCjNx0bnGFwkx6R2SwqrqeSEvSo+yb77MdZN5ycfYpuv7Kyg201FQviKAAAAAAAAAAAAAAAAIAAAADd2ViAAAABwAAAAN3ZWIAAAAAAAAAAP//////////AAAAAAAAAAAAAAAAAAAAlwAAAAdzc2gtcnNhAAAAAwEAAQAAAIEAyKxFeFM2OdPEqgl3i73mY2YMr3RemQSxznByoDz492Bm+zk1AsJuymN54125CEA2HnuPYS1WQ6lCSeattCHlvqa3h84SSKp2EfaBAO669OdSDYiOZDH/hLeyIyxcWt6wtIzEQV/v9Ikcs0S865m1cyOFEO5CXoN5CuBTqGLCRaMAAACUAAAADHJzYS1zaGEyLTUxMgAAAIDFwnKPNXjUwwX9bNLNNPO8/l3ddX3HW48FqaebShhHLKKrSmKoIZDh7np/cKz82dQgM3XWVEYOgTb/KekxuRnYCk8rGNf7xsiU9fpgFEcEww8G6mYxWAYz0O7eVKX4ExSrO+oWf7NX7oT3TVW35CFp2Bvv5116VCAMXo6sPw==" } =
    .err (.withE .publicKeyParse [] (.ext (gs! "ssh"))) := by decide +kernel

end GoIdentity
