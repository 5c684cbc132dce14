import Verif.Lemmas.PemComplete
import Verif.Props.PemKeys
/-!
# Which block of a payload is read: C120
-/
namespace GoIdentity
open Toy

/-! ## C120 -/

/-- C120: what is cut off at the ends is the white space of Unicode, in UTF-8. -/
theorem C120_white_space (w : GoString) : w ∈ spaceRunes ↔ ∃ r, WhiteSpace r ∧ w = encodeRune r := by
  have h : spaceRunes = [9, 10, 11, 12, 13, 0x20, 0x85, 0xA0, 0x1680, 0x2000, 0x2001, 0x2002, 0x2003, 0x2004, 0x2005, 0x2006, 0x2007,
      0x2008, 0x2009, 0x200A, 0x2028, 0x2029, 0x202F, 0x205F, 0x3000].map encodeRune := by decide +kernel
  rw [h, List.mem_map]
  refine exists_congr fun r => ?_
  rw [eq_comm (a := w)]
  refine and_congr_left fun _ => ?_
  simp only [List.mem_cons, List.not_mem_nil, or_false, WhiteSpace]
  omega

example : trimSpace (encodeRune 0x2029 ++ gs! "a b" ++ encodeRune 0x3000 ++ gs! "\t") = gs! "a b" ∧ trimSpace (encodeRune 0x200B) ≠ [] := by
  decide +kernel

/-- C120: trimming leaves the one text that has no white space at its ends. -/
theorem C120_trim_iff [Ext] {s t : GoString} : trimSpace s = t ↔ Trimmed s t := trimSpace_iff

theorem newPublicKey_pem [Ext] {now : Clock} {id : GoString} {k : ReqKey} (hu : k.usage = gs! "ssh")
    (hc : Contains (gs! "RSA PUBLIC KEY") k.payload) {e : GoErr}
    (h : parsePublicKeyRSA (freshKey now id { k with disabled := false }) = .err e) : newPublicKey now id k = .err e := by
  have h1 : parsePublicKey (freshKey now id { k with disabled := false }) = .err e := by
    unfold parsePublicKey
    rw [if_neg (show ¬ ¬ ((freshKey now id { k with disabled := false }).usage = gs! "ssh" ∨ _) from fun h => h (.inl hu)),
      if_neg (show ¬ (freshKey now id { k with disabled := false }).payload = [] from ?_),
      if_pos (show containsSub (gs! "RSA PUBLIC KEY") (freshKey now id { k with disabled := false }).payload = true from
        containsSub_iff.2 hc)]
    · exact h
    · intro hp
      have hp : k.payload = [] := hp
      obtain ⟨a, b, hab⟩ := hc
      rw [hp] at hab
      simp at hab
  unfold newPublicKey
  have e1 : ({ id := id, usage := k.usage, type := [], fingerprint := [], fingerprintMD5 := [], comment := k.comment,
               payload := k.payload, openSSH := [], expired := false, expiredAt := .zero, createdAt := now 0,
               disabled := false, disabledAt := .zero } : PublicKey) = freshKey now id { k with disabled := false } := rfl
  rw [e1, h1]

/-- C120: a payload without any block is refused as a payload without a block type. -/
theorem C120_no_block [Ext] {now : Clock} {id : GoString} {k : ReqKey} {text : GoString} (hu : k.usage = gs! "ssh")
    (hc : Contains (gs! "RSA PUBLIC KEY") k.payload) (ht : Trimmed k.payload text) (hno : ∀ n label der, ¬ BlockAt text n label der) :
    newPublicKey now id k = .err (.withV .publicKeyBlockType [[]] []) := by
  refine newPublicKey_pem hu hc ?_
  unfold parsePublicKeyRSA
  rw [if_neg (show ¬ (freshKey now id { k with disabled := false }).usage ≠ gs! "ssh" from fun h => h hu),
    show (freshKey now id { k with disabled := false }).payload = k.payload from rfl, trimSpace_iff.2 ht]
  cases hd : pemDecode text with
  | none => rfl
  | some x =>
    obtain ⟨n, h⟩ := pemDecode_block hd
    exact absurd h (hno _ _ _)

/-- C120: if the first block has another label, the payload is refused with that label, whatever follows. -/
theorem C120_first_block_decides [Ext] {now : Clock} {id : GoString} {k : ReqKey} {text label der : GoString} (hu : k.usage = gs! "ssh")
    (hc : Contains (gs! "RSA PUBLIC KEY") k.payload) (ht : Trimmed k.payload text) (hf : FirstBlock text label der)
    (hcol : 58 ∉ label) (hl : label ≠ gs! "RSA PUBLIC KEY") :
    newPublicKey now id k = .err (.withV .publicKeyBlockType [label] []) := by
  refine newPublicKey_pem hu hc ?_
  unfold parsePublicKeyRSA
  rw [if_neg (show ¬ (freshKey now id { k with disabled := false }).usage ≠ gs! "ssh" from fun h => h hu),
    show (freshKey now id { k with disabled := false }).payload = k.payload from rfl, trimSpace_iff.2 ht, pemDecode_first hcol hf]
  dsimp only
  rw [if_pos hl]

theorem BlockAt.contains [Ext] {text label der : GoString} {n : Nat} (h : BlockAt text n label der) : Contains label text := by
  obtain ⟨_, pre, e, hdr, body, brk, post, h, _⟩ := h
  exact ⟨pre ++ gs! "-----BEGIN ", gs! "-----" ++ e ++ hdr ++ body ++ brk ++ gs! "-----END " ++ label ++ gs! "-----" ++ post, by
    rw [h]; simp⟩

/-- C120: the first block of the payload, with the label `RSA PUBLIC KEY`, is the one that is read: with text before and after it,
header lines, blanks, either line end and lines of any length. -/
theorem C120_first_block_read [Ext] {now : Clock} {id : GoString} {k : ReqKey} {text der blob : GoString} {e n : Int}
    (hu : k.usage = gs! "ssh") (ht : Trimmed k.payload text) (hf : FirstBlock text (gs! "RSA PUBLIC KEY") der)
    (hd : LooseSpki der e n) (hlen : der.length < 2 ^ 31) (he : 0 < e ∧ e < 2 ^ 63) (hn : 0 < n) (hblob : CanonicalBlob blob e n) :
    newPublicKey now id k = .ok
      { freshKey now id k with
        type := gs! "ssh-rsa", fingerprint := Sha256Print blob, fingerprintMD5 := Md5Print blob
        openSSH := b64Encode blob ++ [10] } := by
  obtain ⟨m, rfl⟩ : ∃ m : Nat, e = m := ⟨e.toNat, by omega⟩
  obtain ⟨b1, b2, _⟩ := rsaBlob_length hblob.1
  obtain rfl := (canonical_iff b2 b1).1 hblob
  have hpem : pemDecode (trimSpace k.payload) = some (gs! "RSA PUBLIC KEY", der) := by
    rw [trimSpace_iff.2 ht]
    exact pemDecode_first (by simp) hf
  have hkey : pkixToSsh der = some (some (.rsa m n)) := by
    rw [pkixToSsh, parsePKIX_rsa_iff.2 hlen ⟨hd, hn, by omega, by omega⟩]
  rw [C69_accepts_iff]
  refine ⟨.inl hu, .inl ⟨?_, hu, _, _, hpem, hkey, rfl⟩⟩
  obtain ⟨_, hb, _⟩ := hf
  obtain ⟨x, y, hxy⟩ := hb.contains
  obtain ⟨a, b, hk, _⟩ := ht
  exact ⟨a ++ x, y ++ b, by rw [hk, hxy]; simp⟩

/-- C120: so nothing but that block matters: two payloads with the same first block give the same key, with the same fingerprints,
but for the payload itself, which is stored as it came. -/
theorem C120_rest_is_not_read [Ext] {now : Clock} {id : GoString} {k : ReqKey} {payload text text' der : GoString} {p : PublicKey}
    (ht : Trimmed k.payload text) (hf : FirstBlock text (gs! "RSA PUBLIC KEY") der)
    (ht' : Trimmed payload text') (hf' : FirstBlock text' (gs! "RSA PUBLIC KEY") der) (hp : newPublicKey now id k = .ok p) :
    newPublicKey now id { k with payload := payload } = .ok { p with payload := payload } := by
  have h1 : pemDecode (trimSpace k.payload) = some (gs! "RSA PUBLIC KEY", der) := by
    rw [trimSpace_iff.2 ht]
    exact pemDecode_first (by simp) hf
  have h2 : pemDecode (trimSpace payload) = some (gs! "RSA PUBLIC KEY", der) := by
    rw [trimSpace_iff.2 ht']
    exact pemDecode_first (by simp) hf'
  have hcon : ∀ {s t : GoString}, Trimmed s t → FirstBlock t (gs! "RSA PUBLIC KEY") der → Contains (gs! "RSA PUBLIC KEY") s := by
    rintro s t ⟨a, b, rfl, _⟩ ⟨_, hb, _⟩
    obtain ⟨x, y, hxy⟩ := hb.contains
    exact ⟨a ++ x, y ++ b, by rw [hxy]; simp⟩
  have hc := hcon ht hf
  rw [C69_accepts_iff] at hp ⊢
  obtain ⟨_, h3 | h3 | h3⟩ := hp
  · obtain ⟨_, hu, der', key, h4, h5, rfl⟩ := h3
    rw [h1, Option.some.injEq, Prod.mk.injEq] at h4
    obtain ⟨_, rfl⟩ := h4
    exact ⟨.inl hu, .inl ⟨hcon ht' hf', hu, der, key, h2, h5, rfl⟩⟩
  · exact absurd hc h3.1
  · exact absurd hc h3.1

/-! Two blocks after a line of text: the first one is of another kind, the second one is the key. -/

def twoBlocks : GoString := gs!
  "  hi\n-----BEGIN NOTE----- \r\nA: b\n\nAQID\n-----END NOTE-----\t\n-----BEGIN RSA PUBLIC KEY-----\nMBwwDQYJKoZIhvcNAQEBBQADCwAwCAIDAQABAgED\n-----END RSA PUBLIC KEY-----\n\n"

theorem blockAt_dash [Ext] {text label der : GoString} {m : Nat} (h : BlockAt text m label der) : (text.drop m).head? = some 45 := by
  obtain ⟨_, pre, e, hdr, body, brk, post, rfl, rfl, _⟩ := h
  simp only [List.append_assoc, List.drop_left]
  rfl

/-- The text of `twoBlocks` without the white space around it, and its first block. -/
def twoBlocksText : GoString := (twoBlocks.drop 2).take (twoBlocks.length - 4)

theorem twoBlocks_trimmed [Ext] : Trimmed twoBlocks twoBlocksText := C120_trim_iff.1 (by decide +kernel)

theorem twoBlocks_first [Ext] : FirstBlock twoBlocksText (gs! "NOTE") [1, 2, 3] := by
  refine ⟨3, ⟨by decide, gs! "hi\n", gs! " \r\n", gs! "A: b\n", gs! "\nAQID", gs! "\n",
    gs! "\t\n-----BEGIN RSA PUBLIC KEY-----\nMBwwDQYJKoZIhvcNAQEBBQADCwAwCAIDAQABAgED\n-----END RSA PUBLIC KEY-----", by decide +kernel, rfl,
    .inr rfl, ⟨gs! " ", by decide, .inr rfl⟩, ?_, .inl rfl, ⟨[9], by decide, .inr ⟨_, .inl rfl⟩⟩, by decide +kernel⟩, ?_⟩
  · exact .cons (l := gs! "A: b") (by decide) (by decide) .nil
  · intro m hm l d h
    have := blockAt_dash h
    revert this
    have : m = 0 ∨ m = 1 ∨ m = 2 := by omega
    rcases this with rfl | rfl | rfl <;> decide +kernel

example : newPublicKey nd.now [1] { usage := gs! "ssh", payload := twoBlocks } = .err (.withV .publicKeyBlockType [gs! "NOTE"] []) :=
  C120_first_block_decides (k := { usage := gs! "ssh", payload := twoBlocks }) rfl (containsSub_iff.1 (by decide +kernel)) twoBlocks_trimmed
    twoBlocks_first (by decide) (by decide)
/-- The same by running the model. -/
example : newPublicKey nd.now [1] { usage := gs! "ssh", payload := twoBlocks } = .err (.withV .publicKeyBlockType [gs! "NOTE"] []) := by
  decide +kernel

/-- Without the first label the second block is the first, and it is read. -/
def oneBlock : GoString := gs!
  "hi\nAQID\n-----END NOTE-----\t\n-----BEGIN RSA PUBLIC KEY-----\nKey: Value\nMBowDQYJKoZIhvcNAQEBBQADCQAwBgIBIQIBAw==\n-----END RSA PUBLIC KEY-----  "
example : newPublicKey nd.now [1] { usage := gs! "ssh", payload := oneBlock } matches .ok _ := by decide +kernel

/-- A block whose label has a colon in it is passed over when it stands where a header line could: it is no counterexample, as the
theorems are about labels without one. -/
example : pemDecode (gs! "-----BEGIN X-----\n-----BEGIN a:b-----\nAQID\n-----END a:b-----\n") = none ∧
    pemDecode (gs! "-----BEGIN a:b-----\nAQID\n-----END a:b-----\n") = some (gs! "a:b", [1, 2, 3]) := by decide +kernel

/-- A payload without a block. -/
example : newPublicKey nd.now [1] { usage := gs! "ssh", payload := gs! "RSA PUBLIC KEY" } =
    .err (.withV .publicKeyBlockType [[]] []) := by
  refine C120_no_block (k := { usage := gs! "ssh", payload := gs! "RSA PUBLIC KEY" }) (text := gs! "RSA PUBLIC KEY") rfl
    ⟨[], [], rfl⟩ (C120_trim_iff.1 (by decide +kernel)) ?_
  intro n l d h
  obtain ⟨_, pre, e, hdr, body, brk, post, h, _⟩ := h
  have := congrArg List.length h
  simp only [List.length_append, List.length_cons, List.length_nil] at this
  omega

end GoIdentity
