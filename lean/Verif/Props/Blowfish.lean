import Verif.Lemmas.Blowfish
import Verif.Lemmas.Pi
import Verif.Props.Passwords
/-!
# The computation inside bcrypt: C110
-/
set_option linter.unusedSectionVars false
namespace GoIdentity
open Toy

/-! ## C110 -/

/-- C110: the 1042 words that Blowfish starts from are the first 33344 binary digits of π after the point. -/
theorem C110_tables : Blowfish.start.size = 1042 ∧
    ∀ i < 1042, (Blowfish.start.getD i 0).toNat = ⌊Real.pi * 2 ^ (32 * (i + 1))⌋₊ % 2 ^ 32 :=
  ⟨Blowfish.start_size, fun _ hi => Blowfish.start_at hi⟩

/-- C110: whatever the tables are, encryption is a permutation of the blocks. -/
theorem C110_permutation (c : Blowfish.Cipher) : Function.Bijective fun b : UInt32 × UInt32 => Blowfish.encryptBlock c b.1 b.2 := by
  have hf : Finite UInt32 := Finite.of_injective (fun x : UInt32 => x.toBitVec.toFin) fun x y h => by
    exact UInt32.toBitVec_inj.1 (BitVec.toFin_inj.1 h)
  refine Finite.injective_iff_bijective.1 fun x y h => ?_
  obtain ⟨h1, h2⟩ := Blowfish.encryptBlock_inj c h
  exact Prod.ext h1 h2

/-- C110: the tables keep their size, so the four selections of a round never leave them (nor the 18 words, read by number). -/
theorem C110_in_bounds (cost : Nat) (salt key : GoString) (x : UInt32) :
    (Blowfish.setup cost salt key).size = 1042 ∧ 18 + (x >>> 24).toNat < 274 ∧ 274 + (x >>> 16 &&& 255).toNat < 530 ∧
    530 + (x >>> 8 &&& 255).toNat < 786 ∧ 786 + (x &&& 255).toNat < 1042 := by
  have hm : ∀ y : UInt32, (y &&& 255).toNat < 256 := by
    intro y
    rw [UInt32.toNat_and, show (255 : UInt32).toNat = 2 ^ 8 - 1 from rfl, Nat.and_two_pow_sub_one_eq_mod]
    exact Nat.mod_lt _ (by decide)
  have h1 := hm (x >>> 16)
  have h2 := hm (x >>> 8)
  have h3 := hm x
  have h4 : (x >>> 24).toNat < 256 := by
    have hx := x.toNat_lt
    rw [UInt32.toNat_shiftRight]
    show x.toNat >>> 24 < 256
    rw [Nat.shiftRight_eq_div_pow]
    omega
  rw [Blowfish.setup_size, Blowfish.start_size]
  refine ⟨rfl, ?_, ?_, ?_, ?_⟩ <;> omega

/-- C110: the first step of the key schedule takes in 72 bytes of the key, read cyclically: two keys give the same tables exactly if these
agree. -/
theorem C110_key_schedule {k k' : GoString} (hk : k ≠ []) (hk' : k' ≠ []) {c : Blowfish.Cipher} (hc : c.size = 1042) :
    Blowfish.addKey k c = Blowfish.addKey k' c ↔ ∀ i < 72, k.getD (i % k.length) 0 = k'.getD (i % k'.length) 0 :=
  ⟨Blowfish.addKey_inj hk hk' (by omega), fun h => Blowfish.addKey_congr hk hk' h c⟩

/-- C110: so bcrypt of a password depends on nothing but the cost, the salt and the 72 bytes of key material. -/
theorem C110_key_material (cost : Nat) (salt pw : GoString) :
    Blowfish.ofPassword cost salt pw = Blowfish.raw cost salt (bcryptKey pw) :=
  Blowfish.ofPassword_key cost salt pw

/-- C110: the result has 24 bytes, and its three blocks of 8 are different. -/
theorem C110_blocks (cost : Nat) (salt pw : GoString) :
    (Blowfish.ofPassword cost salt pw).length = 24 ∧
    (Blowfish.ofPassword cost salt pw).take 8 ≠ ((Blowfish.ofPassword cost salt pw).drop 8).take 8 ∧
    (Blowfish.ofPassword cost salt pw).take 8 ≠ (Blowfish.ofPassword cost salt pw).drop 16 ∧
    ((Blowfish.ofPassword cost salt pw).drop 8).take 8 ≠ (Blowfish.ofPassword cost salt pw).drop 16 := by
  unfold Blowfish.ofPassword Blowfish.raw
  obtain ⟨x, y, z, h1, h2, h3, h, hxy, hxz, hyz⟩ := Blowfish.magic_eq (Blowfish.setup cost salt (pw ++ [0]))
  rw [h]
  have e1 : (x ++ y ++ z).take 8 = x := by rw [List.append_assoc, List.take_left' h1]
  have e2 : ((x ++ y ++ z).drop 8).take 8 = y := by rw [List.append_assoc, List.drop_left' h1, List.take_left' h2]
  have e3 : (x ++ y ++ z).drop 16 = z := List.drop_left' (by rw [List.length_append, h1, h2])
  rw [e1, e2, e3]
  exact ⟨by rw [List.length_append, List.length_append, h1, h2, h3], hxy, hxz, hyz⟩

/-- C110: a salt that can be read from a hash has at least one byte and at most 16, so the key schedule never reads from an empty one. -/
theorem C110_salt {s x : GoString} (hs : s.length = 22) (h : bcDecodeSalt s = some x) : 1 ≤ x.length ∧ x.length ≤ 16 := by
  have := Blowfish.bcDecodeSalt_length h
  omega

/-- The outside world with bcrypt as it is. -/
@[instance_reducible]
def withBlowfish (E : Ext) : Ext := { E with bcryptRaw := Blowfish.raw }

/-- C110: with this computation in place of the open one, the stored text of a password is its cost, its salt and 23 of the 24 bytes. -/
theorem C110_text (E : Ext) (cost : Nat) (salt pw : GoString) :
    @bcryptText (withBlowfish E) cost salt pw = gs! "$2a$" ++ twoDigits cost ++ gs! "$" ++ bcEncode (buffer 16 salt) ++
      bcEncode ((Blowfish.ofPassword cost (buffer 16 salt) pw).take 23) := by
  unfold bcryptText bcryptDigest
  rw [C110_key_material]
  show _ ++ bcEncode (buffer 23 (Blowfish.raw _ _ _)) = _
  rw [buffer.eq_def 23, List.take_append_of_le_length (by rw [Blowfish.raw_length]; decide)]

/-- C110: and a stored hash accepts a password exactly if it is of the form of `HashText` with a readable salt and these 23 bytes. -/
theorem C110_accepts (E : Ext) (p : Password) (q : GoString) :
    @Password.accepts (withBlowfish E) p q = true ↔ ∃ cost salt digest s, HashText p.hash cost salt digest ∧ bcDecodeSalt salt = some s ∧
      digest = bcEncode ((Blowfish.ofPassword cost s q).take 23) := by
  have e : ∀ cost s, @bcryptDigest (withBlowfish E) cost s (bcryptKey q) = (Blowfish.ofPassword cost s q).take 23 := by
    intro cost s
    unfold bcryptDigest
    rw [C110_key_material]
    show buffer 23 (Blowfish.raw _ _ _) = _
    rw [buffer, List.take_append_of_le_length (by rw [Blowfish.raw_length]; decide)]
  rw [@C16_which_hashes_accept (withBlowfish E) p q]
  simp only [e]

/-- A text has one form only. -/
theorem HashText.parse {h : GoString} {cost : Nat} {salt digest : GoString} (hh : HashText h cost salt digest) :
    digest.length = 31 ∧ ∃ tail, bcryptParse h = some (cost, salt, digest ++ tail) := by
  obtain ⟨v, a, b, sep, ver, tail, hv, hver, hc, hsl, hdl, e⟩ := hh
  refine ⟨hdl, tail, bcryptParse_iff.2 ⟨?_, v, a, b, sep, ver, hv, hver, hc, hsl, by rw [e]; simp⟩⟩
  rw [e]
  rcases hver with rfl | ⟨m, x, _, rfl⟩ <;> simp <;> omega

theorem HashText.unique {h : GoString} {c c' : Nat} {s s' d d' : GoString} (h1 : HashText h c s d) (h2 : HashText h c' s' d') :
    c = c' ∧ s = s' ∧ d = d' := by
  obtain ⟨l1, t1, p1⟩ := h1.parse
  obtain ⟨l2, t2, p2⟩ := h2.parse
  rw [p1] at p2
  simp only [Option.some.injEq, Prod.mk.injEq] at p2
  obtain ⟨ec, es, ed⟩ := p2
  exact ⟨ec, es, (List.append_inj ed (by omega)).1⟩

/-- C110: there are digests that no password has: a hash accepts nothing if the 23 bytes that its digest stands for begin with the same
8 bytes twice. -/
theorem C110_no_password (E : Ext) (p : Password) {cost : Nat} {salt d : GoString} (h : HashText p.hash cost salt (bcEncode d))
    (hd : d.length = 23) (h8 : d.take 8 = (d.drop 8).take 8) (q : GoString) : @Password.accepts (withBlowfish E) p q = false := by
  rw [Bool.eq_false_iff]
  intro ha
  obtain ⟨cost', salt', digest', s, h', _, e⟩ := (C110_accepts E p q).1 ha
  have hl := (C110_blocks cost' s q).1
  have e2 : d = (Blowfish.ofPassword cost' s q).take 23 := by
    refine bcEncode_inj (by rw [List.length_take, hl, hd]; rfl) ?_
    rw [(h.unique h').2.2, e]
  apply (C110_blocks cost' s q).2.1
  generalize Blowfish.ofPassword cost' s q = b at *
  rw [e2, List.take_take, List.drop_take, List.take_take] at h8
  exact h8

-- The text with 53 dots for salt and digest is such a hash: nobody can log in with it.
example (E : Ext) (q : GoString) :
    @Password.accepts (withBlowfish E) { Password.zero with hash := gs! "$2a$10$" ++ List.replicate 53 46 } q = false :=
  C110_no_password E _ (cost := 10) (salt := List.replicate 22 46) (d := List.replicate 23 0)
    ⟨50, 49, 48, 36, [97, 36], [], by decide, .inr ⟨97, 36, by decide, rfl⟩, ⟨1, 0, by decide⟩, by decide +kernel, by decide +kernel,
      by decide +kernel⟩ (by decide) (by decide) q

-- A salt of 22 characters, most of which are newlines, is read as one byte.
example : bcDecodeSalt (List.replicate 20 10 ++ gs! "..") = some [0] ∧ (bcDecodeSalt (bcEncode (buffer 16 [1]))).map List.length = some 16 := by
  decide +kernel

-- The first two words are those of π = 3.243F6A8885A308D3... and the last one is that of the published tables.
set_option maxRecDepth 100000 in
example : UInt32.ofNat (Blowfish.piFixed >>> (Blowfish.piBits - 32)) = 0x243F6A88 ∧
    UInt32.ofNat (Blowfish.piFixed >>> (Blowfish.piBits - 64)) = 0x85A308D3 ∧
    UInt32.ofNat (Blowfish.piFixed >>> (Blowfish.piBits - 32 * 1042)) = 0x3AC372E6 := by
  decide +kernel

-- The key "a" with its NUL gives the same tables as that of the password "a\0a", and others than "b".
example (c : Blowfish.Cipher) (hc : c.size = 1042) : Blowfish.addKey [97, 0] c = Blowfish.addKey [97, 0, 97, 0] c ∧
    Blowfish.addKey [97, 0] c ≠ Blowfish.addKey [98, 0] c := by
  refine ⟨(C110_key_schedule (by simp) (by simp) hc).2 (by decide), fun h => ?_⟩
  exact absurd ((C110_key_schedule (by simp) (by simp) hc).1 h 0 (by omega)) (by decide)

end GoIdentity
