import Verif.Spec.Digest
import Verif.Lemmas.Numbers
import Verif.Lemmas.Sha
import Verif.Lemmas.Sines
import Verif.Model.Md5
import Mathlib.Data.Nat.Digits.Lemmas
import Mathlib.Tactic.Ring
/-!
# The digests of the model are the standard ones
-/
namespace GoIdentity.Fips
open GoIdentity.Sha (add rotr natBE beNat)

theorem number_eq (l : GoString) : number l = beNat l := by
  induction l with
  | nil => rfl
  | cons b t ih =>
    rw [beNat_cons, ← ih]
    simp only [number, List.reverse_cons, List.map_append, List.map_cons, List.map_nil, Nat.ofDigits_append, Nat.ofDigits_singleton,
      List.length_map, List.length_reverse]
    ring

theorem numberLE_eq (l : GoString) : numberLE l = Md5.leNat l := by
  induction l with
  | nil => rfl
  | cons b t ih => rw [Md5.leNat, ← ih, numberLE, List.map_cons, Nat.ofDigits_cons]; rfl

theorem numberLE_lt (l : GoString) : numberLE l < 256 ^ l.length := by
  rw [numberLE]
  have := Nat.ofDigits_lt_base_pow_length (b := 256) (l := l.map UInt8.toNat) (by decide) (by
    intro x hx
    obtain ⟨b, _, rfl⟩ := List.mem_map.1 hx
    exact b.toNat_lt)
  rwa [List.length_map] at this

theorem natBE_range (k n : Nat) : natBE k n = (List.range k).map fun j => UInt8.ofNat (n / 256 ^ (k - 1 - j)) := by
  induction k with
  | zero => rfl
  | succ k ih =>
    rw [natBE, ih, List.range_succ_eq_map, List.map_cons, List.map_map]
    congr 1
    refine List.map_congr_left fun j hj => ?_
    have := List.mem_range.1 hj
    dsimp only [Function.comp]
    congr 3
    omega

theorem natLE_range (k n : Nat) : Md5.natLE k n = (List.range k).map fun j => UInt8.ofNat (n / 256 ^ j) := by
  induction k generalizing n with
  | zero => rfl
  | succ k ih =>
    rw [Md5.natLE, ih, List.range_succ_eq_map, List.map_cons, List.map_map]
    congr 1
    · rw [Nat.pow_zero, Nat.div_one]
    · refine List.map_congr_left fun j _ => ?_
      dsimp only [Function.comp]
      rw [Nat.div_div_eq_div_mul, Nat.pow_succ, Nat.mul_comm]

theorem byte_extract {w : Nat} (x : BitVec w) (s : Nat) : UInt8.ofBitVec (x.extractLsb' s 8) = UInt8.ofNat (x.toNat / 2 ^ s) := by
  apply UInt8.toNat_inj.1
  rw [UInt8.toNat_ofBitVec, BitVec.extractLsb'_toNat, UInt8.toNat_ofNat', Nat.shiftRight_eq_div_pow]

theorem bytesOf_eq {k : Nat} (x : BitVec (8 * k)) : bytesOf x = natBE k x.toNat := by
  rw [bytesOf, natBE_range, Nat.mul_div_cancel_left _ (by decide)]
  refine List.map_congr_left fun j hj => ?_
  have := List.mem_range.1 hj
  rw [byte_extract, show (256 : Nat) = 2 ^ 8 from rfl, ← Nat.pow_mul]
  congr 3
  omega

theorem bytesOfLE_eq {k : Nat} (x : BitVec (8 * k)) : bytesOfLE x = Md5.natLE k x.toNat := by
  rw [bytesOfLE, natLE_range, Nat.mul_div_cancel_left _ (by decide)]
  refine List.map_congr_left fun j _ => ?_
  rw [byte_extract, show (256 : Nat) = 2 ^ 8 from rfl, ← Nat.pow_mul]

theorem add_eq {w : Nat} (x y : BitVec w) : add w x.toNat y.toNat = (x + y).toNat := (BitVec.toNat_add ..).symm

theorem rotr_eq {w n : Nat} (h : n < w) (x : BitVec w) : rotr w n x.toNat = (x.rotateRight n).toNat := by
  rw [BitVec.toNat_rotateRight, Nat.mod_eq_of_lt h, rotr]

theorem rotl_eq {w n : Nat} (h' : n < w) (x : BitVec w) : rotr w (w - n) x.toNat = (x.rotateLeft n).toNat := by
  rw [BitVec.toNat_rotateLeft, Nat.mod_eq_of_lt h', rotr, Nat.sub_sub_self h'.le, Nat.or_comm]

theorem not_eq {w : Nat} (x : BitVec w) : Sha.not w x.toNat = (~~~ x).toNat := by
  rw [Sha.not, ← BitVec.toNat_allOnes, ← BitVec.toNat_xor, BitVec.xor_allOnes]

/-! ## Padding -/

theorem padded_pad (block len : Nat) (hb : 0 < block) (m : GoString) : Padded number block len m (Sha.pad block len m) := by
  refine ⟨(block - (m.length + 1 + len) % block) % block, natBE len (8 * m.length), ?_, Nat.mod_lt _ hb, ?_, Sha.natBE_length .., ?_⟩
  · simp [Sha.pad]
  · have h1 := Nat.mod_lt (m.length + 1 + len) hb
    have h2 := Nat.div_add_mod (m.length + 1 + len) block
    have h3 : (Sha.pad block len m).length = m.length + 1 + len + (block - (m.length + 1 + len) % block) % block := by
      simp [Sha.pad, Sha.natBE_length]; omega
    rw [h3, Nat.add_mod_mod]
    rw [show m.length + 1 + len + (block - (m.length + 1 + len) % block) =
      block * ((m.length + 1 + len) / block + 1) from by rw [Nat.mul_add]; omega]
    exact Nat.mul_mod_right ..
  · rw [number_eq, beNat_natBE]

theorem padded_unique {read : GoString → Nat} {block len : Nat} {m q q' : GoString}
    (hi : ∀ {a b : GoString}, a.length = b.length → read a = read b → a = b)
    (h : Padded read block len m q) (h' : Padded read block len m q') : q = q' := by
  obtain ⟨z, s, rfl, hz, hm, hl, hr⟩ := h
  obtain ⟨z', s', rfl, hz', hm', hl', hr'⟩ := h'
  have e : s = s' := hi (hl.trans hl'.symm) (hr.trans hr'.symm)
  subst e
  have ez : z = z' := by
    simp only [List.length_append, List.length_cons, List.length_replicate] at hm hm'
    rw [show m.length + (z + s.length + 1) = z + (m.length + s.length + 1) from by omega] at hm
    rw [show m.length + (z' + s.length + 1) = z' + (m.length + s.length + 1) from by omega] at hm'
    have := Nat.ModEq.add_right_cancel' (n := block) _ (show z + (m.length + s.length + 1) ≡ z' + (m.length + s.length + 1) [MOD block] from
      hm.trans hm'.symm)
    rwa [Nat.ModEq, Nat.mod_eq_of_lt hz, Nat.mod_eq_of_lt hz'] at this
  rw [ez]

theorem number_inj {a b : GoString} (h : a.length = b.length) (e : number a = number b) : a = b := by
  rw [number_eq, number_eq] at e
  rw [← natBE_beNat a, ← natBE_beNat b, h, e]

theorem leNat_natLE (k n : Nat) : Md5.leNat (Md5.natLE k n) = n % 256 ^ k := by
  induction k generalizing n with
  | zero => rw [Md5.natLE, Md5.leNat, Nat.pow_zero, Nat.mod_one]
  | succ k ih =>
    rw [Md5.natLE, Md5.leNat, ih, UInt8.toNat_ofNat']
    change n % 256 + 256 * (n / 256 % 256 ^ k) = n % 256 ^ (k + 1)
    rw [Nat.pow_succ, Nat.mul_comm (256 ^ k), Nat.mod_mul]

theorem natLE_leNat (l : GoString) : Md5.natLE l.length (Md5.leNat l) = l := by
  induction l with
  | nil => rfl
  | cons b t ih =>
    rw [List.length_cons, Md5.natLE, Md5.leNat]
    have h := b.toNat_lt
    congr 1
    · apply UInt8.toNat_inj.1
      rw [UInt8.toNat_ofNat']
      omega
    · rw [show (b.toNat + 256 * Md5.leNat t) / 256 = Md5.leNat t from by omega, ih]

theorem numberLE_inj {a b : GoString} (h : a.length = b.length) (e : numberLE a = numberLE b) : a = b := by
  rw [numberLE_eq, numberLE_eq] at e
  rw [← natLE_leNat a, ← natLE_leNat b, h, e]

theorem padded_iff {block len : Nat} (hb : 0 < block) {m q : GoString} : Padded number block len m q ↔ q = Sha.pad block len m :=
  ⟨fun h => padded_unique number_inj h (padded_pad block len hb m), fun h => h ▸ padded_pad block len hb m⟩

theorem pad_length {block len : Nat} (hb : 0 < block) (m : GoString) :
    ∃ n, (Sha.pad block len m).length = n * block := by
  obtain ⟨z, s, _, _, h, _⟩ := padded_pad block len hb m
  exact ⟨_, (Nat.div_mul_cancel (Nat.dvd_of_mod_eq_zero h)).symm⟩

/-! ## Words, blocks and schedules -/

theorem wordsBE_eq (k n : Nat) (b : GoString) : Sha.wordsBE k n b = (List.range n).map fun t => beNat ((b.drop (t * k)).take k) := by
  induction n generalizing b with
  | zero => rfl
  | succ n ih =>
    rw [Sha.wordsBE, ih, List.range_succ_eq_map, List.map_cons, List.map_map]
    congr 1
    · rw [Nat.zero_mul, List.drop_zero]
    · refine List.map_congr_left fun j _ => ?_
      dsimp only [Function.comp]
      rw [List.drop_drop, Nat.succ_mul, Nat.add_comm]

theorem wordsLE_eq (n : Nat) (b : GoString) : Md5.wordsLE n b = (List.range n).map fun t => Md5.leNat ((b.drop (t * 4)).take 4) := by
  induction n generalizing b with
  | zero => rfl
  | succ n ih =>
    rw [Md5.wordsLE, ih, List.range_succ_eq_map, List.map_cons, List.map_map]
    congr 1
    refine List.map_congr_left fun j _ => ?_
    dsimp only [Function.comp]
    rw [List.drop_drop, Nat.succ_mul, Nat.add_comm]

/-- The `i`-th block. -/
def blockAt (size : Nat) (q : GoString) (i : Nat) : GoString := (q.drop (i * size)).take size

theorem overBlocks_eq (f : List Nat → GoString → List Nat) (size : Nat) (n : Nat) (s : List Nat) (q : GoString) (H : Nat → List Nat)
    (h0 : H 0 = s) (hs : ∀ i < n, H (i + 1) = f (H i) (blockAt size q i)) : Sha.overBlocks f size n s q = H n := by
  induction n generalizing s q H with
  | zero => exact h0.symm
  | succ n ih =>
    rw [Sha.overBlocks]
    refine ih _ _ (fun i => H (i + 1)) ?_ ?_
    · have := hs 0 (Nat.succ_pos n)
      rw [h0, blockAt, Nat.zero_mul, List.drop_zero] at this
      exact this
    · intro i hi
      rw [hs (i + 1) (by omega), blockAt, blockAt, List.drop_drop, Nat.succ_mul, Nat.add_comm size]

theorem blockAt_word (k : Nat) (q : GoString) (i t : Nat) (ht : t < 16) :
    ((blockAt (16 * k) q i).drop (t * k)).take k = (q.drop ((16 * i + t) * k)).take k := by
  rw [blockAt, List.drop_take, List.take_take, List.drop_drop, Nat.min_eq_left, Nat.add_mul, Nat.mul_comm 16 i, Nat.mul_assoc]
  have : (t + 1) * k ≤ 16 * k := Nat.mul_le_mul_right k ht
  rw [Nat.add_mul] at this
  omega

theorem wordAt_number {k : Nat} (q : GoString) (i t : Nat) :
    (wordAt number (8 * k) q i t).toNat = beNat ((q.drop ((16 * i + t) * k)).take k) := by
  rw [wordAt, Nat.mul_div_cancel_left _ (by decide), BitVec.toNat_ofNat, number_eq]
  refine Nat.mod_eq_of_lt (lt_of_lt_of_le (beNat_lt _) ?_)
  rw [Nat.pow_mul]
  exact Nat.pow_le_pow_right (by decide) (List.length_take_le ..)

theorem wordAt_numberLE (q : GoString) (i t : Nat) :
    (wordAt numberLE 32 q i t).toNat = Md5.leNat ((q.drop ((16 * i + t) * 4)).take 4) := by
  rw [wordAt, BitVec.toNat_ofNat, ← numberLE_eq]
  refine Nat.mod_eq_of_lt (lt_of_lt_of_le (numberLE_lt _) ?_)
  exact Nat.pow_le_pow_right (n := 256) (j := 4) (by decide) (List.length_take_le ..)

theorem words_block {k : Nat} (q : GoString) (i : Nat) :
    Sha.wordsBE k 16 (blockAt (16 * k) q i) = (List.range 16).map fun t => (wordAt number (8 * k) q i t).toNat := by
  rw [wordsBE_eq]
  refine List.map_congr_left fun t ht => ?_
  rw [blockAt_word k q i t (List.mem_range.1 ht), wordAt_number]

theorem words_blockLE (q : GoString) (i : Nat) :
    Md5.wordsLE 16 (blockAt 64 q i) = (List.range 16).map fun t => (wordAt numberLE 32 q i t).toNat := by
  rw [wordsLE_eq]
  refine List.map_congr_left fun t ht => ?_
  rw [show (64 : Nat) = 16 * 4 from rfl, blockAt_word 4 q i t (List.mem_range.1 ht), wordAt_numberLE]

/-- The words before word `n`, last first. -/
def before (W : Nat → Nat) (n : Nat) : List Nat := ((List.range n).map W).reverse

theorem before_getD (W : Nat → Nat) {n j : Nat} (h : j < n) : (before W n).getD j 0 = W (n - 1 - j) := by
  rw [before, List.getD_eq_getElem?_getD, List.getElem?_reverse (by simpa using h), List.length_map, List.length_range,
    List.getElem?_map, List.getElem?_range (by omega)]
  rfl

theorem schedule_eq (next : List Nat → Nat) (W : Nat → Nat) (hW : ∀ t ≥ 16, W t = next (before W t)) (n m : Nat) (hm : 16 ≤ m) :
    Sha.schedule next n (before W m) = before W (m + n) := by
  induction n generalizing m with
  | zero => rfl
  | succ n ih =>
    rw [Sha.schedule, ← hW m hm]
    have : W m :: before W m = before W (m + 1) := by
      rw [before, before, List.range_succ, List.map_append, List.reverse_append]; rfl
    rw [this, ih (m + 1) (by omega)]
    congr 1
    omega

/-! ## SHA-2 -/

def Vars.list {w : Nat} (x : Vars w) : List Nat :=
  [x.a.toNat, x.b.toNat, x.c.toNat, x.d.toNat, x.e.toNat, x.f.toNat, x.g.toNat, x.h.toNat]

/-- The model's parameters say what the standard's do. -/
structure Same {n : Nat} (p : Sha.Sha2) (k : Kind (8 * n)) : Prop where
  w : p.w = 8 * n
  S0 : ∀ x, Sha.bigSigma (8 * n) p.S0 x.toNat = (k.S0 x).toNat
  S1 : ∀ x, Sha.bigSigma (8 * n) p.S1 x.toNat = (k.S1 x).toNat
  s0 : ∀ x, Sha.smallSigma (8 * n) p.s0 x.toNat = (k.s0 x).toNat
  s1 : ∀ x, Sha.smallSigma (8 * n) p.s1 x.toNat = (k.s1 x).toNat
  ks : p.k = (List.range k.rounds).map fun t => (k.K t).toNat
  init : p.init = k.H0.list
  rounds : 16 ≤ k.rounds

theorem ch_eq {w : Nat} (x y z : BitVec w) : ((x.toNat &&& y.toNat) ^^^ (Sha.not w x.toNat &&& z.toNat)) = (Ch x y z).toNat := by
  rw [not_eq, Ch, BitVec.toNat_xor, BitVec.toNat_and, BitVec.toNat_and]

theorem maj_eq {w : Nat} (x y z : BitVec w) :
    ((x.toNat &&& y.toNat) ^^^ (x.toNat &&& z.toNat) ^^^ (y.toNat &&& z.toNat)) = (Maj x y z).toNat := by
  rw [Maj, BitVec.toNat_xor, BitVec.toNat_xor, BitVec.toNat_and, BitVec.toNat_and, BitVec.toNat_and]

theorem parity_eq {w : Nat} (x y z : BitVec w) : (x.toNat ^^^ y.toNat ^^^ z.toNat) = (Parity x y z).toNat := by
  rw [Parity, BitVec.toNat_xor, BitVec.toNat_xor]

theorem bigSigma_eq {w a b c : Nat} (ha : a < w) (hb : b < w) (hc : c < w) (x : BitVec w) :
    Sha.bigSigma w (a, b, c) x.toNat = (Rot3 a b c x).toNat := by
  rw [Sha.bigSigma, rotr_eq ha, rotr_eq hb, rotr_eq hc, Rot3, BitVec.toNat_xor, BitVec.toNat_xor]

theorem smallSigma_eq {w a b c : Nat} (ha : a < w) (hb : b < w) (x : BitVec w) :
    Sha.smallSigma w (a, b, c) x.toNat = (Rot2 a b c x).toNat := by
  rw [Sha.smallSigma, rotr_eq ha, rotr_eq hb, Rot2, BitVec.toNat_xor, BitVec.toNat_xor, BitVec.toNat_ushiftRight]

theorem sha2Rounds_eq {n : Nat} {p : Sha.Sha2} {k : Kind (8 * n)} (hs : Same p k) (M : Nat → BitVec (8 * n)) (H : Vars (8 * n)) (j t : Nat) :
    Sha.sha2Rounds p ((List.range' t j).map fun t => (k.K t).toNat) ((List.range' t j).map fun t => (k.W M t).toNat) (k.after M H t).list =
      (k.after M H (t + j)).list := by
  induction j generalizing t with
  | zero => rw [List.range'_zero, List.map_nil, List.map_nil, Sha.sha2Rounds, Nat.add_zero]; simp
  | succ j ih =>
    rw [List.range'_succ, List.map_cons, List.map_cons, Vars.list, Sha.sha2Rounds]
    rw [hs.w]
    simp only [hs.S0, hs.S1, add_eq, ch_eq, maj_eq]
    have := ih (t + 1)
    rw [show t + 1 + j = t + (j + 1) from by omega] at this
    rw [← this]
    rfl

theorem sha2_schedule {n : Nat} {p : Sha.Sha2} {k : Kind (8 * n)} (hs : Same p k) (M : Nat → BitVec (8 * n)) (t : Nat) (ht : t ≥ 16) :
    (k.W M t).toNat = Sha.sha2Next p (before (fun t => (k.W M t).toNat) t) := by
  rw [Sha.sha2Next, before_getD _ (by omega), before_getD _ (by omega), before_getD _ (by omega), before_getD _ (by omega), hs.w]
  rw [hs.s0, hs.s1, add_eq, add_eq, add_eq, Kind.W, if_neg (by omega)]
  rw [show t - 1 - 1 = t - 2 from rfl, show t - 1 - 6 = t - 7 from by omega, show t - 1 - 14 = t - 15 from by omega,
    show t - 1 - 15 = t - 16 from by omega, ← BitVec.add_assoc]

theorem sha2Block_eq {n : Nat} {p : Sha.Sha2} {k : Kind (8 * n)} (hs : Same p k) (q : GoString) (i : Nat) (H : Vars (8 * n)) :
    Sha.sha2Block p H.list (blockAt (16 * n) q i) =
      ((k.after (wordAt number (8 * n) q i) H k.rounds).add H).list := by
  have hM : (Sha.wordsBE n 16 (blockAt (16 * n) q i)).reverse =
      before (fun t => (k.W (wordAt number (8 * n) q i) t).toNat) 16 := by
    rw [words_block, before]
    congr 1
    refine List.map_congr_left fun t ht => ?_
    rw [Kind.W, if_pos (List.mem_range.1 ht)]
  rw [Sha.sha2Block, hs.w, Nat.mul_div_cancel_left _ (by decide), hM, hs.ks, List.length_map, List.length_range,
    schedule_eq _ _ (sha2_schedule hs _) _ _ (le_refl _), Nat.add_sub_cancel' hs.rounds, before, List.reverse_reverse]
  have := sha2Rounds_eq hs (wordAt number (8 * n) q i) H k.rounds 0
  rw [Nat.zero_add, ← List.range_eq_range'] at this
  rw [show (k.after (wordAt number (8 * n) q i) H 0).list = H.list from rfl] at this
  rw [this]
  generalize k.after (wordAt number (8 * n) q i) H k.rounds = v
  simp only [Vars.list, List.zipWith, add_eq, Vars.add]
  simp only [BitVec.add_comm]

theorem sha2_eq {n : Nat} (hn : 0 < n) {p : Sha.Sha2} {k : Kind (8 * n)} (hs : Same p k) {m q : GoString}
    (hq : Padded number (16 * n) (2 * n) m q) : Sha.sha2 p m = (k.H q (q.length / (16 * n))).bytes := by
  rw [padded_iff (by omega)] at hq
  rw [Sha.sha2]
  rw [hs.w, show 2 * (8 * n) = 16 * n from by omega, show 8 * n / 4 = 2 * n from by omega, ← hq, Nat.mul_div_cancel_left _ (by decide)]
  rw [overBlocks_eq _ _ _ _ _ (fun i => (k.H q i).list) (hs.init ▸ rfl) (fun i _ => (sha2Block_eq hs q i (k.H q i)).symm)]
  simp only [Vars.list, Vars.bytes, List.flatMap_cons, List.flatMap_nil, bytesOf_eq, List.append_nil, List.append_assoc]

/-! ## The constants -/

theorem rootFraction_unique {e w n k k' : Nat} (h : RootFraction e w n k) (h' : RootFraction e w n k') : k = k' := by
  obtain ⟨hk, r, h1, h2⟩ := h
  obtain ⟨hk', r', h1', h2'⟩ := h'
  have a : r * 2 ^ w + k < r' * 2 ^ w + k' + 1 := lt_of_pow_lt_pow_left₀ e (Nat.zero_le _) (lt_of_le_of_lt h1 h2')
  have b : r' * 2 ^ w + k' < r * 2 ^ w + k + 1 := lt_of_pow_lt_pow_left₀ e (Nat.zero_le _) (lt_of_le_of_lt h1' h2)
  have c : r * 2 ^ w + k = r' * 2 ^ w + k' := by omega
  have d := congrArg (· % 2 ^ w) c
  simpa [Nat.add_mod, Nat.mod_eq_of_lt hk, Nat.mod_eq_of_lt hk'] using d

theorem rootFraction_of {e w p k : Nat} (h : Sha.IsRootFraction e w p k) : RootFraction e w p k :=
  ⟨h.1, h.2.imp fun _ h => h.2⟩

theorem constants_iff {w n : Nat} {l : List Nat} (hn : l.length = n) (hp : ∀ i < n, ∃ p, primes[i]? = some p ∧ ∃ k, l[i]? = some k ∧ RootFraction 3 w p k)
    {K : Nat → BitVec w} : Constants n K ↔ l = (List.range n).map fun t => (K t).toNat := by
  constructor
  · intro h
    refine List.ext_getElem? fun i => ?_
    by_cases hi : i < n
    · obtain ⟨p, e, k, ek, hk⟩ := hp i hi
      obtain ⟨p', e', hk'⟩ := h i hi
      rw [e] at e'
      cases e'
      rw [ek, List.getElem?_map, List.getElem?_range hi, Option.map_some, rootFraction_unique hk hk']
    · rw [List.getElem?_eq_none (by omega), List.getElem?_eq_none (by simp; omega)]
  · intro h i hi
    obtain ⟨p, e, k, ek, hk⟩ := hp i hi
    refine ⟨p, e, ?_⟩
    rw [h, List.getElem?_map, List.getElem?_range hi, Option.map_some] at ek
    cases ek
    exact hk

theorem initial_iff {w : Nat} {l : List Nat} (hn : l.length = 8) (hp : ∀ i < 8, ∃ p, primes[i]? = some p ∧ ∃ k, l[i]? = some k ∧ RootFraction 2 w p k)
    {H : Vars w} : Initial H ↔ l = H.list := by
  have hl : H.list = [H.a, H.b, H.c, H.d, H.e, H.f, H.g, H.h].map BitVec.toNat := rfl
  constructor
  · intro h
    refine List.ext_getElem? fun i => ?_
    by_cases hi : i < 8
    · obtain ⟨p, e, k, ek, hk⟩ := hp i hi
      obtain ⟨v, hv⟩ : ∃ v, [H.a, H.b, H.c, H.d, H.e, H.f, H.g, H.h][i]? = some v := ⟨_, List.getElem?_eq_getElem hi⟩
      obtain ⟨p', e', hk'⟩ := h i v hv
      rw [e] at e'
      cases e'
      rw [ek, hl, List.getElem?_map, hv, Option.map_some, rootFraction_unique hk hk']
    · rw [List.getElem?_eq_none (by omega), List.getElem?_eq_none (by simp [Vars.list]; omega)]
  · intro h i v hv
    have hi : i < 8 := by
      have := (List.getElem?_eq_some_iff.1 hv).1
      simpa using this
    obtain ⟨p, e, k, ek, hk⟩ := hp i hi
    refine ⟨p, e, ?_⟩
    rw [h, hl, List.getElem?_map, hv, Option.map_some] at ek
    cases ek
    exact hk

theorem table_primes {e w n : Nat} {l : List Nat} (h : ∀ i < n, ∃ p, Sha.primes[i]? = some p ∧ ∃ k, l[i]? = some k ∧ Sha.IsRootFraction e w p k)
    (hpr : primes = Sha.primes) : ∀ i < n, ∃ p, primes[i]? = some p ∧ ∃ k, l[i]? = some k ∧ RootFraction e w p k := by
  intro i hi
  obtain ⟨p, e, k, ek, hk⟩ := h i hi
  exact ⟨p, by rw [hpr, e], k, ek, rootFraction_of hk⟩

theorem primes_eq : primes = Sha.primes := by decide +kernel

def tableOk (e w : Nat) : List Nat → List Nat → Bool
  | _, [] => true
  | p :: ps, k :: ks => decide (Sha.IsRootFraction e w p k) && tableOk e w ps ks
  | [], _ => false

theorem tableOk_spec {e w : Nat} : ∀ {ps ks : List Nat}, tableOk e w ps ks = true → ∀ i < ks.length, ∃ p, ps[i]? = some p ∧ ∃ k, ks[i]? = some k ∧
    Sha.IsRootFraction e w p k
  | _, [], _, i, hi => absurd hi (Nat.not_lt_zero i)
  | [], _ :: _, h, _, _ => by simp [tableOk] at h
  | p :: ps, k :: ks, h, i, hi => by
    rw [tableOk, Bool.and_eq_true, decide_eq_true_eq] at h
    cases i with
    | zero => exact ⟨p, rfl, k, rfl, h.1⟩
    | succ i => exact tableOk_spec h.2 i (Nat.lt_of_succ_lt_succ hi)

theorem k256_iff {K : Nat → BitVec 32} : Constants 64 K ↔ Sha.k256 = (List.range 64).map fun t => (K t).toNat :=
  constants_iff rfl (table_primes (tableOk_spec (e := 3) (w := 32) (ps := Sha.primes) (ks := Sha.k256) (by decide +kernel)) primes_eq)

theorem k512_iff {K : Nat → BitVec 64} : Constants 80 K ↔ Sha.k512 = (List.range 80).map fun t => (K t).toNat :=
  constants_iff rfl (table_primes (tableOk_spec (e := 3) (w := 64) (ps := Sha.primes) (ks := Sha.k512) (by decide +kernel)) primes_eq)

theorem init256_iff {H : Vars 32} : Initial H ↔ Sha.init256 = H.list :=
  initial_iff rfl (table_primes (tableOk_spec (e := 2) (w := 32) (ps := Sha.primes) (ks := Sha.init256) (by decide +kernel)) primes_eq)

theorem init512_iff {H : Vars 64} : Initial H ↔ Sha.init512 = H.list :=
  initial_iff rfl (table_primes (tableOk_spec (e := 2) (w := 64) (ps := Sha.primes) (ks := Sha.init512) (by decide +kernel)) primes_eq)

theorem range_getD {w n : Nat} (l : List Nat) (hl : l.length = n) (hw : ∀ k ∈ l, k < 2 ^ w) :
    l = (List.range n).map fun t => (BitVec.ofNat w (l.getD t 0)).toNat := by
  subst hl
  refine List.ext_getElem? fun i => ?_
  by_cases hi : i < l.length
  · rw [List.getElem?_map, List.getElem?_range hi, Option.map_some, List.getD_eq_getElem?_getD, List.getElem?_eq_getElem hi, Option.getD_some,
      BitVec.toNat_ofNat, Nat.mod_eq_of_lt (hw _ (List.getElem_mem hi))]
  · rw [List.getElem?_eq_none (by omega), List.getElem?_eq_none (by simp; omega)]

def varsOf (w : Nat) (l : List Nat) : Vars w :=
  ⟨.ofNat w (l.getD 0 0), .ofNat w (l.getD 1 0), .ofNat w (l.getD 2 0), .ofNat w (l.getD 3 0), .ofNat w (l.getD 4 0), .ofNat w (l.getD 5 0),
   .ofNat w (l.getD 6 0), .ofNat w (l.getD 7 0)⟩

theorem isSha256_iff {m d : GoString} : IsSha256 m d ↔ Sha.sha256 m = d := by
  have key : ∀ {q : GoString} {K : Nat → BitVec 32} {H0 : Vars 32}, Padded number 64 8 m q → Constants 64 K → Initial H0 →
      Sha.sha256 m = (Kind.H ⟨Rot3 2 13 22, Rot3 6 11 25, Rot2 7 18 3, Rot2 17 19 10, 64, K, H0⟩ q (q.length / 64)).bytes := by
    intro q K H0 hq hK hH
    exact sha2_eq (n := 4) (by decide) (p := Sha.p256) (k := (⟨Rot3 2 13 22, Rot3 6 11 25, Rot2 7 18 3, Rot2 17 19 10, 64, K, H0⟩ : Kind 32))
      ⟨rfl, bigSigma_eq (by decide) (by decide) (by decide), bigSigma_eq (by decide) (by decide) (by decide),
        smallSigma_eq (by decide) (by decide), smallSigma_eq (by decide) (by decide), k256_iff.1 hK, init256_iff.1 hH, (by decide : 16 ≤ 64)⟩ hq
  constructor
  · rintro ⟨q, K, H0, hq, hK, hH, rfl⟩
    exact key hq hK hH
  · rintro rfl
    have hK : Constants 64 (fun t => BitVec.ofNat 32 (Sha.k256.getD t 0)) := k256_iff.2 (range_getD _ rfl (by decide))
    have hH : Initial (varsOf 32 Sha.init256) := init256_iff.2 (by decide)
    exact ⟨_, _, _, padded_pad 64 8 (by decide) m, hK, hH, key (padded_pad 64 8 (by decide) m) hK hH⟩

theorem isSha512_iff {m d : GoString} : IsSha512 m d ↔ Sha.sha512 m = d := by
  have key : ∀ {q : GoString} {K : Nat → BitVec 64} {H0 : Vars 64}, Padded number 128 16 m q → Constants 80 K → Initial H0 →
      Sha.sha512 m = (Kind.H ⟨Rot3 28 34 39, Rot3 14 18 41, Rot2 1 8 7, Rot2 19 61 6, 80, K, H0⟩ q (q.length / 128)).bytes := by
    intro q K H0 hq hK hH
    exact sha2_eq (n := 8) (by decide) (p := Sha.p512) (k := (⟨Rot3 28 34 39, Rot3 14 18 41, Rot2 1 8 7, Rot2 19 61 6, 80, K, H0⟩ : Kind 64))
      ⟨rfl, bigSigma_eq (by decide) (by decide) (by decide), bigSigma_eq (by decide) (by decide) (by decide),
        smallSigma_eq (by decide) (by decide), smallSigma_eq (by decide) (by decide), k512_iff.1 hK, init512_iff.1 hH, (by decide : 16 ≤ 80)⟩ hq
  constructor
  · rintro ⟨q, K, H0, hq, hK, hH, rfl⟩
    exact key hq hK hH
  · rintro rfl
    have hK : Constants 80 (fun t => BitVec.ofNat 64 (Sha.k512.getD t 0)) := k512_iff.2 (range_getD _ rfl (by decide))
    have hH : Initial (varsOf 64 Sha.init512) := init512_iff.2 (by decide)
    exact ⟨_, _, _, padded_pad 128 16 (by decide) m, hK, hH, key (padded_pad 128 16 (by decide) m) hK hH⟩

/-! ## SHA-1 -/

def Vars5.list (x : Vars5) : List Nat := [x.a.toNat, x.b.toNat, x.c.toNat, x.d.toNat, x.e.toNat]

/-- The constant of round `t`. -/
def sha1K (t : Nat) : Nat := [0x5a827999, 0x6ed9eba1, 0x8f1bbcdc, 0xca62c1d6].getD (t / 20) 0

theorem sha1Constants_iff {K : Nat → BitVec 32} : Sha1Constants K ↔ ∀ t < 80, (K t).toNat = sha1K t := by
  have hk : ∀ t < 80, ∃ n, [2, 3, 5, 10][t / 20]? = some n ∧ sha1K t ^ 2 ≤ n * 2 ^ 60 ∧ n * 2 ^ 60 < (sha1K t + 1) ^ 2 := by
    intro t ht
    have : t / 20 = 0 ∨ t / 20 = 1 ∨ t / 20 = 2 ∨ t / 20 = 3 := by omega
    rcases this with h | h | h | h <;> rw [sha1K, h] <;> exact ⟨_, rfl, by decide, by decide⟩
  constructor
  · intro h t ht
    obtain ⟨n, e, a, b⟩ := h t ht
    obtain ⟨n', e', a', b'⟩ := hk t ht
    rw [e] at e'
    cases e'
    have x := lt_of_pow_lt_pow_left₀ 2 (Nat.zero_le _) (lt_of_le_of_lt a b')
    have y := lt_of_pow_lt_pow_left₀ 2 (Nat.zero_le _) (lt_of_le_of_lt a' b)
    omega
  · intro h t ht
    rw [h t ht]
    exact hk t ht

theorem sha1F_eq {t : Nat} (ht : t < 80) (x y z : BitVec 32) : Sha.sha1F t x.toNat y.toNat z.toNat = ((sha1f t x y z).toNat, sha1K t) := by
  unfold Sha.sha1F sha1f sha1K
  by_cases h1 : t < 20
  · rw [if_pos h1, if_pos (by omega), ch_eq, show t / 20 = 0 from by omega]; rfl
  · rw [if_neg h1, if_neg (show ¬ t ≤ 19 from by omega)]
    by_cases h2 : t < 40
    · rw [if_pos h2, if_pos (show t ≤ 39 from by omega), parity_eq, show t / 20 = 1 from by omega]; rfl
    · rw [if_neg h2, if_neg (show ¬ t ≤ 39 from by omega)]
      by_cases h3 : t < 60
      · rw [if_pos h3, if_pos (show t ≤ 59 from by omega), maj_eq, show t / 20 = 2 from by omega]; rfl
      · rw [if_neg h3, if_neg (show ¬ t ≤ 59 from by omega), parity_eq, show t / 20 = 3 from by omega]; rfl

theorem sha1Rounds_eq {K : Nat → BitVec 32} (hK : Sha1Constants K) (M : Nat → BitVec 32) (H : Vars5) (j t : Nat) (ht : t + j ≤ 80) :
    Sha.sha1Rounds t ((List.range' t j).map fun t => (sha1W M t).toNat) (sha1After K M H t).list = (sha1After K M H (t + j)).list := by
  induction j generalizing t with
  | zero => rw [List.range'_zero, List.map_nil, Sha.sha1Rounds, Nat.add_zero]; simp
  | succ j ih =>
    rw [List.range'_succ, List.map_cons, Vars5.list, Sha.sha1Rounds]
    rw [sha1F_eq (by omega), ← sha1Constants_iff.1 hK t (by omega)]
    dsimp only
    rw [show rotr 32 27 (sha1After K M H t).a.toNat = ((sha1After K M H t).a.rotateLeft 5).toNat from rotl_eq (n := 5) (by decide) _,
      show rotr 32 2 (sha1After K M H t).b.toNat = ((sha1After K M H t).b.rotateLeft 30).toNat from rotl_eq (n := 30) (by decide) _]
    simp only [add_eq]
    have := ih (t + 1) (by omega)
    rw [show t + 1 + j = t + (j + 1) from by omega] at this
    rw [← this]
    rfl

theorem sha1_schedule (M : Nat → BitVec 32) (t : Nat) (ht : t ≥ 16) :
    (sha1W M t).toNat = Sha.sha1Next (before (fun t => (sha1W M t).toNat) t) := by
  rw [Sha.sha1Next, before_getD _ (by omega), before_getD _ (by omega), before_getD _ (by omega), before_getD _ (by omega)]
  rw [← BitVec.toNat_xor, ← BitVec.toNat_xor, ← BitVec.toNat_xor]
  rw [show ∀ x : BitVec 32, rotr 32 31 x.toNat = (x.rotateLeft 1).toNat from fun x => rotl_eq (n := 1) (by decide) x, sha1W, if_neg (by omega)]
  rw [show t - 1 - 2 = t - 3 from by omega, show t - 1 - 7 = t - 8 from by omega, show t - 1 - 13 = t - 14 from by omega,
    show t - 1 - 15 = t - 16 from by omega]

theorem sha1Block_eq {K : Nat → BitVec 32} (hK : Sha1Constants K) (q : GoString) (i : Nat) :
    Sha.sha1Block (sha1H K q i).list (blockAt 64 q i) = (sha1H K q (i + 1)).list := by
  have hM : (Sha.wordsBE 4 16 (blockAt 64 q i)).reverse = before (fun t => (sha1W (wordAt number 32 q i) t).toNat) 16 := by
    rw [show (64 : Nat) = 16 * 4 from rfl, words_block, before]
    congr 1
    refine List.map_congr_left fun t ht => ?_
    rw [sha1W, if_pos (List.mem_range.1 ht)]
  rw [Sha.sha1Block, hM, schedule_eq _ _ (sha1_schedule _) _ _ (le_refl _), before, List.reverse_reverse]
  have := sha1Rounds_eq hK (wordAt number 32 q i) (sha1H K q i) 80 0 (by decide)
  rw [Nat.zero_add, ← List.range_eq_range', show (sha1After K (wordAt number 32 q i) (sha1H K q i) 0).list = (sha1H K q i).list from rfl] at this
  rw [this, sha1H]
  generalize sha1After K (wordAt number 32 q i) (sha1H K q i) 80 = v
  generalize sha1H K q i = H
  simp only [Vars5.list, List.zipWith, add_eq]
  simp only [BitVec.add_comm]

theorem isSha1_iff {m d : GoString} : IsSha1 m d ↔ Sha.sha1 m = d := by
  have key : ∀ {q : GoString} {K : Nat → BitVec 32}, Padded number 64 8 m q → Sha1Constants K →
      Sha.sha1 m = bytesOf (sha1H K q (q.length / 64)).a ++ bytesOf (sha1H K q (q.length / 64)).b ++ bytesOf (sha1H K q (q.length / 64)).c ++
        bytesOf (sha1H K q (q.length / 64)).d ++ bytesOf (sha1H K q (q.length / 64)).e := by
    intro q K hq hK
    rw [padded_iff (by omega)] at hq
    rw [Sha.sha1, ← hq]
    have h0 : (sha1H K q 0).list = [0x67452301, 0xefcdab89, 0x98badcfe, 0x10325476, 0xc3d2e1f0] := rfl
    rw [overBlocks_eq _ _ _ _ _ (fun i => (sha1H K q i).list) h0 (fun i _ => (sha1Block_eq hK q i).symm)]
    generalize sha1H K q (q.length / 64) = H
    simp only [Vars5.list, List.flatMap_cons, List.flatMap_nil, bytesOf_eq (k := 4), List.append_nil, List.append_assoc]
  constructor
  · rintro ⟨q, K, hq, hK, rfl⟩
    exact key hq hK
  · rintro rfl
    have hK : Sha1Constants (fun t => BitVec.ofNat 32 (sha1K t)) := by
      rw [sha1Constants_iff]
      intro t ht
      rw [BitVec.toNat_ofNat]
      refine Nat.mod_eq_of_lt ?_
      have : t / 20 = 0 ∨ t / 20 = 1 ∨ t / 20 = 2 ∨ t / 20 = 3 := by omega
      rcases this with h | h | h | h <;> rw [sha1K, h] <;> decide
    exact ⟨_, _, padded_pad 64 8 (by decide) m, hK, key (padded_pad 64 8 (by decide) m) hK⟩

/-! ## HMAC -/

theorem isHash_iff (a : HashAlg) {m d : GoString} : IsHash a m d ↔ Sha.hash a m = d := by
  cases a
  · exact isSha1_iff
  · exact isSha256_iff
  · exact isSha512_iff

theorem isHmac_iff (a : HashAlg) {block : Nat} (hb : Sha.blockSize a = block) {key m d : GoString} :
    IsHmac (IsHash a) block key m d ↔ Sha.hmac a key m = d := by
  unfold IsHmac Sha.hmac Sha.hmacKey
  simp only [isHash_iff, hb]
  by_cases hl : key.length > block
  · rw [if_pos hl]
    constructor
    · rintro ⟨s, p, i, _, hs, rfl, rfl, rfl⟩
      rw [hs hl]
    · rintro rfl
      exact ⟨_, _, _, fun h => absurd h (by omega), fun _ => rfl, rfl, rfl, rfl⟩
  · rw [if_neg hl]
    constructor
    · rintro ⟨s, p, i, hs, _, rfl, rfl, rfl⟩
      rw [hs (by omega)]
    · rintro rfl
      exact ⟨_, _, _, fun _ => rfl, fun h => absurd h hl, rfl, rfl, rfl⟩

/-! ## MD5 -/

def Vars4.list (x : Vars4) : List Nat := [x.a.toNat, x.b.toNat, x.c.toNat, x.d.toNat]

theorem md5_pad (m : GoString) : Padded numberLE 64 8 m (Md5.pad m) := by
  refine ⟨(64 - (m.length + 9) % 64) % 64, Md5.natLE 8 (8 * m.length), by simp [Md5.pad], by omega, ?_, ?_, ?_⟩
  · simp [Md5.pad, natLE_range]; omega
  · rw [natLE_range, List.length_map, List.length_range]
  · rw [numberLE_eq, leNat_natLE]

theorem stepF_eq {t : Nat} (ht : t < 64) (x y z : BitVec 32) :
    Md5.stepF t x.toNat y.toNat z.toNat = (((md5Step t).1 x y z).toNat, (md5Step t).2.1, (md5Step t).2.2) := by
  unfold Md5.stepF
  have h : ∀ t < 64, (md5Step t).2 = (if t < 16 then (t, [7, 12, 17, 22].getD (t % 4) 0)
      else if t < 32 then ((5 * t + 1) % 16, [5, 9, 14, 20].getD (t % 4) 0)
      else if t < 48 then ((3 * t + 5) % 16, [4, 11, 16, 23].getD (t % 4) 0)
      else (7 * t % 16, [6, 10, 15, 21].getD (t % 4) 0)) := by decide
  rw [h t ht]
  by_cases h1 : t < 16
  · rw [if_pos h1, if_pos h1, md5Step, show t / 16 = 0 from by omega]
    simp only [F, BitVec.toNat_or, BitVec.toNat_and, not_eq]
  · rw [if_neg h1, if_neg h1]
    by_cases h2 : t < 32
    · rw [if_pos h2, if_pos h2, md5Step, show t / 16 = 1 from by omega]
      simp only [G, BitVec.toNat_or, BitVec.toNat_and, not_eq]
    · rw [if_neg h2, if_neg h2]
      by_cases h3 : t < 48
      · rw [if_pos h3, if_pos h3, md5Step, show t / 16 = 2 from by omega]
        simp only [Parity, BitVec.toNat_xor]
      · rw [if_neg h3, if_neg h3, md5Step, show t / 16 = 3 from by omega]
        simp only [I, BitVec.toNat_or, BitVec.toNat_xor, not_eq]

theorem md5Step_word : ∀ t < 64, (md5Step t).2.1 < 16 ∧ (md5Step t).2.2 < 32 := by decide

theorem steps_eq {T : Nat → BitVec 32} {xs : List Nat} {X : Nat → BitVec 32} (hx : ∀ k < 16, xs.getD k 0 = (X k).toNat) (H : Vars4) (j t : Nat)
    (ht : t + j ≤ 64) :
    Md5.steps xs t ((List.range' t j).map fun t => (T t).toNat) (md5After T X H t).list = (md5After T X H (t + j)).list := by
  induction j generalizing t with
  | zero => rw [List.range'_zero, List.map_nil, Md5.steps, Nat.add_zero]; simp
  | succ j ih =>
    rw [List.range'_succ, List.map_cons, Vars4.list, Md5.steps]
    rw [stepF_eq (by omega)]
    dsimp only
    rw [hx _ (md5Step_word t (by omega)).1]
    simp only [add_eq]
    rw [rotl_eq (md5Step_word t (by omega)).2]
    simp only [add_eq]
    have := ih (t + 1) (by omega)
    rw [show t + 1 + j = t + (j + 1) from by omega] at this
    rw [← this]
    rfl

theorem md5Block_eq {T : Nat → BitVec 32} (hT : Md5.table = (List.range 64).map fun t => (T t).toNat) (q : GoString) (i : Nat) :
    Md5.block (md5H T q i).list (blockAt 64 q i) = (md5H T q (i + 1)).list := by
  have hx : ∀ k < 16, (Md5.wordsLE 16 (blockAt 64 q i)).getD k 0 = (wordAt numberLE 32 q i k).toNat := by
    intro k hk
    rw [words_blockLE, List.getD_eq_getElem?_getD, List.getElem?_map, List.getElem?_range hk]
    rfl
  have := steps_eq (T := T) hx (md5H T q i) 64 0 (by decide)
  rw [Nat.zero_add, ← List.range_eq_range', ← hT, show (md5After T (wordAt numberLE 32 q i) (md5H T q i) 0).list = (md5H T q i).list from rfl] at this
  rw [Md5.block, this, md5H]
  generalize md5After T (wordAt numberLE 32 q i) (md5H T q i) 64 = v
  generalize md5H T q i = H
  simp only [Vars4.list, List.zipWith, add_eq]

theorem isMd5With_iff {T : Nat → BitVec 32} (hT : Md5.table = (List.range 64).map fun t => (T t).toNat) {m d : GoString} :
    IsMd5With T m d ↔ Md5.md5 m = d := by
  have key : ∀ {q : GoString}, Padded numberLE 64 8 m q →
      Md5.md5 m = bytesOfLE (md5H T q (q.length / 64)).a ++ bytesOfLE (md5H T q (q.length / 64)).b ++ bytesOfLE (md5H T q (q.length / 64)).c ++
        bytesOfLE (md5H T q (q.length / 64)).d := by
    intro q hq
    have hq := padded_unique numberLE_inj hq (md5_pad m)
    rw [Md5.md5, ← hq]
    have h0 : (md5H T q 0).list = [0x67452301, 0xefcdab89, 0x98badcfe, 0x10325476] := rfl
    rw [overBlocks_eq _ _ _ _ _ (fun i => (md5H T q i).list) h0 (fun i _ => (md5Block_eq hT q i).symm)]
    generalize md5H T q (q.length / 64) = H
    simp only [Vars4.list, List.flatMap_cons, List.flatMap_nil, bytesOfLE_eq (k := 4), List.append_nil, List.append_assoc]
  constructor
  · rintro ⟨q, hq, rfl⟩
    exact key hq
  · rintro rfl
    exact ⟨_, md5_pad m, key (md5_pad m)⟩

theorem sineTable_iff {T : Nat → BitVec 32} : SineTable T ↔ Md5.table = (List.range 64).map fun t => (T t).toNat := by
  have hl : Md5.table.length = 64 := by decide
  constructor
  · intro h
    refine List.ext_getElem? fun i => ?_
    by_cases hi : i < 64
    · have ht := List.getElem?_eq_getElem (l := Md5.table) (i := i) (by omega)
      obtain ⟨a, b⟩ := Sines.table_sines ht
      obtain ⟨c, d⟩ := h i hi
      rw [ht, List.getElem?_map, List.getElem?_range hi, Option.map_some]
      generalize Md5.table[i] = k at a b
      have x : (k : ℝ) < (T i).toNat + 1 := lt_of_le_of_lt a d
      have y : ((T i).toNat : ℝ) < k + 1 := lt_of_le_of_lt c b
      have x' : k < (T i).toNat + 1 := by exact_mod_cast x
      have y' : (T i).toNat < k + 1 := by exact_mod_cast y
      exact congrArg some (by omega)
    · rw [List.getElem?_eq_none (by omega), List.getElem?_eq_none (by simp; omega)]
  · intro h t ht
    refine Sines.table_sines ?_
    rw [h, List.getElem?_map, List.getElem?_range ht, Option.map_some]

theorem isMd5_iff {m d : GoString} : IsMd5 m d ↔ Md5.md5 m = d := by
  constructor
  · rintro ⟨T, hT, h⟩
    exact (isMd5With_iff (sineTable_iff.1 hT)).1 h
  · intro h
    have hT := range_getD (w := 32) Md5.table (n := 64) (by decide) (by decide)
    exact ⟨_, sineTable_iff.2 hT, (isMd5With_iff hT).2 h⟩

end GoIdentity.Fips
