import Verif.Props.ApiKeys
import Verif.Props.Passwords
import Verif.Spec.Toy
/-!
# Generated secrets: C74
-/
set_option linter.unusedSectionVars false
namespace GoIdentity
open Toy

/-- The alphabet has no repetitions. -/
theorem charset_nodup : charset.Nodup := by decide +kernel

/-- The characters of the alphabet are the ASCII letters and digits. -/
theorem mem_charset_iff (b : UInt8) : b ∈ charset ↔ isAlnum b = true := by
  have h : ∀ n : Fin 256, UInt8.ofNat n.1 ∈ charset ↔ isAlnum (UInt8.ofNat n.1) = true := by decide +kernel
  have := h ⟨b.toNat, b.toNat_lt⟩
  simpa using this

/-- A generated string by its draws. -/
theorem getRandomString_getElem (draw : Nat → Nat) (n : Nat) (hn : 1 ≤ n) (i : Nat) (hi : i < n) :
    (getRandomString draw 0 n)[i]? = some (charset.getD (draw i % 62) 0) := by
  unfold getRandomString gen
  rw [if_neg (by omega)]
  simp [hi]
  rfl

/-- C74: a generated string of `n` characters is as random as its draws: every string of `n` letters and digits comes from
exactly one sequence of `n` draws from 0 to 61.  So independent uniform draws make all 62^n strings equally likely. -/
theorem C74_uniform (n : Nat) (hn : 1 ≤ n) (s : GoString) (hl : s.length = n) (hs : ∀ b ∈ s, isAlnum b = true) :
    ∃ d : Fin n → Fin 62, (∀ draw : Nat → Nat, (∀ i : Fin n, draw i % 62 = d i) ↔ getRandomString draw 0 n = s) := by
  have hmem : ∀ i : Fin n, s[i.1]'(by omega) ∈ charset := fun i => (mem_charset_iff _).2 (hs _ (List.getElem_mem _))
  have hlen : charset.length = 62 := by decide
  refine ⟨fun i => ⟨charset.idxOf (s[i.1]'(by omega)), hlen ▸ List.idxOf_lt_length_iff.2 (hmem i)⟩, fun draw => ?_⟩
  have hnth : ∀ (k : Nat) (hk : k < 62), charset.getD k 0 = charset[k]'(by omega) := by
    intro k hk
    rw [List.getD_eq_getElem?_getD, List.getElem?_eq_getElem (by omega)]; rfl
  have hG : (getRandomString draw 0 n).length = n := by
    have := (C24_random_string draw 0 n).1
    rw [if_neg (by omega)] at this
    omega
  constructor
  · intro h
    apply List.ext_getElem?
    intro i
    by_cases hi : i < n
    · rw [getRandomString_getElem draw n hn i hi, h ⟨i, hi⟩, List.getElem?_eq_getElem (by omega)]
      have hlt : charset.idxOf (s[i]'(by omega)) < charset.length := List.idxOf_lt_length_iff.2 (hmem ⟨i, hi⟩)
      dsimp only
      rw [hnth _ (by omega), List.getElem_idxOf]
    · rw [List.getElem?_eq_none (by omega), List.getElem?_eq_none (by omega)]
  · intro h i
    have h1 := getRandomString_getElem draw n hn i i.2
    rw [h, List.getElem?_eq_getElem (by omega)] at h1
    have h2 : s[i.1]'(by omega) = charset[draw i % 62]'(by omega) := by
      rw [← hnth _ (by omega)]; exact Option.some.inj h1
    dsimp only
    rw [h2, List.Nodup.idxOf_getElem charset_nodup]

/-- Different draws, different strings. -/
example : ∃ d : Fin 3 → Fin 62, ∀ draw : Nat → Nat, (∀ i : Fin 3, draw i % 62 = d i) ↔ getRandomString draw 0 3 = gs! "b0Z" :=
  C74_uniform 3 (by omega) _ rfl (by decide)

/-- Two strings of at least 72 bytes have the same bcrypt key exactly if they begin with the same 72 bytes. -/
theorem bcryptKey_long {p q : GoString} (hp : 72 ≤ p.length) (hq : 72 ≤ q.length) :
    bcryptKey p = bcryptKey q ↔ p.take 72 = q.take 72 := by
  have key : ∀ r : GoString, 72 ≤ r.length → bcryptKey r = r.take 72 := by
    intro r hr
    unfold bcryptKey
    apply List.ext_getElem
    · simp; omega
    · intro i h1 h2
      simp only [List.length_map, List.length_range] at h1
      simp only [List.getElem_map, List.getElem_range, List.getElem_take]
      rw [Nat.mod_eq_of_lt (by omega), List.getD_eq_getElem?_getD, List.getElem?_append_left (by omega),
        List.getElem?_eq_getElem (by omega)]
      rfl
  rw [key p hp, key q hq]

/-- C74: in place of an issued API secret a string with the same 24-character prefix and at least 72 characters is accepted
exactly if bcrypt computes the same digest from it, with the salt drawn for the secret. -/
theorem C74_secret_digest [Ext] {db : Database} (h : Reach Opened db) {nd : Nondet} {fs : FS}
    {req : Request} (hs : (exec .addAPIKey nd db fs req).Succeeded) :
    ∃ (s salt : GoString) (n : Nat), (exec .addAPIKey nd db fs req).req.response.payload = .secret s ∧ 72 ≤ s.length ∧
      nd.salts n = some salt ∧
      ∀ (nd' : Nondet) (fs' : FS) (req' : Request), req'.key.payload.take 24 = s.take 24 →
        ((exec .lookupAPIKey nd' (exec .addAPIKey nd db fs req).db fs' req').Succeeded ↔
          72 ≤ req'.key.payload.length ∧ SameDigest salt s req'.key.payload) := by
  obtain ⟨i, u, s, n, hk, key, hv, hsec, hnone, hpw, hkey, husers, hpay⟩ := addAPIKey_success hs
  obtain ⟨_, salt, hsalt, _⟩ := newPassword_ok hpw
  obtain ⟨hlen, _, _, htrim⟩ := secret_shape hsec
  refine ⟨s, salt, n, hpay, hlen, hsalt, fun nd' fs' req' h24 => ?_⟩
  obtain ⟨hi, hname, _⟩ := (validate_iff (reach_inv h)).1 hv
  have hlt := (List.getElem?_eq_some_iff.1 hi).1
  have hr : Reach Opened (exec .addAPIKey nd db fs req).db := .step h ..
  have hinv := reach_inv hr
  have hget : (exec .addAPIKey nd db fs req).db.users[i]? =
      some (User.revise (nd.now.skip 2) { u with apiKeys := u.apiKeys ++ [key] }) := by rw [husers]; simp [hlt]
  have hpfx : key.pfx = s.take 24 := newAPIKey_pfx hkey
  have hacc : ∀ q : GoString, key.accepts q = true ↔ SameDigest salt s q := by
    intro q
    rw [hsalt] at hpw
    have h1 := newPassword_accepts_iff hpw (q := q)
    rw [htrim] at h1
    rw [← h1]
    unfold Password.accepts APIKey.accepts
    rw [(newAPIKey_ok hkey).2.2]
  rw [(C19_lookup_sound_and_complete hr nd' fs' req').1]
  refine and_congr_right fun hl => ?_
  have hmem : key ∈ (User.revise (nd.now.skip 2) { u with apiKeys := u.apiKeys ++ [key] }).apiKeys := by simp [User.revise]
  constructor
  · rintro ⟨w, hw, k, hkw, hp, ha⟩
    obtain ⟨j, hj⟩ := List.getElem?_of_mem hw
    have e1 := hinv.api_ref j w k hj hkw
    have e2 := hinv.api_ref i _ key hget hmem
    rw [hp, h24] at e1
    rw [hpfx, e1] at e2
    cases e2
    rw [hget] at hj
    cases hj
    have hkk : k = key := inj_of_nodup_map (hinv.api_nodup _ hw) hkw hmem (by rw [hp, h24, hpfx])
    subst hkk
    exact (hacc _).1 ha
  · intro h72
    exact ⟨_, List.mem_of_getElem? hget, key, hmem, by rw [hpfx, h24], (hacc _).2 h72⟩

/-- C74: of an issued API secret (72 to 95 characters) only the first 72 count: every string with the same first 72 characters
is accepted in its place; any other with the same 24-character prefix is not, unless its digest happens to be the same. -/
theorem C74_secret_tail_ignored [Ext] {db : Database} (h : Reach Opened db) {nd : Nondet} {fs : FS}
    {req : Request} (hs : (exec .addAPIKey nd db fs req).Succeeded) :
    ∃ s, (exec .addAPIKey nd db fs req).req.response.payload = .secret s ∧
      ∀ (nd' : Nondet) (fs' : FS) (req' : Request), 72 ≤ req'.key.payload.length →
        (req'.key.payload.take 72 = s.take 72 →
          (exec .lookupAPIKey nd' (exec .addAPIKey nd db fs req).db fs' req').Succeeded) ∧
        (req'.key.payload.take 24 = s.take 24 → req'.key.payload.take 72 ≠ s.take 72 →
          (∀ n salt, nd.salts n = some salt → NoCollision salt s req'.key.payload) →
          ¬ (exec .lookupAPIKey nd' (exec .addAPIKey nd db fs req).db fs' req').Succeeded) := by
  obtain ⟨s, salt, n, hpay, hlen, hsalt, hiff⟩ := C74_secret_digest h hs
  refine ⟨s, hpay, fun nd' fs' req' hl => ⟨fun h72 => ?_, fun h24 h72 hb hs' => ?_⟩⟩
  · have h24 : req'.key.payload.take 24 = s.take 24 := by
      have := congrArg (List.take 24) h72
      simpa [List.take_take] using this
    refine (hiff nd' fs' req' h24).2 ⟨hl, ?_⟩
    unfold SameDigest
    rw [(bcryptKey_long hlen hl).2 h72.symm]
  · exact h72 ((bcryptKey_long hlen hl).1 ((hb n salt hsalt) ((hiff nd' fs' req' h24).1 hs').2)).symm

example : (exec .addAPIKey ndA db2 fs3 reqApi).Succeeded ∧
    (exec .lookupAPIKey nd dbKey fs3 (reqLookup (joeSecret ++ gs! "forged"))).Succeeded := by
  unfold Result.Succeeded; decide +kernel

end GoIdentity
