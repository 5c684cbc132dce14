import Verif.Lemmas.Refusals3
/-!
# The tables of checks: adding keys and tokens
-/
set_option linter.unusedSectionVars false
namespace GoIdentity
variable [Ext]

theorem addPublicKey_decides {db : Database} (h : Inv db) (nd : Nondet) (fs : FS) (req : Request) :
    Decides (Checks.addPublicKey nd db fs req) (db.addPublicKey nd fs req).out := by
  unfold Checks.addPublicKey Database.addPublicKey
  dsimp only
  simp only [List.append_assoc]
  rcases identity_spec h req (.withE .addPublicKey [req.key.usage]) with ⟨e, h1, h2⟩ | ⟨i, u, h1, ha, h2⟩
  · rw [h1]; exact h2.left
  rw [h1]
  refine h2.then ?_
  dsimp only
  unfold User.addPublicKey
  have hk := readKey_spec nd.now (getRandomString nd.seedRand 0 40) req.key (.withE .addPublicKey [req.key.usage])
  cases hn : newPublicKey nd.now (getRandomString nd.seedRand 0 40) req.key with
  | err e => rw [hn] at hk; exact Decides.left hk
  | panic => rw [hn] at hk; exact Decides.left hk
  | ok key =>
    rw [hn] at hk
    refine hk.2.then ?_
    dsimp only
    by_cases hd : ∃ x ∈ u.publicKeys, x.type = key.type ∧ x.fingerprint = key.fingerprint
    · have : u.publicKeys.any (fun x => x.type == key.type && x.fingerprint == key.fingerprint) = true := by simpa using hd
      rw [if_pos this]
      exact .yesr ⟨u, key, ha, rfl, hd⟩
    · have : ¬ u.publicKeys.any (fun x => x.type == key.type && x.fingerprint == key.fingerprint) = true := by simpa using hd
      rw [if_neg this]
      refine .nor ?_ ?_
      · rintro ⟨v, key', hv, hk', hx⟩
        cases hk'
        exact hd (addressed_unique h ha hv ▸ hx)
      · refine finish_ends ?_ req _
        rfl

/-! ## API keys -/

theorem newPassword_none {now : Clock} {s : GoString} (hs : trimSpace s ≠ []) :
    newPassword now none s = .err (.withE .passwordGenerate [] (.ext (gs! "entropy"))) := by
  unfold newPassword newPasswordWithOptions bcryptGenerate
  simp [hs]

theorem keyLoop_fail {nd : Nondet} {db : Database} {s : GoString} (hs : trimSpace s ≠ []) {fuel a f : Nat} {e : GoErr}
    (h : db.keyLoop nd s fuel a f = .fail e) : e = .withE .passwordGenerate [] (.ext (gs! "entropy")) := by
  induction fuel generalizing a f with
  | zero => simp [Database.keyLoop] at h
  | succ n ih =>
    unfold Database.keyLoop at h
    cases hsalt : nd.salts a with
    | none =>
      rw [hsalt, newPassword_none hs] at h
      dsimp only at h
      split at h
      · cases h; rfl
      · exact ih h
    | some t =>
      obtain ⟨p, hp⟩ := newPassword_iff (now := nd.now) (salt := some t).2 ⟨hs, rfl⟩
      rw [hsalt, hp] at h
      dsimp only at h
      split at h
      · exact ih h
      · simp at h

/-- With a prefix in use the loop fails exactly if hashing failed twelve times. -/
theorem keyLoop_used {nd : Nondet} {db : Database} {s : GoString} (hs : trimSpace s ≠ []) {i : Nat}
    (hu : db.refAPIKey (s.take 24) = some i) (fuel a f : Nat) (hf : f ≤ 11) :
    db.keyLoop nd s fuel a f =
      if 12 ≤ f + ((List.range fuel).filter fun n => (nd.salts (a + n)).isNone).length then
        .fail (.withE .passwordGenerate [] (.ext (gs! "entropy")))
      else .hang := by
  induction fuel generalizing a f with
  | zero => rw [if_neg (by simp; omega)]; rfl
  | succ n ih =>
    have hshift : ((List.range n).map Nat.succ).filter (fun n => (nd.salts (a + n)).isNone) =
        ((List.range n).filter (fun n => (nd.salts (a + 1 + n)).isNone)).map Nat.succ := by
      rw [List.filter_map]
      congr 1
      apply List.filter_congr
      intro x _
      simp only [Function.comp]
      rw [show a + Nat.succ x = a + 1 + x from by omega]
    unfold Database.keyLoop
    rw [List.range_succ_eq_map, List.filter_cons, hshift]
    cases hsalt : nd.salts a with
    | none =>
      rw [newPassword_none hs]
      dsimp only
      simp only [Option.isNone_none, if_true, List.length_cons, List.length_map]
      by_cases h11 : f > 10
      · rw [if_pos h11, if_pos (by omega)]
      · rw [if_neg h11, ih _ _ (by omega)]
        congr 1
        apply propext
        omega
    | some t =>
      obtain ⟨p, hp⟩ := newPassword_iff (now := nd.now) (salt := some t).2 ⟨hs, rfl⟩
      rw [hp]
      dsimp only
      rw [hu]
      dsimp only
      simp only [Option.isNone_some, Bool.false_eq_true, if_false, List.length_map]
      exact ih _ _ hf

theorem first_twelve {nd : Nondet} (hfuel : 12 ≤ nd.fuel) (h : ∀ n < 12, nd.salts n = none) :
    12 ≤ ((List.range nd.fuel).filter fun n => (nd.salts n).isNone).length := by
  have h1 : ((List.range 12).filter fun n => (nd.salts n).isNone).length = 12 := by
    rw [List.filter_eq_self.2 (fun n hn => by rw [h n (List.mem_range.1 hn)]; rfl), List.length_range]
  have h2 : List.Sublist (List.range 12) (List.range nd.fuel) := List.range_sublist.2 hfuel
  exact h1 ▸ (h2.filter _).length_le

theorem addAPIKey_decides {db : Database} (h : ReachKeys db) (nd : Nondet) (fs : FS) (req : Request) (hfuel : 12 ≤ nd.fuel)
    {s : GoString} (hs : getRandomStringFromRange nd.globalRand nd.seedRand 72 96 = .ok s) :
    Decides (Checks.addAPIKey nd db fs req s) (db.addAPIKey nd fs req).out := by
  have hinv := reach_inv h.reach
  have hne : trimSpace s ≠ [] := by
    obtain ⟨h1, _, _, h2⟩ := secret_shape hs
    rw [h2]; intro hc; rw [hc] at h1; simp at h1
  have hfree : db.refAPIKey (s.take 24) = none ↔ PrefixUnused db (s.take 24) := by
    constructor
    · intro hn u hu k hk hc
      obtain ⟨i, hi⟩ := List.getElem?_of_mem hu
      have := hinv.api_ref i u k hi hk
      rw [hc, hn] at this; simp at this
    · intro hu
      cases hr : db.refAPIKey (s.take 24) with
      | none => rfl
      | some i =>
        obtain ⟨u, hui, k, hk, hkp⟩ := (C22_index_exact h _ _).1 hr
        exact absurd hkp (hu u (List.mem_of_getElem? hui) k hk)
  unfold Checks.addAPIKey Database.addAPIKey
  dsimp only
  simp only [List.append_assoc]
  rcases identity_spec hinv req (.withE .addAPIKey [req.key.usage]) with ⟨e, h1, h2⟩ | ⟨i, u, h1, ha, h2⟩
  · rw [h1]; exact h2.left
  rw [h1]
  refine h2.then ?_
  dsimp only
  rw [hs]
  dsimp only
  cases hr : db.refAPIKey (s.take 24) with
  | some j =>
    have hused : ¬ PrefixUnused db (s.take 24) := fun hc => by
      have := hfree.2 hc; rw [hr] at this; simp at this
    have hl := keyLoop_used (nd := nd) hne hr nd.fuel 0 0 (by omega)
    simp only [Nat.zero_add] at hl
    rw [hl]
    by_cases hc : 12 ≤ ((List.range nd.fuel).filter fun n => (nd.salts n).isNone).length
    · rw [if_pos hc]
      exact .yesr (.inr ⟨hused, hc⟩)
    · rw [if_neg hc]
      refine .nor ?_ (.yes hused)
      rintro (hx | hx)
      · exact hc (first_twelve hfuel hx)
      · exact hc hx.2
  | none =>
    have hun := hfree.1 hr
    have hloop := keyLoop_found_iff (nd := nd) (db := db) hne nd.fuel 0 0 (by omega)
    by_cases hall : ∀ n < 12, nd.salts n = none
    · cases hk : db.keyLoop nd s nd.fuel 0 0 with
      | hang => exact absurd hk (keyLoop_returns hr _ _ _ (by omega) (by omega))
      | fail e =>
        have := keyLoop_fail hne hk
        subst this
        exact .yesr (.inl hall)
      | found hash =>
        obtain ⟨_, n, h3, h4, h5⟩ := hloop.1 ⟨hash, hk⟩
        rw [Nat.zero_add, hall n (by omega)] at h5
        simp at h5
    · have hsome : ∃ n, n < nd.fuel ∧ n + 0 ≤ 11 ∧ (nd.salts (0 + n)).isSome = true := by
        by_cases hx : ∃ n, n < nd.fuel ∧ n + 0 ≤ 11 ∧ (nd.salts (0 + n)).isSome = true
        · exact hx
        · refine absurd (fun n hn => ?_) hall
          cases hsn : nd.salts n with
          | none => rfl
          | some t => exact absurd ⟨n, by omega, by omega, by rw [Nat.zero_add, hsn]; rfl⟩ hx
      obtain ⟨hash, hl⟩ := hloop.2 ⟨hr, hsome⟩
      have hhash : hash ≠ [] := by
        obtain ⟨_, m, hk, hp, rfl⟩ := keyLoop_found hl
        obtain ⟨_, salt, _, rfl⟩ := newPassword_ok hp
        intro hc
        have := bcryptText_length 10 salt (trimSpace s)
        dsimp only at hc
        rw [hc] at this
        simp at this
      rw [hl]
      dsimp only
      refine .nor (fun hc => hc.elim hall fun hc => hc.1 hun) (.no (fun hc => hc hun) ?_)
      unfold User.addAPIKey newAPIKey
      rw [if_neg hhash]
      by_cases k1 : req.key.usage = []
      · rw [if_pos k1]; exact .yesr k1
      rw [if_neg k1]
      refine .nor k1 ?_
      by_cases k2 : req.key.usage = gs! "api"
      case neg => rw [if_pos k2]; exact .yesr k2
      rw [if_neg (fun hc => hc k2)]
      refine .nor (fun hc => hc k2) ?_
      by_cases k3 : req.key.comment = []
      · rw [if_pos k3]; exact .yesr k3
      rw [if_neg k3]
      refine .nor k3 ?_
      dsimp only [List.append]
      refine finish_ends ?_ _ _
      rfl

end GoIdentity
