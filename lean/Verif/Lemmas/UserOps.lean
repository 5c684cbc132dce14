import Verif.Model.Users
/-!
# Inversion lemmas for the methods of `User`
-/
set_option linter.unusedSectionVars false
namespace GoIdentity
variable [Ext]
namespace User

theorem addPassword_ok {now salt s k} {u u' : User} (h : u.addPassword now salt s k = .ok u') :
    ∃ p, newPassword now salt s = .ok p ∧
      u' = revise (now.skip (1 + 2 * u.passwords.length))
        { u with passwords := p :: keepLoop (now.skip 1) (if k < 1 then 9 else k) 0 u.passwords } := by
  unfold addPassword at h
  split at h
  · simp at h
  · simp at h
  · rename_i p hp
    exact ⟨p, hp, by simpa using h.symm⟩

theorem changePassword_ok {nd old new k} {u u' : User} (h : u.changePassword nd old new k = .ok u') :
    u.verifyPassword old = none ∧ u.addPassword nd.now (nd.salts 0) new k = .ok u' := by
  unfold changePassword at h
  split at h
  · simp at h
  · rename_i hv
    split at h <;> simp_all

theorem addPublicKey_ok {nd k} {u u' : User} (h : u.addPublicKey nd k = .ok u') :
    ∃ key, newPublicKey nd.now (getRandomString nd.seedRand 0 40) k = .ok key ∧
      (∀ x ∈ u.publicKeys, ¬ (x.type = key.type ∧ x.fingerprint = key.fingerprint)) ∧
      u' = revise (nd.now.skip 2) { u with publicKeys := u.publicKeys ++ [key] } := by
  unfold addPublicKey at h
  split at h
  · simp at h
  · simp at h
  · rename_i key hk
    split at h
    · simp at h
    · rename_i hd
      refine ⟨key, hk, ?_, by simpa using h.symm⟩
      intro x hx hc
      exact hd (List.any_eq_true.2 ⟨x, hx, by simp [hc.1, hc.2]⟩)

theorem deletePublicKey_ok {now k} {u u' : User} (h : u.deletePublicKey now k = .ok u') :
    (∃ x ∈ u.publicKeys, x.id = k.id) ∧
      u' = revise now { u with publicKeys := u.publicKeys.filter fun x => !(x.id == k.id) } := by
  unfold deletePublicKey at h
  split at h
  · rename_i hd
    obtain ⟨x, hx, he⟩ := List.any_eq_true.1 hd
    exact ⟨⟨x, hx, by simpa using he⟩, by simpa using h.symm⟩
  · simp at h

theorem addAPIKey_ok {now id k} {u u' : User} (h : u.addAPIKey now id k = .ok u') :
    ∃ key, newAPIKey now id k = .ok key ∧ u' = revise (now.skip 2) { u with apiKeys := u.apiKeys ++ [key] } := by
  unfold addAPIKey at h
  split at h
  · simp at h
  · simp at h
  · rename_i key hk
    exact ⟨key, hk, by simpa using h.symm⟩

theorem deleteAPIKeyLoop_eq (id : GoString) (ks : List APIKey) (f : Bool) (p : GoString) (acc : List APIKey) :
    deleteAPIKeyLoop id ks (f, p, acc) =
      (f || ks.any (fun k => k.id == id),
        ((ks.filter (fun k => k.id == id)).getLast?.map (·.pfx)).getD p,
        acc ++ ks.filter (fun k => !(k.id == id))) := by
  induction ks generalizing f p acc with
  | nil => simp [deleteAPIKeyLoop]
  | cons k ks ih =>
    unfold deleteAPIKeyLoop
    by_cases h : k.id = id
    · simp only [h, if_true, ih]
      simp [List.getLast?_cons, h]
    · have hb : (k.id == id) = false := by simpa using h
      simp [h, ih, hb]

theorem deleteAPIKey_ok {now k k'} {u u' : User} (h : u.deleteAPIKey now k = .ok (u', k')) :
    (∃ x, (u.apiKeys.filter (fun x => x.id == k.id)).getLast? = some x ∧ k' = { k with pfx := x.pfx }) ∧
      u' = revise now { u with apiKeys := u.apiKeys.filter fun x => !(x.id == k.id) } := by
  unfold deleteAPIKey at h
  rw [deleteAPIKeyLoop_eq] at h
  by_cases ha : u.apiKeys.any (fun x => x.id == k.id)
  · obtain ⟨x, hx, he⟩ := List.any_eq_true.1 ha
    have hne : u.apiKeys.filter (fun x => x.id == k.id) ≠ [] := by
      intro hc
      have : x ∈ u.apiKeys.filter (fun x => x.id == k.id) := List.mem_filter.2 ⟨hx, he⟩
      rw [hc] at this
      simp at this
    obtain ⟨y, hy⟩ : ∃ y, (u.apiKeys.filter (fun x => x.id == k.id)).getLast? = some y := by
      cases hl : (u.apiKeys.filter (fun x => x.id == k.id)).getLast? with
      | none => exact absurd (List.getLast?_eq_none_iff.1 hl) hne
      | some y => exact ⟨y, rfl⟩
    simp [ha, hy] at h
    exact ⟨⟨y, hy, h.2.symm⟩, h.1.symm⟩
  · simp [Bool.eq_false_iff.2 ha] at h

theorem checkMfaDup_none {t : MfaToken} {ts : List MfaToken} :
    checkMfaDup t ts = none ↔ ∀ k ∈ ts, k.secret ≠ t.secret ∧ k.comment ≠ t.comment := by
  induction ts with
  | nil => simp [checkMfaDup]
  | cons k ks ih =>
    unfold checkMfaDup
    by_cases h1 : k.secret = t.secret
    · simp [h1]
    · by_cases h2 : k.comment = t.comment
      · simp [h1, h2]
      · simp [h1, h2, ih]

theorem addMfaToken_ok {nd req req'} {u u' : User} (h : u.addMfaToken nd req = (.ok u', req')) :
    ∃ t, newMfaToken nd req = (.ok t, req') ∧
      (∀ k ∈ u.mfaTokens, k.secret ≠ t.secret ∧ k.comment ≠ t.comment) ∧
      u' = revise (nd.now.skip 2) { u with mfaTokens := u.mfaTokens ++ [t] } := by
  unfold addMfaToken at h
  split at h
  · simp at h
  · simp at h
  · rename_i t r ht
    split at h
    · simp at h
    · rename_i hd
      simp only [Prod.mk.injEq, Res.ok.injEq] at h
      exact ⟨t, by rw [ht, h.2], checkMfaDup_none.1 hd, h.1.symm⟩

theorem deleteMfaToken_ok {now id} {u u' : User} (h : u.deleteMfaToken now id = .ok u') :
    (∃ x ∈ u.mfaTokens, x.id = id) ∧
      u' = revise now { u with mfaTokens := u.mfaTokens.filter fun x => !(x.id == id) } := by
  unfold deleteMfaToken at h
  split at h
  · rename_i hd
    obtain ⟨x, hx, he⟩ := List.any_eq_true.1 hd
    exact ⟨⟨x, hx, by simpa using he⟩, by simpa using h.symm⟩
  · simp at h

theorem newAPIKey_ok {now id k key} (h : newAPIKey now id k = .ok key) :
    k.payload ≠ [] ∧ k.usage = gs! "api" ∧ k.comment ≠ [] ∧
      key = { id := id, pfx := k.pfx, usage := k.usage, comment := k.comment, payload := k.payload,
              expired := false, expiredAt := .zero, createdAt := now 0, disabled := k.disabled,
              disabledAt := if k.disabled then now 1 else .zero } := by
  unfold newAPIKey at h
  split at h
  · simp at h
  · split at h
    · simp at h
    · split at h
      · simp at h
      · split at h
        · simp at h
        · rename_i h1 h2 h3 h4
          exact ⟨h1, by simpa using h3, h4, by simpa using h.symm⟩

theorem addEmailAddress_nil {now s} {u u' : User} (hu : u.emailAddresses = [])
    (h : u.addEmailAddress now s = .ok u') :
    ∃ e, newEmailAddress s = .ok e ∧
      u' = revise now { u with emailAddress := some e, emailAddresses := [e] } := by
  unfold addEmailAddress at h
  split at h
  · simp at h
  · simp at h
  · rename_i e he
    simp [hu] at h
    exact ⟨e, he, h.symm⟩

omit [Ext] in
/-- What `AddRole` does: nothing if the role is held, otherwise append. -/
theorem addRole_ok {now s} {u u' : User} (h : u.addRole now s = .ok u') :
    ∃ r, newRole s = .ok r ∧
      u' = if r ∈ u.roles then u else revise now { u with roles := u.roles ++ [r] } := by
  unfold addRole at h
  split at h
  · simp at h
  · simp at h
  · rename_i r hr
    refine ⟨r, hr, ?_⟩
    have hany : (u.roles.any fun x => x.name == r.name && x.organization == r.organization) = true ↔ r ∈ u.roles := by
      rw [List.any_eq_true]
      constructor
      · rintro ⟨x, hx, he⟩
        simp at he
        have : x = r := by cases x; cases r; simp_all
        exact this ▸ hx
      · intro hx
        exact ⟨r, hx, by simp⟩
    by_cases h0 : u.roles.length = 0
    · have : u.roles = [] := List.eq_nil_of_length_eq_zero h0
      simp [this] at h ⊢
      exact h.symm
    · simp only [h0, if_false] at h
      by_cases hm : r ∈ u.roles
      · simp only [hany.2 hm, if_true] at h
        simpa [hm] using h.symm
      · have : ¬ (u.roles.any fun x => x.name == r.name && x.organization == r.organization) = true := fun hc => hm (hany.1 hc)
        simp only [this] at h
        simpa [hm] using h.symm

/-- Parse all roles; `none` if one of them is blank. -/
def parseRoles : List GoString → Option (List Role)
  | [] => some []
  | s :: ss =>
    match newRole s, parseRoles ss with
    | .ok r, some rs => some (r :: rs)
    | _, _ => none

/-- Append the roles not yet present, in order. -/
def dedupRoles (held : List Role) : List Role → List Role
  | [] => held
  | r :: rs => dedupRoles (if r ∈ held then held else held ++ [r]) rs

/-- The number of the clock reading made when the last new role is added, if `d` was the last one made before, and `k` would be
the reading for the first role. -/
def lastReading (held : List Role) (d k : Nat) : List Role → Nat
  | [] => d
  | r :: rs => if r ∈ held then lastReading held d (k + 1) rs else lastReading (held ++ [r]) k (k + 1) rs

theorem le_lastReading (held : List Role) (d k : Nat) (rs : List Role) (h : d ≤ k) : d ≤ lastReading held d k rs := by
  induction rs generalizing held d k with
  | nil => exact Nat.le_refl _
  | cons r rs ih =>
    unfold lastReading
    split
    · exact ih _ _ _ (by omega)
    · exact Nat.le_trans h (ih _ _ _ (by omega))

omit [Ext] in
theorem addRoles_ok {now : Clock} {d k ss} {u u' : User} (hd : u.lastModified = now d) (h : u.addRoles (now.skip k) ss = .ok u') :
    ∃ rs n, parseRoles ss = some rs ∧
      u' = { u with roles := dedupRoles u.roles rs, revision := n, lastModified := now (lastReading u.roles d k rs) } := by
  induction ss generalizing u d k with
  | nil =>
    simp only [addRoles, Res.ok.injEq] at h
    exact ⟨[], u.revision, rfl, by simp [dedupRoles, lastReading, h, ← hd]⟩
  | cons s ss ih =>
    unfold addRoles at h
    split at h
    · simp at h
    · simp at h
    · rename_i u1 h1
      obtain ⟨r, hr, hu1⟩ := addRole_ok h1
      have hskip : (now.skip k).skip 1 = now.skip (k + 1) := by
        funext i; simp only [Clock.skip]; congr 1; omega
      rw [hskip] at h
      by_cases hm : r ∈ u.roles
      · simp [hm] at hu1
        subst hu1
        obtain ⟨rs, n, hrs, hu'⟩ := ih hd h
        refine ⟨r :: rs, n, by simp [parseRoles, hr, hrs], ?_⟩
        rw [hu']
        simp [dedupRoles, lastReading, hm]
      · simp [hm] at hu1
        subst hu1
        obtain ⟨rs, n, hrs, hu'⟩ := ih (d := k) rfl h
        refine ⟨r :: rs, n, by simp [parseRoles, hr, hrs], ?_⟩
        rw [hu']
        simp [dedupRoles, lastReading, hm, revise]

omit [Ext] in
theorem addRoles_ok' {now : Clock} {ss} {u u' : User} (h : u.addRoles now ss = .ok u') :
    ∃ rs n t, parseRoles ss = some rs ∧
      u' = { u with roles := dedupRoles u.roles rs, revision := n, lastModified := t } := by
  let c : Clock := fun i => match i with | 0 => u.lastModified | i + 1 => now i
  have hc : c.skip 1 = now := by
    funext i; simp only [Clock.skip, Nat.add_comm 1 i, c]
  obtain ⟨rs, n, h1, h2⟩ := addRoles_ok (now := c) (d := 0) (k := 1) rfl (hc ▸ h)
  exact ⟨rs, n, _, h1, h2⟩

/-- What a successful `NewUserWithRoles` returns. -/
theorem newWithRoles_ok {nd un pw em fn rs} {u : User} (h : newWithRoles nd un pw em fn rs = .ok u) :
    ∃ p e roles name, newPassword (nd.now.skip 2) (nd.salts 0) pw = .ok p ∧ newEmailAddress em = .ok e ∧
      parseRoles rs = some roles ∧
      ((trimSpace fn = [] ∧ name = none) ∨ (trimSpace fn ≠ [] ∧ ∃ n, parseName (trimSpace fn) = .ok n ∧ name = some n)) ∧
      nd.userID.length = 36 ∧ un ≠ [] ∧
      u = { User.zero with
        id := nd.userID, username := un, created := nd.now 0, lastModified := nd.now (lastReading [] 4 5 roles), revision := 0
        passwords := [p], emailAddress := some e, emailAddresses := [e], roles := dedupRoles [] roles
        name := name, names := name.toList } := by
  unfold newWithRoles at h
  split at h
  · simp at h
  · simp at h
  rename_i u1 h1
  obtain ⟨p, hp, hu1⟩ := addPassword_ok h1
  split at h
  · simp at h
  · simp at h
  rename_i u2 h2
  obtain ⟨e, he, hu2⟩ := addEmailAddress_nil (by subst hu1; rfl) h2
  split at h
  · simp at h
  · simp at h
  rename_i u3 h3
  obtain ⟨roles, n, hroles, hu3⟩ := addRoles_ok (d := 4) (by rw [hu2]; rfl) h3
  have hnames : u3.names = [] := by subst hu3 hu2 hu1; rfl
  split at h
  · simp at h
  · simp at h
  rename_i u4 h4
  split at h
  · simp at h
  · simp at h
  rename_i hvalid
  simp only [Res.ok.injEq] at h
  unfold addFullName at h4
  dsimp only at h4
  have hval : nd.userID.length = 36 ∧ un ≠ [] := by
    have hid : u4.id = nd.userID ∧ u4.username = un := by
      split at h4
      · simp only [Res.ok.injEq] at h4
        subst h4 hu3 hu2 hu1
        exact ⟨rfl, rfl⟩
      · split at h4
        · simp at h4
        · simp at h4
        · simp only [Res.ok.injEq] at h4
          subst h4
          simp only [addName, hnames, List.length_nil, if_true]
          subst hu3 hu2 hu1
          exact ⟨rfl, rfl⟩
    unfold valid at hvalid
    rw [hid.1, hid.2] at hvalid
    by_cases ha : nd.userID.length = 36
    · by_cases hb : un = []
      · simp [ha, hb] at hvalid
      · exact ⟨ha, hb⟩
    · simp [ha] at hvalid
  split at h4
  · rename_i hfn
    simp only [Res.ok.injEq] at h4
    refine ⟨p, e, roles, none, hp, he, hroles, .inl ⟨hfn, rfl⟩, hval.1, hval.2, ?_⟩
    subst h h4 hu3 hu2 hu1
    simp [revise, new, keepLoop, User.zero]
  · rename_i hfn
    split at h4
    · simp at h4
    · simp at h4
    rename_i nm hnm
    simp only [Res.ok.injEq] at h4
    refine ⟨p, e, roles, some nm, hp, he, hroles, .inr ⟨hfn, nm, hnm, rfl⟩, hval.1, hval.2, ?_⟩
    subst h h4
    simp only [addName, hnames, List.length_nil, if_true]
    subst hu3 hu2 hu1
    simp [revise, new, keepLoop, User.zero]

end User
end GoIdentity
