import Verif.Lemmas.Refusals
/-!
# The tables of checks: users and reading calls
-/
set_option linter.unusedSectionVars false
namespace GoIdentity
variable [Ext]

theorem finish_ends {nd : Nondet} {fs : FS} {db : Database} {path : GoString} (hp : db.path = path) (req : Request)
    (w : GoErr → GoErr) : Decides (Checks.write nd fs path w ++ Checks.done) (db.finish nd fs req w).out := by
  subst hp; exact finish_decides nd fs db req w

theorem newEmailAddress_err {s : GoString} {e : GoErr} (h : newEmailAddress s = .err e) : e = .std .emailAddressInvalid := by
  unfold newEmailAddress at h
  split at h
  · simpa using h.symm
  · split at h <;> simp at h

theorem newRole_err {s : GoString} {e : GoErr} (h : newRole s = .err e) : e = .std .roleEmpty := by
  unfold newRole at h
  dsimp only at h
  split at h
  · simpa using h.symm
  · split at h <;> simp at h

theorem addRoles_err {now : Clock} {ss : List GoString} {u : User} {e : GoErr} (h : u.addRoles now ss = .err e) :
    e = .std .roleEmpty := by
  induction ss generalizing now u with
  | nil => simp [User.addRoles] at h
  | cons s ss ih =>
    unfold User.addRoles at h
    split at h
    · rename_i e' h'
      unfold User.addRole at h'
      split at h'
      · rename_i e'' h''
        have := newRole_err h''
        cases h; cases h'
        exact this
      · simp at h'
      · split at h'
        · simp at h'
        · split at h' <;> simp at h'
    · simp at h
    · exact ih h

theorem parseName_err {s : GoString} {e : GoErr} (h : parseName s = .err e) : e = .withV .parseNameFailed [s] [] := by
  unfold parseName at h
  dsimp only at h
  repeat' split at h
  all_goals first | (simpa using h.symm) | simp at h

/-- Creating a user. -/
theorem newWithRoles_spec (nd : Nondet) (un pw em fn : GoString) (rs : List GoString) (w : GoErr → GoErr) :
    let rows := Checks.hashing nd pw w ++
      [refuse (¬ emailPattern.Matches em) (w (.std .emailAddressInvalid)),
       refuse (∃ r ∈ rs, Blank r) (w (.std .roleEmpty)),
       refuse (¬ (Blank fn ∨ (trimSpace fn).count 44 = 1 ∨ (trimSpace fn).count 32 = 1))
         (w (.withV .parseNameFailed [trimSpace fn] [])),
       refuse (nd.userID.length ≠ 36) (w (.withV .userIDInvalidLength [] [nd.userID.length])),
       refuse (un = []) (w (.std .usernameEmpty))]
    (∃ e, User.newWithRoles nd un pw em fn rs = .err e ∧ Decides rows (.fail (w e))) ∨
    ((∃ u, User.newWithRoles nd un pw em fn rs = .ok u) ∧ Passes rows) := by
  intro rows
  have hb : ∀ s : GoString, trimSpace s = [] ↔ Blank s := fun s => trimSpace_nil_iff
  rcases hashing_spec nd (nd.now.skip 2) pw w with ⟨e, h1, h2⟩ | ⟨⟨p, hp⟩, hpass⟩
  · refine .inl ⟨e, ?_, h2.left⟩
    unfold User.newWithRoles User.addPassword
    rw [h1]
  by_cases hem : ∃ m, newEmailAddress em = .ok m
  case neg =>
    have hpat : ¬ emailPattern.Matches em := fun h => hem ((C39_accepts_iff_matches em).2 h)
    refine .inl ⟨.std .emailAddressInvalid, ?_, hpass.then (.yesr hpat)⟩
    cases he : newEmailAddress em with
    | ok m => exact absurd ⟨m, he⟩ hem
    | panic => exact absurd he (newEmailAddress_ne_panic em)
    | err e =>
      have := newEmailAddress_err he
      subst this
      unfold User.newWithRoles User.addPassword
      rw [hp]
      dsimp only
      unfold User.addEmailAddress
      rw [he]
  case pos =>
  have n1 : ¬ ¬ emailPattern.Matches em := fun h => h ((C39_accepts_iff_matches em).1 hem)
  obtain ⟨e, he⟩ := hem
  have e1 : ∃ t, User.addPassword (nd.now.skip 2) (nd.salts 0) pw 0 (User.new nd.now nd.userID un) =
      .ok (User.revise t { User.new nd.now nd.userID un with passwords := [p] }) := by
    unfold User.addPassword; rw [hp]; exact ⟨_, rfl⟩
  obtain ⟨t, e1⟩ := e1
  have e2 : User.addEmailAddress (nd.now.skip 4) em (User.revise t { User.new nd.now nd.userID un with passwords := [p] }) =
      .ok (User.revise (nd.now.skip 4) { User.revise t { User.new nd.now nd.userID un with passwords := [p] } with
        emailAddress := some e, emailAddresses := [e] }) := by
    unfold User.addEmailAddress; rw [he]; rfl
  unfold User.newWithRoles
  rw [e1]
  dsimp only
  rw [e2]
  dsimp only
  generalize hu2 : User.revise (nd.now.skip 4) { User.revise t { User.new nd.now nd.userID un with passwords := [p] } with
        emailAddress := some e, emailAddresses := [e] } = u2
  by_cases hr : ∀ s ∈ rs, trimSpace s ≠ []
  case neg =>
    have hex : ∃ r ∈ rs, Blank r := by
      apply Classical.byContradiction
      intro hc
      exact hr fun s hs h0 => hc ⟨s, hs, (hb s).1 h0⟩
    refine .inl ⟨.std .roleEmpty, ?_, hpass.then (.nor n1 (.yesr hex))⟩
    cases h3 : User.addRoles (nd.now.skip 5) rs u2 with
    | ok u3 => exact absurd ((addRoles_iff u2).1 ⟨u3, h3⟩) hr
    | panic => exact absurd h3 (User.addRoles_ne_panic _ _ _)
    | err e' => have := addRoles_err h3; subst this; rfl
  case pos =>
  have n2 : ¬ ∃ r ∈ rs, Blank r := fun ⟨r, h1, h2⟩ => hr r h1 ((hb r).2 h2)
  obtain ⟨u3, e3⟩ := (addRoles_iff (now := nd.now.skip 5) u2).2 hr
  rw [e3]
  dsimp only
  obtain ⟨roles, n, m, _, hu3⟩ := User.addRoles_ok' e3
  have k3 : u3.id = nd.userID ∧ u3.username = un ∧ u3.passwords = [p] ∧ u3.names = [] := by
    subst hu3 hu2; exact ⟨rfl, rfl, rfl, rfl⟩
  by_cases hn : trimSpace fn = [] ∨ ∃ n, parseName (trimSpace fn) = .ok n
  case neg =>
    have hn' := not_or.1 hn
    have n3 : ¬ (Blank fn ∨ (trimSpace fn).count 44 = 1 ∨ (trimSpace fn).count 32 = 1) := by
      rintro (h | h)
      · exact hn'.1 ((hb fn).2 h)
      · exact hn'.2 ((C38_accepted_iff _).1.2 h)
    refine .inl ⟨_, ?_, hpass.then (.nor n1 (.nor n2 (.yesr n3)))⟩
    unfold User.addFullName
    dsimp only
    rw [if_neg hn'.1]
    cases h4 : parseName (trimSpace fn) with
    | ok n => exact absurd ⟨n, h4⟩ hn'.2
    | panic => exact absurd h4 (C38_accepted_iff _).2
    | err e' => have := parseName_err h4; subst this; rfl
  case pos =>
  have n3 : ¬ ¬ (Blank fn ∨ (trimSpace fn).count 44 = 1 ∨ (trimSpace fn).count 32 = 1) := by
    intro hc
    rcases hn with h | h
    · exact hc (.inl ((hb fn).1 h))
    · exact hc (.inr ((C38_accepted_iff _).1.1 h))
  have e4 : ∃ u4, User.addFullName (nd.now.skip (5 + rs.length)) fn u3 = .ok u4 ∧ u4.id = nd.userID ∧ u4.username = un ∧ u4.passwords = [p] := by
    unfold User.addFullName
    dsimp only
    by_cases hb : trimSpace fn = []
    · rw [if_pos hb]; exact ⟨u3, rfl, k3.1, k3.2.1, k3.2.2.1⟩
    · rw [if_neg hb]
      obtain ⟨n, hn⟩ := hn.resolve_left hb
      rw [hn]
      refine ⟨_, rfl, ?_⟩
      unfold User.addName
      rw [k3.2.2.2]
      exact ⟨k3.1, k3.2.1, k3.2.2.1⟩
  obtain ⟨u4, e4, k4⟩ := e4
  rw [e4]
  dsimp only
  unfold User.valid
  rw [k4.1, k4.2.1, k4.2.2]
  by_cases hid : nd.userID.length ≠ 36
  · rw [if_pos hid]
    exact .inl ⟨_, rfl, hpass.then (.nor n1 (.nor n2 (.nor n3 (.yesr hid))))⟩
  · rw [if_neg hid]
    by_cases hun : un = []
    · rw [if_pos hun]
      exact .inl ⟨_, rfl, hpass.then (.nor n1 (.nor n2 (.nor n3 (.nor hid (.yesr hun)))))⟩
    · rw [if_neg hun]
      exact .inr ⟨⟨_, rfl⟩, hpass.append (.refuse n1 (.refuse n2 (.refuse n3 (.refuse hid (.refuse hun .nil)))))⟩

/-- `AddUser`. -/
theorem addUser_decides {db : Database} (h : Inv db) (nd : Nondet) (fs : FS) (req : Request) :
    Decides (Checks.addUser nd db fs req) (db.addUser nd fs req).out := by
  unfold Database.addUser checkPolicy checkUserPolicy checkPasswordPolicy
  by_cases h1 : (req.user.username.length : Int) > db.policy.user.maxLength ∨
      (req.user.username.length : Int) < db.policy.user.minLength
  · rw [if_pos h1]
    refine Decides.yesr ?_
    unfold UsernameAllowed; omega
  rw [if_neg h1]
  have n1 : ¬ ¬ UsernameAllowed db.policy req.user.username := by unfold UsernameAllowed; omega
  by_cases h2 : (req.user.password.length : Int) > db.policy.password.maxLength ∨
      (req.user.password.length : Int) < db.policy.password.minLength
  · simp only [if_pos h2]
    refine Decides.nor n1 (.yesr ?_)
    unfold PasswordAllowed; omega
  simp only [if_neg h2]
  have n2 : ¬ ¬ PasswordAllowed db.policy req.user.password := by unfold PasswordAllowed; omega
  unfold Checks.addUser
  dsimp only
  have assoc : ∀ (a b c d e : List Row) (r1 r2 r3 r4 r5 r6 r7 : Row),
      a ++ b ++ [r1, r2, r3, r4, r5, r6, r7] ++ c ++ d = a ++ (b ++ [r1, r2, r3, r4, r5]) ++ ([r6, r7] ++ (c ++ d)) := by
    intros; simp
  rw [assoc _ _ _ _ []]
  have hpass0 : Passes [refuse (¬ UsernameAllowed db.policy req.user.username)
        (GoErr.withE .addUser [req.user.username] (.std .userPolicyCompliance)),
      refuse (¬ PasswordAllowed db.policy req.user.password)
        (GoErr.withE .addUser [req.user.username] (.std .passwordPolicyCompliance))] := .refuse n1 (.refuse n2 .nil)
  rcases newWithRoles_spec nd req.user.username req.user.password req.user.email req.user.fullName req.user.roles
    (GoErr.withE .addUser [req.user.username]) with ⟨e, h3, h4⟩ | ⟨⟨user, hnew⟩, hpass⟩
  · rw [h3]
    exact (hpass0.then h4).left
  refine (hpass0.append hpass).then ?_
  rw [hnew]
  dsimp only
  obtain ⟨p, e, roles, name, _, he, _, _, _, _, hu⟩ := User.newWithRoles_ok hnew
  have hun : user.username = req.user.username := by rw [hu]
  have hem : user.emailAddresses = [e] := by rw [hu]
  rw [hun, hem]
  cases h5 : db.refUsername (toLower req.user.username) with
  | some i =>
    dsimp only
    refine .yesr ?_
    obtain ⟨v, hv, hs⟩ := h.name_src _ _ h5
    exact ⟨v, List.mem_of_getElem? hv, hs⟩
  | none =>
    dsimp only
    have n5 : ¬ ∃ v ∈ db.users, toLower v.username = toLower req.user.username :=
      fun ⟨v, hv, hc⟩ => (refUsername_none_iff h).1 h5 v hv hc
    have haddr : e.address = req.user.email := (C39_stored he).1
    cases h6 : db.refEmailAddress (toLower req.user.email) with
    | some i =>
      have hce : db.checkEmails [e] =
          .error (.withV .addUser [toLower req.user.email, gs! "email address already in use"] []) := by
        unfold Database.checkEmails; rw [haddr]; dsimp only; rw [h6]
      rw [hce]
      refine .nor n5 (.yesr ?_)
      obtain ⟨v, hv, m, hm, hs⟩ := h.email_src _ _ h6
      exact ⟨v, List.mem_of_getElem? hv, m, hm, hs⟩
    | none =>
      have n6 : ¬ ∃ v ∈ db.users, ∃ e ∈ v.emailAddresses, toLower e.address = toLower req.user.email :=
        fun ⟨v, hv, m, hm, hc⟩ => (refEmail_none_iff h).1 h6 v hv m hm hc
      have hce : db.checkEmails [e] = .ok [toLower req.user.email] := by
        unfold Database.checkEmails; rw [haddr]; dsimp only; rw [h6]; rfl
      rw [hce]
      refine .nor n5 (.nor n6 ?_)
      dsimp only [List.append]
      refine finish_ends ?_ req _
      rfl

/-- The calls that only read what a user has. -/
theorem reads_decide {db : Database} (h : Inv db) (nd : Nondet) (fs : FS) (req : Request) (s : GoString) {c : Call}
    (hc : c ∈ [Call.getUsers, .getUser, .deleteUser, .getPublicKeys, .getAPIKeys, .getMfaTokens]) :
    Decides (c.checks nd db fs req s) (exec c nd db fs req).out := by
  simp only [List.mem_cons, List.not_mem_nil, or_false] at hc
  rcases hc with rfl | rfl | rfl | rfl | rfl | rfl
  · rcases identity_spec h req (.withE .getUsers []) with ⟨e, h1, h2⟩ | ⟨i, u, h1, _, h2⟩
    · simp only [exec, Database.getUsers, h1]; exact h2.left
    · simp only [exec, Database.getUsers, h1]; exact h2.then decides_done
  · rcases identity_spec h req (.withE .getUsers []) with ⟨e, h1, h2⟩ | ⟨i, u, h1, _, h2⟩
    · simp only [exec, Database.getUserCall, h1]; exact h2.left
    · simp only [exec, Database.getUserCall, h1]; exact h2.then decides_done
  · rcases identity_spec h req (.withE .deleteUser [req.query.id]) with ⟨e, h1, h2⟩ | ⟨i, u, h1, _, h2⟩
    · simp only [exec, Database.deleteUser, h1]; exact h2.left
    · simp only [exec, Database.deleteUser, h1]; exact h2.then (.yesr trivial)
  · rcases identity_spec h req (.withE .getPublicKeys [req.key.usage]) with ⟨e, h1, h2⟩ | ⟨i, u, h1, _, h2⟩
    · simp only [exec, Database.getPublicKeys, h1]; exact h2.left
    · simp only [exec, Database.getPublicKeys, h1]; exact h2.then decides_done
  · rcases identity_spec h req (.withE .getAPIKeys [req.key.usage]) with ⟨e, h1, h2⟩ | ⟨i, u, h1, _, h2⟩
    · simp only [exec, Database.getAPIKeys, h1]; exact h2.left
    · simp only [exec, Database.getAPIKeys, h1]; exact h2.then decides_done
  · rcases identity_spec h req (.withE .getMfaTokens []) with ⟨e, h1, h2⟩ | ⟨i, u, h1, _, h2⟩
    · simp only [exec, Database.getMfaTokens, h1]; exact h2.left
    · simp only [exec, Database.getMfaTokens, h1]; exact h2.then decides_done

theorem copy_decides (nd : Nondet) (db : Database) (fs : FS) (req : Request) (fp : GoString) :
    Decides (Checks.write nd fs fp id ++ Checks.done) (db.copy nd fp fs req).out := by
  unfold Database.copy
  dsimp only
  rcases write_spec nd fs { db with path := fp } id with ⟨e, h1, h2⟩ | ⟨h1, h2⟩
  · generalize Database.commit nd { db with path := fp } fs = x at h1
    obtain ⟨a, b, c⟩ := x
    dsimp only at h1
    subst h1
    exact h2.left
  · generalize Database.commit nd { db with path := fp } fs = x at h1
    obtain ⟨a, b, c⟩ := x
    dsimp only at h1
    subst h1
    exact h2.then decides_done

theorem verifyPassword_spec (s : GoString) (u : User) :
    (u.passwords = [] ∧ u.verifyPassword s = some (.std .userPasswordNotFound)) ∨
    (u.passwords ≠ [] ∧ (¬ ∃ p ∈ u.passwords, p.disabled = false ∧ p.expired = false ∧ bcryptMatch p.hash s = true) ∧
      u.verifyPassword s = some (.std .userPasswordInvalid)) ∨
    (u.passwords ≠ [] ∧ (∃ p ∈ u.passwords, p.disabled = false ∧ p.expired = false ∧ bcryptMatch p.hash s = true) ∧
      u.verifyPassword s = none) := by
  by_cases h0 : u.passwords = []
  · exact .inl ⟨h0, by unfold User.verifyPassword; rw [h0]; rfl⟩
  · right
    cases hv : u.verifyPassword s with
    | none => exact .inr ⟨h0, verifyPassword_iff.1 hv, rfl⟩
    | some e =>
      left
      refine ⟨h0, fun hc => ?_, ?_⟩
      · have := verifyPassword_iff.2 hc; rw [hv] at this; simp at this
      · unfold User.verifyPassword at hv
        rw [if_neg (fun h => h0 (List.eq_nil_of_length_eq_zero h))] at hv
        split at hv
        · simp at hv
        · exact hv.symm

theorem verifyTokens_err {w : ReqWebAuthn} {id : GoString} {ts : List MfaToken} {e : GoErr}
    (h : User.verifyTokens w id ts = .err e) : e = .std .webAuthnVerifyRequest := by
  induction ts with
  | nil => simp [User.verifyTokens] at h; exact h.symm
  | cons t ts ih =>
    unfold User.verifyTokens at h
    split at h
    · exact ih h
    split at h
    · exact ih h
    split at h
    · exact ih h
    split at h
    · exact ih h
    split at h
    · simpa using h.symm
    · simp at h
    split at h
    · simp at h
    split at h
    · simpa using h.symm
    · simp at h

theorem authenticateUser_decides {db : Database} (h : Inv db) (fs : FS) (req : Request) :
    Decides (Checks.authenticateUser db req) (db.authenticateUser fs req).out := by
  unfold Database.authenticateUser
  cases hg : db.getUser req.user.username with
  | none =>
    refine .yesr ?_
    rintro ⟨u, hu, hd, _⟩
    exact (getUser_none_iff h).1 hg u hu hd
  | some iu =>
    obtain ⟨i, u⟩ := iu
    obtain ⟨hi, hd⟩ := (getUser_iff h).1 hg
    have hu := List.mem_of_getElem? hi
    have huniq : ∀ v ∈ db.users, Denotes req.user.username v → v = u := by
      intro v hv hdv
      obtain ⟨j, hj⟩ := List.getElem?_of_mem hv
      have := (getUser_iff h).2 ⟨hj, hdv⟩
      rw [hg] at this
      cases this
      rfl
    dsimp only
    refine .nor (fun hc => hc ⟨u, hu, hd, trivial⟩) ?_
    by_cases hp : req.user.password ≠ []
    · rw [if_pos hp]
      rcases verifyPassword_spec req.user.password u with ⟨h1, h2⟩ | ⟨h1, h2, h3⟩ | ⟨h1, h2, h3⟩
      · rw [h2]; exact .yesr ⟨hp, u, hu, hd, h1⟩
      · rw [h3]
        refine .nor (fun ⟨_, v, hv, hdv, h0⟩ => h1 (huniq v hv hdv ▸ h0)) (.yesr ⟨hp, ?_⟩)
        rintro ⟨v, hv, hdv, hx⟩
        exact h2 (huniq v hv hdv ▸ hx)
      · rw [h3]
        exact .nor (fun ⟨_, v, hv, hdv, h0⟩ => h1 (huniq v hv hdv ▸ h0))
          (.nor (fun ⟨_, hc⟩ => hc ⟨u, hu, hd, h2⟩) (.yes hp))
    · rw [if_neg hp]
      refine .nor (fun hc => hp hc.1) (.nor (fun hc => hp hc.1) (.no hp ?_))
      by_cases hw : req.webAuthn.request = []
      · rw [if_neg (fun hc => hc hw)]
        exact .yesr hw
      · rw [if_pos hw]
        refine .nor hw ?_
        unfold User.verifyWebAuthnRequest unpackWebAuthnRequest
        cases hb : b64Decode req.webAuthn.request with
        | none => exact .yesr rfl
        | some doc =>
          dsimp only
          refine .nor (by simp) ?_
          cases hj : unmarshal authenticateRequestFields AuthenticateRequest.zero doc with
          | err e => exact .here ⟨doc, e, rfl, hj, rfl⟩
          | panic => exact absurd hj (unmarshal_noPanic authenticateRequest_noPanic _ _)
          | ok r =>
            dsimp only
            refine .later ?_ ?_
            · rintro x ⟨doc', e, h1, h2, _⟩
              simp only [Option.some.injEq] at h1
              subst h1
              rw [hj] at h2; simp at h2
            · have hr : IsAuthRequest req.webAuthn.request r := ⟨doc, hb, hj⟩
              have hruniq : ∀ r', IsAuthRequest req.webAuthn.request r' → r' = r := by
                rintro r' ⟨doc', h1, h2⟩
                rw [hb, Option.some.injEq] at h1
                subst h1
                rw [hj, Res.ok.injEq] at h2
                exact h2.symm
              cases hv : User.verifyTokens req.webAuthn r.id u.mfaTokens with
              | panic => exact absurd hv (verifyTokens_ne_panic _ _ _)
              | ok x =>
                dsimp only
                exact .nor (fun hc => hc ⟨u, hu, hd, r, hr, (verifyTokens_iff hr _).1 hv⟩) decides_done
              | err e =>
                have := verifyTokens_err hv
                subst this
                refine .yesr ?_
                rintro ⟨v, hv', hdv, r', hr', hx⟩
                have e1 := huniq v hv' hdv
                have e2 := hruniq r' hr'
                subst e1 e2
                have := (verifyTokens_iff hr _).2 hx
                rw [hv] at this; simp at this

theorem lookupAPIKey_decides {db : Database} (h : Inv db) (nd : Nondet) (fs : FS) (req : Request) :
    Decides (Checks.lookupAPIKey db req) (db.lookupAPIKey fs req).out := by
  have hspec := (lookup_spec h nd fs req).1
  have hout : (exec .lookupAPIKey nd db fs req).out = (db.lookupAPIKey fs req).out := rfl
  unfold Result.Succeeded at hspec
  rw [hout] at hspec
  unfold Checks.lookupAPIKey
  by_cases h1 : req.key.payload = []
  · unfold Database.lookupAPIKey
    rw [if_pos h1]
    exact .yesr h1
  refine .nor h1 ?_
  by_cases h2 : req.key.payload.length < 72
  · unfold Database.lookupAPIKey
    rw [if_neg h1, if_pos h2]
    exact .yesr h2
  refine .nor h2 ?_
  by_cases h3 : ∃ u ∈ db.users, ∃ k ∈ u.apiKeys, k.pfx = req.key.payload.take 24 ∧
      bcryptMatch k.payload req.key.payload = true
  · obtain ⟨u, hu, k, hk, hp, hm⟩ := h3
    rw [hspec.2 ⟨by omega, u, k, ⟨hu, hk⟩, hp, hm⟩]
    exact .nor (fun hc => hc ⟨u, hu, k, hk, hp, hm⟩) decides_done
  · have hns : (db.lookupAPIKey fs req).out ≠ .success := by
      intro hc
      obtain ⟨_, u, k, ⟨hu, hk⟩, hp, hm⟩ := hspec.1 hc
      exact h3 ⟨u, hu, k, hk, hp, hm⟩
    have herr : ∀ ks, ∀ e, User.lookupAPIKey (req.key.payload.take 24) req.key.payload ks = some e → e = .std .lookupAPIKeyFailed := by
      intro ks
      induction ks with
      | nil => intro e he; simpa [User.lookupAPIKey] using he.symm
      | cons k ks ih =>
        intro e he
        unfold User.lookupAPIKey at he
        split at he
        · split at he
          · simp at he
          · simpa using he.symm
        · exact ih e he
    have : (db.lookupAPIKey fs req).out = .fail (.std .lookupAPIKeyFailed) := by
      revert hns
      unfold Database.lookupAPIKey
      rw [if_neg h1, if_neg h2]
      dsimp only
      split
      · intro _; rfl
      · split
        · rename_i e he
          intro _
          rw [herr _ _ he]; rfl
        · intro hc; exact absurd rfl hc
    rw [this]
    exact .yesr h3

end GoIdentity
