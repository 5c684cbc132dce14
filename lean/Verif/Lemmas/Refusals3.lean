import Verif.Lemmas.Refusals2
/-!
# The tables of checks: keys, passwords and tokens
-/
set_option linter.unusedSectionVars false
namespace GoIdentity
variable [Ext]

/-- A part of a call ends as its table of checks says, or passes all of them. -/
def Phase {α : Type} (w : GoErr → GoErr) (g : α → Prop) (rs : List Row) : Res α → Prop
  | .err e => Decides rs (.fail (w e))
  | .panic => Decides rs .panic
  | .ok a => g a ∧ Passes rs

theorem Phase.step {α : Type} {w : GoErr → GoErr} {g : α → Prop} {rs : List Row} {x : Res α} {r : Row} (h : ∀ o, ¬ r o)
    (t : Phase w g rs x) : Phase w g (r :: rs) x := by
  cases x with
  | err e => exact Decides.later h t
  | panic => exact Decides.later h t
  | ok a => exact ⟨t.1, .cons h t.2⟩

theorem Phase.nor {α : Type} {w : GoErr → GoErr} {g : α → Prop} {rs : List Row} {x : Res α} {c : Prop} {e : GoErr} (h : ¬ c)
    (t : Phase w g rs x) : Phase w g (refuse c e :: rs) x := t.step fun _ hx => h hx.1

theorem Phase.no {α : Type} {w : GoErr → GoErr} {g : α → Prop} {rs : List Row} {x : Res α} {c : Prop} {o : Outcome} (h : ¬ c)
    (t : Phase w g rs x) : Phase w g (endsIf c o :: rs) x := t.step fun _ hx => h hx.1

theorem Phase.skip {α : Type} {w : GoErr → GoErr} {g : α → Prop} {rs rs' : List Row} {x : Res α} (h : Passes rs')
    (t : Phase w g rs x) : Phase w g (rs' ++ rs) x := by
  cases x with
  | err e => exact h.then t
  | panic => exact h.then t
  | ok a => exact ⟨t.1, h.append t.2⟩

theorem Phase.pad {α : Type} {w : GoErr → GoErr} {g : α → Prop} {rs rs' : List Row} {x : Res α} (h : Passes rs')
    (t : Phase w g rs x) : Phase w g (rs ++ rs') x := by
  cases x with
  | err e => exact Decides.left t
  | panic => exact Decides.left t
  | ok a => exact ⟨t.1, t.2.append h⟩

theorem deletePublicKey_decides {db : Database} (h : Inv db) (nd : Nondet) (fs : FS) (req : Request) :
    Decides (Checks.deletePublicKey nd db fs req) (db.deletePublicKey nd fs req).out := by
  unfold Checks.deletePublicKey Database.deletePublicKey
  rw [List.append_assoc, List.append_assoc]
  rcases identity_spec h req (.withE .deletePublicKey [req.key.id]) with ⟨e, h1, h2⟩ | ⟨i, u, h1, ha, h2⟩
  · rw [h1]; exact h2.left
  · rw [h1]
    refine h2.then ?_
    dsimp only
    unfold User.deletePublicKey
    by_cases hk : ∃ k ∈ u.publicKeys, k.id = req.key.id
    · have : u.publicKeys.any (fun x => x.id == req.key.id) = true := by simpa using hk
      rw [if_pos this]
      refine .nor (fun hc => hc ⟨u, ha, hk⟩) ?_
      refine finish_ends ?_ req _
      rfl
    · have : ¬ u.publicKeys.any (fun x => x.id == req.key.id) = true := by simpa using hk
      rw [if_neg this]
      refine .yesr ?_
      rintro ⟨v, hv, hx⟩
      exact hk (addressed_unique h ha hv ▸ hx)

theorem deleteMfaToken_decides {db : Database} (h : Inv db) (nd : Nondet) (fs : FS) (req : Request) :
    Decides (Checks.deleteMfaToken nd db fs req) (db.deleteMfaToken nd fs req).out := by
  unfold Checks.deleteMfaToken Database.deleteMfaToken
  rw [List.append_assoc, List.append_assoc]
  rcases identity_spec h req (.withE .deleteMfaToken [req.mfaToken.id]) with ⟨e, h1, h2⟩ | ⟨i, u, h1, ha, h2⟩
  · rw [h1]; exact h2.left
  · rw [h1]
    refine h2.then ?_
    dsimp only
    unfold User.deleteMfaToken
    by_cases hk : ∃ k ∈ u.mfaTokens, k.id = req.mfaToken.id
    · have : u.mfaTokens.any (fun x => x.id == req.mfaToken.id) = true := by simpa using hk
      rw [if_pos this]
      refine .nor (fun hc => hc ⟨u, ha, hk⟩) ?_
      refine finish_ends ?_ req _
      rfl
    · have : ¬ u.mfaTokens.any (fun x => x.id == req.mfaToken.id) = true := by simpa using hk
      rw [if_neg this]
      refine .yesr ?_
      rintro ⟨v, hv, hx⟩
      exact hk (addressed_unique h ha hv ▸ hx)

theorem deleteAPIKey_decides {db : Database} (h : Inv db) (nd : Nondet) (fs : FS) (req : Request) :
    Decides (Checks.deleteAPIKey nd db fs req) (db.deleteAPIKey nd fs req).out := by
  unfold Checks.deleteAPIKey Database.deleteAPIKey
  rw [List.append_assoc, List.append_assoc]
  rcases identity_spec h req (.withE .deleteAPIKey [req.key.id]) with ⟨e, h1, h2⟩ | ⟨i, u, h1, ha, h2⟩
  · rw [h1]; exact h2.left
  · rw [h1]
    refine h2.then ?_
    dsimp only
    by_cases hk : ∃ k ∈ u.apiKeys, k.id = req.key.id
    · obtain ⟨u', key, hu⟩ := deleteAPIKey_of (now := nd.now) hk
      have hus : key.usage = req.key.usage := by
        unfold User.deleteAPIKey at hu
        split at hu
        · simp at hu
        · simp only [Res.ok.injEq, Prod.mk.injEq] at hu
          rw [← hu.2]
      rw [hu]
      dsimp only
      rw [hus]
      refine .nor (fun hc => hc ⟨u, ha, hk⟩) ?_
      refine finish_ends ?_ _ _
      rfl
    · have : ¬ u.apiKeys.any (fun x => x.id == req.key.id) = true := by simpa using hk
      have hu : u.deleteAPIKey nd.now req.key = .err (.withV .deleteAPIKey [req.key.id, gs! "not found"] []) := by
        unfold User.deleteAPIKey
        rw [User.deleteAPIKeyLoop_eq]
        simp [this]
      rw [hu]
      refine .yesr ?_
      rintro ⟨v, hv, hx⟩
      exact hk (addressed_unique h ha hv ▸ hx)

theorem changeUserPassword_decides {db : Database} (h : Inv db) (nd : Nondet) (fs : FS) (req : Request) :
    Decides (Checks.changeUserPassword nd db fs req) (db.changeUserPassword nd fs req).out := by
  unfold Checks.changeUserPassword Database.changeUserPassword
  dsimp only
  simp only [List.append_assoc]
  rcases identity_spec h req (.withE .changeUserPassword []) with ⟨e, h1, h2⟩ | ⟨i, u, h1, ha, h2⟩
  · rw [h1]; exact h2.left
  · rw [h1]
    refine h2.then ?_
    dsimp only
    have hall : ∀ P : User → Prop, (∃ u, Addressed db req u ∧ P u) → P u := by
      rintro P ⟨v, hv, hp⟩
      exact addressed_unique h ha hv ▸ hp
    by_cases hp : PasswordAllowed db.policy req.user.password
    · rw [checkPasswordPolicy_iff.2 hp]
      refine .nor (fun hc => hc hp) ?_
      dsimp only
      unfold User.changePassword
      rcases verifyPassword_spec req.user.oldPassword u with ⟨p1, p2⟩ | ⟨p1, p2, p3⟩ | ⟨p1, p2, p3⟩
      · rw [p2]; exact .yesr ⟨u, ha, p1⟩
      · rw [p3]
        exact .nor (fun hc => p1 (hall _ hc)) (.yesr fun hc => p2 (hall _ hc))
      · rw [p3]
        refine .nor (fun hc => p1 (hall _ hc)) (.nor (fun hc => hc ⟨u, ha, p2⟩) ?_)
        dsimp only [List.append]
        unfold User.addPassword
        rcases hashing_spec nd nd.now req.user.password (.withE .changeUserPassword []) with ⟨e, q1, q2⟩ | ⟨⟨p, q1⟩, q2⟩
        · rw [q1]; exact q2.left
        · rw [q1]
          refine q2.then ?_
          dsimp only
          refine finish_ends ?_ req _
          rfl
    · have : checkPasswordPolicy db.policy req.user.password = some (.std .passwordPolicyCompliance) := by
        unfold checkPasswordPolicy
        rw [if_pos]
        unfold PasswordAllowed at hp
        omega
      rw [this]
      exact .yesr hp

/-! ## Public keys -/

theorem readKey_spec (now : Clock) (id : GoString) (k : ReqKey) (w : GoErr → GoErr) :
    Phase w (fun _ => True) (Checks.readKey k w) (newPublicKey now id k) := by
  have key : ∀ p0 : PublicKey, p0.usage = k.usage → p0.payload = k.payload →
      Phase w (fun _ => True) (Checks.readKey k w) (parsePublicKey p0) := by
    intro p0 hu hp
    unfold parsePublicKey Checks.readKey
    dsimp only
    rw [hu, hp]
    by_cases h1 : k.usage = gs! "ssh" ∨ k.usage = gs! "gpg"
    case neg =>
      rw [if_pos h1]
      exact Decides.yesr ⟨fun hc => h1 (.inl hc), fun hc => h1 (.inr hc)⟩
    rw [if_neg (fun hc => hc h1)]
    refine .nor (fun hc => h1.elim hc.1 hc.2) ?_
    by_cases h2 : k.payload = []
    · rw [if_pos h2]; exact Decides.yesr h2
    rw [if_neg h2]
    refine .nor h2 ?_
    by_cases h3 : Contains (gs! "RSA PUBLIC KEY") k.payload
    · rw [if_pos (containsSub_iff.2 h3)]
      unfold parsePublicKeyRSA
      rw [hu, hp]
      by_cases h4 : k.usage = gs! "ssh"
      case neg => rw [if_pos h4]; exact Decides.yesr ⟨h3, h4⟩
      rw [if_neg (fun hc => hc h4)]
      refine .nor (fun hc => hc.2 h4) ?_
      cases h5 : pemDecode (trimSpace k.payload) with
      | none => exact Decides.yesr ⟨h3, rfl⟩
      | some x =>
        obtain ⟨type, der⟩ := x
        refine .nor (by simp) ?_
        dsimp only
        by_cases h6 : type = gs! "RSA PUBLIC KEY"
        case neg => rw [if_pos h6]; exact Decides.here ⟨h3, type, der, rfl, h6, rfl⟩
        rw [if_neg (fun hc => hc h6)]
        refine .step ?_ ?_
        · rintro o ⟨_, type', der', he, hne, _⟩
          cases he
          exact hne h6
        cases h7 : pkixToSsh der with
        | none => exact Decides.yesr ⟨h3, type, der, rfl, h7⟩
        | some y =>
          refine .nor (by rintro ⟨_, t', d', he, hx⟩; cases he; rw [h7] at hx; simp at hx) ?_
          cases y with
          | none => exact Decides.yesr ⟨h3, type, der, rfl, h7⟩
          | some key =>
            refine .nor (by rintro ⟨_, t', d', he, hx⟩; cases he; rw [h7] at hx; simp at hx) ?_
            refine .nor (fun hc => hc.1.1 h3) (.nor (fun hc => hc.1.1 h3) (.step (fun _ hc => hc.1.1 h3)
              (.nor (fun hc => hc.1.1 h3) (.nor (fun hc => hc.1.1 h3) (.nor (fun hc => hc.1.1 h3)
              (.step (fun _ hc => hc.1.1 h3) (.nor (fun hc => hc.1.1 h3) (.nor (fun hc => hc.1.1 h3)
              (.step (fun _ hc => hc.1.1 h3) (.nor (fun hc => hc.1 h3) ⟨trivial, .nil⟩))))))))))
    rw [if_neg (fun hc => h3 (containsSub_iff.1 hc))]
    refine .nor (fun hc => h3 hc.1) (.nor (fun hc => h3 hc.1) (.step (fun _ hc => h3 hc.1)
      (.nor (fun hc => h3 hc.1) (.nor (fun hc => h3 hc.1) ?_))))
    by_cases h4 : gs! "ssh-rsa " <+: k.payload
    · rw [if_pos (hasPrefix_iff.2 h4), parsePublicKeyOpenSSH_eq, hp]
      obtain ⟨f, c, hs⟩ := splitOpenSSH_third h4
      have hfc := (lineFields_iff h4).2 hs
      have hf : ∀ {f' c'}, LineFields k.payload f' c' → f' = f := by
        intro f' c' h
        have := (lineFields_iff h4).1 h
        rw [hs] at this
        simp only [Prod.mk.injEq] at this
        exact this.1.symm
      rw [hs]
      dsimp only
      cases h5 : b64Decode f with
      | none => exact Decides.yesr ⟨⟨h3, h4⟩, f, c, hfc, h5⟩
      | some raw =>
        refine .nor (by rintro ⟨_, f', c', h, hx⟩; rw [hf h, h5] at hx; simp at hx) ?_
        dsimp only
        cases h6 : sshParse raw with
        | none => exact Decides.yesr ⟨⟨h3, h4⟩, f, c, raw, hfc, h5, h6⟩
        | some key =>
          refine .nor (by rintro ⟨_, f', c', raw', h, hx, hy⟩; rw [hf h, h5] at hx; cases hx; rw [h6] at hy; simp at hy) ?_
          cases key with
          | other t r =>
            refine Decides.here ⟨⟨h3, h4⟩, f, c, raw, _, hfc, h5, h6, ?_, rfl⟩
            rcases sshParse_type h6 with h | h
            · obtain ⟨e, n, h⟩ := h.2; cases h
            · exact h.2
          | rsa e n =>
            refine .step ?_ ?_
            · rintro o ⟨_, f', c', raw', key', h, hx, hy, hz, _⟩
              rw [hf h, h5] at hx; cases hx; rw [h6] at hy; cases hy
              exact hz rfl
            exact .nor (fun hc => hc.1.2.1 h4) (.nor (fun hc => hc.1.2.1 h4)
              (.nor (fun hc => hc.1.2.1 h4) (.step (fun _ hc => hc.1.2.1 h4) (.nor (fun hc => hc.1.2.1 h4)
              (.nor (fun hc => hc.1.2.1 h4) (.step (fun _ hc => hc.1.2.1 h4)
              (.nor (fun hc => hc.2.1 ⟨h3, h4⟩) ⟨trivial, .nil⟩)))))))
    rw [if_neg (fun hc => h4 (hasPrefix_iff.1 hc))]
    refine .nor (fun hc => h4 hc.1.2) (.nor (fun hc => h4 hc.1.2) (.step (fun _ hc => h4 hc.1.2) ?_))
    by_cases h5 : Contains (gs! "BEGIN PGP PUBLIC KEY BLOCK") k.payload
    case neg =>
      rw [if_neg (fun hc => h5 (containsSub_iff.1 hc))]
      exact Decides.nor (fun hc => h5 hc.1.2.2) (.nor (fun hc => h5 hc.1.2.2) (.nor (fun hc => h5 hc.1.2.2)
        (.later (fun _ hc => h5 hc.1.2.2) (.nor (fun hc => h5 hc.1.2.2) (.nor (fun hc => h5 hc.1.2.2)
        (.later (fun _ hc => h5 hc.1.2.2) (.yesr ⟨h3, fun hc => h4 hc.2, fun hc => h5 hc.2.2⟩)))))))
    rw [if_pos (containsSub_iff.2 h5)]
    have harm : ¬ Contains (gs! "RSA PUBLIC KEY") k.payload ∧ ¬ gs! "ssh-rsa " <+: k.payload ∧
        Contains (gs! "BEGIN PGP PUBLIC KEY BLOCK") k.payload := ⟨h3, h4, h5⟩
    unfold parsePublicKeyPGP
    dsimp only
    rw [hp]
    by_cases h6 : gs! "-----BEGIN PGP PUBLIC KEY BLOCK-----" <+: trimSpace k.payload
    case neg =>
      rw [if_pos (by rw [Bool.not_eq_true', ← Bool.not_eq_true]; exact fun hc => h6 (hasPrefix_iff.1 hc))]
      exact Decides.yesr ⟨harm, h6⟩
    rw [if_neg (by rw [hasPrefix_iff.2 h6]; simp)]
    refine .nor (fun hc => hc.2 h6) ?_
    by_cases h7 : gs! "-----END PGP PUBLIC KEY BLOCK-----" <:+ trimSpace k.payload
    case neg =>
      rw [if_pos (by rw [Bool.not_eq_true', ← Bool.not_eq_true]; exact fun hc => h7 (hasSuffix_iff.1 hc))]
      exact Decides.yesr ⟨harm, h7⟩
    rw [if_neg (by rw [hasSuffix_iff.2 h7]; simp)]
    refine .nor (fun hc => hc.2 h7) ?_
    cases h8 : Ext.pgpRead (trimSpace k.payload) with
    | none => exact Decides.yesr ⟨harm, rfl⟩
    | some es =>
      refine .nor (by simp) ?_
      match es with
      | [] => exact Decides.here ⟨harm, [], rfl, by simp, rfl⟩
      | a :: b :: t => exact Decides.here ⟨harm, _, rfl, by simp, rfl⟩
      | [e] =>
        dsimp only
        refine .step (by rintro o ⟨_, es, he, hl, _⟩; cases he; simp at hl) ?_
        cases h9 : e.hasPrimaryKey with
        | false => exact Decides.yesr ⟨harm, e, rfl, h9⟩
        | true =>
          refine .nor (by rintro ⟨_, e', he, hx⟩; cases he; rw [h9] at hx; simp at hx) ?_
          simp only [Bool.not_true, Bool.false_eq_true, if_false]
          cases h10 : e.identities with
          | nil => exact Decides.yesr ⟨harm, e, rfl, h10⟩
          | cons user us =>
            refine .nor (by rintro ⟨_, e', he, hx⟩; cases he; rw [h10] at hx; simp at hx) ?_
            dsimp only
            cases h11 : pgpAlgo e.pubKeyAlgo with
            | none =>
              refine Decides.here ⟨harm, e, rfl, ?_, rfl⟩
              unfold pgpAlgo at h11
              intro hc
              simp only [List.mem_cons, List.not_mem_nil, or_false] at hc
              rcases hc with hc | hc | hc | hc | hc | hc <;> rw [hc] at h11 <;> simp at h11
            | some at' =>
              obtain ⟨algo, type⟩ := at'
              dsimp only
              refine .step ?_ ?_
              · rintro o ⟨_, e', he, hx, _⟩
                cases he
                have := pgpAlgo_iff.1 h11
                simp only [List.mem_cons, Prod.mk.injEq, List.not_mem_nil, or_false] at this hx
                apply hx
                rcases this with h | h | h | h | h | h <;> simp [h.1]
              · exact .nor (fun hc => hc.2.2 harm) ⟨trivial, .nil⟩
  have h := key { freshKey now id k with disabled := false, disabledAt := .zero } rfl rfl
  unfold freshKey at h
  unfold newPublicKey
  split
  · rename_i p hp; rw [hp] at h; exact h
  · rename_i p hp; rw [hp] at h; exact h
  · rename_i hp; rw [hp] at h; exact h

end GoIdentity
