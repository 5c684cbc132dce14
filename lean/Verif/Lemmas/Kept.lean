import Verif.Lemmas.Exec
import Verif.Spec.Journal
/-!
# Which errors say that a file could not be written
-/
set_option linter.unusedSectionVars false
namespace GoIdentity
variable [Ext]

/-- The result is not an error that wraps `ErrDatabaseCommit`. -/
def Res.Clean {α : Type} (r : Res α) : Prop := ∀ e, r = .err e → ¬ e.wraps .databaseCommit

theorem Res.clean_ok {α : Type} (a : α) : (Res.ok a).Clean := by intro e h; simp at h
theorem Res.clean_panic {α : Type} : (Res.panic : Res α).Clean := by intro e h; simp at h
theorem Res.clean_err {α : Type} {e : GoErr} (h : ¬ e.wraps .databaseCommit) : (Res.err e : Res α).Clean := by
  intro e' h'; simp at h'; rw [← h']; exact h

theorem Res.Clean.err {α : Type} {r : Res α} {e : GoErr} (h : r.Clean) (he : r = .err e) : ¬ e.wraps .databaseCommit := h e he

theorem checkPolicy_clean {p : Policy} {a b : GoString} {e : GoErr} (h : checkPolicy p a b = some e) :
    ¬ e.wraps .databaseCommit := by
  unfold checkPolicy at h
  split at h
  · rename_i e' h'
    cases h
    unfold checkUserPolicy at h'
    split at h' <;> simp at h'
    rw [← h']; simp [GoErr.wraps]
  · unfold checkPasswordPolicy at h
    split at h <;> simp at h
    rw [← h]; simp [GoErr.wraps]

theorem checkPasswordPolicy_clean {p : Policy} {a : GoString} {e : GoErr} (h : checkPasswordPolicy p a = some e) :
    ¬ e.wraps .databaseCommit := by
  unfold checkPasswordPolicy at h
  split at h <;> simp at h
  rw [← h]; simp [GoErr.wraps]

theorem newPassword_clean (now : Clock) (salt : Option GoString) (s : GoString) : (newPassword now salt s).Clean := by
  intro e h
  unfold newPassword newPasswordWithOptions at h
  dsimp only at h
  split at h
  · simp at h; rw [← h]; simp [GoErr.wraps]
  · rw [if_pos rfl] at h
    split at h
    · simp at h
    · rename_i e' h'
      simp at h
      rw [← h]
      unfold bcryptGenerate at h'
      repeat' split at h'
      all_goals first | (simp at h'; done) | (simp at h'; rw [← h']; simp [GoErr.wraps])
    · simp at h

theorem newEmailAddress_clean (s : GoString) : (newEmailAddress s).Clean := by
  intro e h
  unfold newEmailAddress at h
  repeat' split at h
  all_goals first | (simp at h; done) | (simp at h; rw [← h]; simp [GoErr.wraps])

theorem newRole_clean (s : GoString) : (newRole s).Clean := by
  intro e h
  unfold newRole at h
  dsimp only at h
  repeat' split at h
  all_goals first | (simp at h; done) | (simp at h; rw [← h]; simp [GoErr.wraps])

theorem parseName_clean (s : GoString) : (parseName s).Clean := by
  intro e h
  unfold parseName at h
  dsimp only at h
  repeat' split at h
  all_goals first | (simp at h; done) | (simp at h; rw [← h]; simp [GoErr.wraps])

theorem addRoles_clean (roles : List GoString) (now : Clock) (u : User) : (User.addRoles now roles u).Clean := by
  induction roles generalizing now u with
  | nil => exact Res.clean_ok _
  | cons s ss ih =>
    intro e h
    unfold User.addRoles at h
    split at h
    · rename_i e' h'
      simp at h
      rw [← h]
      unfold User.addRole at h'
      split at h'
      · rename_i e2 h2
        simp at h'
        rw [← h']
        exact newRole_clean _ _ h2
      · simp at h'
      · split at h'
        · simp at h'
        · split at h' <;> simp at h'
    · simp at h
    · exact ih _ _ _ h

theorem newWithRoles_clean (nd : Nondet) (un pw em fn : GoString) (roles : List GoString) :
    (User.newWithRoles nd un pw em fn roles).Clean := by
  intro e h
  unfold User.newWithRoles at h
  split at h
  · rename_i e' h'
    simp at h
    rw [← h]
    unfold User.addPassword at h'
    split at h'
    · rename_i e2 h2
      simp at h'
      rw [← h']
      exact newPassword_clean _ _ _ _ h2
    · simp at h'
    · simp at h'
  · simp at h
  · split at h
    · rename_i e' h'
      simp at h
      rw [← h]
      unfold User.addEmailAddress at h'
      split at h'
      · rename_i e2 h2
        simp at h'
        rw [← h']
        exact newEmailAddress_clean _ _ h2
      · simp at h'
      · split at h'
        · simp at h'
        · split at h' <;> simp at h'
    · simp at h
    · split at h
      · rename_i e' h'
        simp at h
        rw [← h]
        exact addRoles_clean _ _ _ _ h'
      · simp at h
      · split at h
        · rename_i e' h'
          simp at h
          rw [← h]
          unfold User.addFullName at h'
          dsimp only at h'
          split at h'
          · simp at h'
          · split at h'
            · rename_i e2 h2
              simp at h'
              rw [← h']
              exact parseName_clean _ _ h2
            · simp at h'
            · simp at h'
        · simp at h
        · split at h
          · rename_i e' h'
            simp at h
            rw [← h]
            unfold User.valid at h'
            repeat' split at h'
            all_goals first | (simp at h'; done) | (simp at h'; rw [← h']; simp [GoErr.wraps])
          · simp at h
          · simp at h

theorem validate_clean {db : Database} {a b : GoString} {e : GoErr} (h : db.validateUserIdentity a b = .error e) :
    ¬ e.wraps .databaseCommit := by
  unfold Database.validateUserIdentity at h
  repeat' split at h
  all_goals first | (simp at h; done) | (simp at h; rw [← h]; simp [GoErr.wraps])

theorem checkEmails_clean {db : Database} {es : List EmailAddress} {e : GoErr} (h : db.checkEmails es = .error e) :
    ¬ e.wraps .databaseCommit := by
  induction es with
  | nil => simp [Database.checkEmails] at h
  | cons x es ih =>
    unfold Database.checkEmails at h
    dsimp only at h
    split at h
    · simp at h; rw [← h]; simp [GoErr.wraps]
    · split at h
      · rename_i e' h'
        simp at h
        exact ih (by rw [h', h])
      · simp at h

theorem keyLoop_clean {nd : Nondet} {db : Database} {s : GoString} {fuel a f : Nat} {e : GoErr}
    (h : db.keyLoop nd s fuel a f = .fail e) : ¬ e.wraps .databaseCommit := by
  induction fuel generalizing a f with
  | zero => simp [Database.keyLoop] at h
  | succ n ih =>
    unfold Database.keyLoop at h
    split at h
    · rename_i e' h'
      split at h
      · simp at h; rw [← h]; exact newPassword_clean _ _ _ _ h'
      · exact ih h
    · simp at h
    · split at h
      · exact ih h
      · simp at h

theorem parsePublicKey_clean (p : PublicKey) : (parsePublicKey p).Clean := by
  intro e h
  unfold parsePublicKey at h
  split at h
  · simp at h; rw [← h]; simp [GoErr.wraps]
  split at h
  · simp at h; rw [← h]; simp [GoErr.wraps]
  split at h
  · unfold parsePublicKeyRSA at h
    repeat' split at h
    all_goals first | (simp at h; done) | (simp at h; rw [← h]; simp [GoErr.wraps])
  split at h
  · unfold parsePublicKeyOpenSSH at h
    dsimp only at h
    repeat' split at h
    all_goals first | (simp at h; done) | (simp at h; rw [← h]; simp [GoErr.wraps])
  split at h
  · unfold parsePublicKeyPGP at h
    dsimp only at h
    repeat' split at h
    all_goals first | (simp at h; done) | (simp at h; rw [← h]; simp [GoErr.wraps])
  · simp at h; rw [← h]; simp [GoErr.wraps]

/-! ## JSON -/

/-- The field's decoder reports no such error. -/
structure Field.Clean {σ : Type} (f : Field σ) : Prop where
  out : ∀ j s, (f.dec j s).Clean

theorem typeErr_clean {α : Type} : (typeErr : Res α).Clean := Res.clean_err (by simp [GoErr.wraps])

/-- Close a goal about a result that passes errors on. -/
local macro "passes" t:term : tactic =>
  `(tactic| (split; · exact Res.clean_ok _
             · rename_i e h; exact Res.clean_err ($t e h)
             · exact Res.clean_panic))

theorem fStr_clean {σ : Type} (n : GoString) (g : σ → GoString) (st : σ → GoString → σ) : (fStr n g st).Clean := by
  refine ⟨fun j s => ?_⟩
  simp only [fStr]
  split <;> first | exact Res.clean_ok _ | exact typeErr_clean

theorem fBool_clean {σ : Type} (n : GoString) (g : σ → Bool) (st : σ → Bool → σ) : (fBool n g st).Clean := by
  refine ⟨fun j s => ?_⟩
  simp only [fBool]
  split <;> first | exact Res.clean_ok _ | exact typeErr_clean

theorem fInt_clean {σ : Type} (n : GoString) (g : σ → Int) (st : σ → Int → σ) : (fInt n g st).Clean := by
  refine ⟨fun j s => ?_⟩
  simp only [fInt, decInt]
  repeat' split
  all_goals first | exact Res.clean_ok _ | exact typeErr_clean

theorem fUint_clean {σ : Type} (b : Nat) (n : GoString) (g : σ → Nat) (st : σ → Nat → σ) : (fUint b n g st).Clean := by
  refine ⟨fun j s => ?_⟩
  simp only [fUint, decUint]
  repeat' split
  all_goals first | exact Res.clean_ok _ | exact typeErr_clean

theorem decStrs_clean (js : List Json) : (decStrs js).Clean := by
  induction js with
  | nil => exact Res.clean_ok _
  | cons j js ih =>
    cases j <;> simp only [decStrs] <;> first | exact typeErr_clean | passes ih

theorem fStrs_clean {σ : Type} (n : GoString) (g : σ → List GoString) (st : σ → List GoString → σ) : (fStrs n g st).Clean := by
  refine ⟨fun j s => ?_⟩
  simp only [fStrs]
  split
  · exact Res.clean_ok _
  · passes (decStrs_clean _)
  · exact typeErr_clean

theorem elemAny_clean (j : Json) : (elemAny j).Clean := by
  unfold elemAny
  split
  · exact Res.clean_ok _
  · exact typeErr_clean

theorem elemBool_clean (j : Json) : (elemBool j).Clean := by
  cases j <;> simp only [elemBool] <;> first | exact typeErr_clean | exact Res.clean_ok _

theorem fAny_clean {σ : Type} (n : GoString) (g : σ → Json) (st : σ → Json → σ) : (fAny n g st).Clean := by
  refine ⟨fun j s => ?_⟩
  simp only [fAny]
  passes (elemAny_clean j)

theorem decMap_clean {α : Type} {elem : Json → Res α} (he : ∀ j, (elem j).Clean) (m : List (GoString × Json))
    (acc : List (GoString × α)) : (decMap elem m acc).Clean := by
  induction m generalizing acc with
  | nil => exact Res.clean_ok _
  | cons kv m ih =>
    obtain ⟨k, v⟩ := kv
    unfold decMap
    split
    · exact ih _
    · rename_i e h; exact Res.clean_err (he v e h)
    · exact Res.clean_panic

theorem fOptMap_clean {σ α : Type} (n : GoString) (enc : α → Json) {elem : Json → Res α} (he : ∀ j, (elem j).Clean)
    (g : σ → Option (List (GoString × α))) (st : σ → Option (List (GoString × α)) → σ) :
    (fOptMap n enc elem g st).Clean := by
  refine ⟨fun j s => ?_⟩
  simp only [fOptMap]
  split
  · exact Res.clean_ok _
  · passes (decMap_clean he _ _)
  · exact typeErr_clean

theorem decMembers_clean {σ : Type} {fs : List (Field σ)} (hf : ∀ f ∈ fs, f.Clean) (m : List (GoString × Json)) (s : σ) :
    (decMembers fs m s).Clean := by
  induction m generalizing s with
  | nil => exact Res.clean_ok _
  | cons kv m ih =>
    obtain ⟨k, v⟩ := kv
    unfold decMembers
    split
    · exact ih _
    · rename_i f hfind
      have hmem : f ∈ fs := by
        unfold findField at hfind
        split at hfind
        · rename_i g hg; cases hfind; exact List.mem_of_find?_eq_some hg
        · exact List.mem_of_find?_eq_some hfind
      split
      · exact ih _
      · rename_i e h; exact Res.clean_err ((hf f hmem).out v s e h)
      · exact Res.clean_panic

theorem decStruct_clean {σ : Type} {fs : List (Field σ)} (hf : ∀ f ∈ fs, f.Clean) (j : Json) (s : σ) :
    (decStruct fs j s).Clean := by
  unfold decStruct
  split
  · exact Res.clean_ok _
  · exact decMembers_clean hf _ _
  · exact typeErr_clean

theorem fPtr_clean {σ τ : Type} (n : GoString) {fs : List (Field τ)} (hf : ∀ f ∈ fs, f.Clean) (zero : τ) (g : σ → Option τ)
    (st : σ → Option τ → σ) : (fPtr n fs zero g st).Clean := by
  refine ⟨fun j s => ?_⟩
  simp only [fPtr]
  split
  · exact Res.clean_ok _
  · passes (decStruct_clean hf _ _)

theorem register_clean : ∀ f ∈ registerRequestFields, f.Clean := by
  have h1 : ∀ f ∈ deviceFields, f.Clean := by
    intro f hf
    simp only [deviceFields, List.mem_cons, List.not_mem_nil, or_false] at hf
    rcases hf with rfl | rfl <;> exact fStr_clean ..
  have h2 : ∀ f ∈ clientDataFields, f.Clean := by
    intro f hf
    simp only [clientDataFields, List.mem_cons, List.not_mem_nil, or_false] at hf
    rcases hf with rfl | rfl | rfl | rfl <;> first | exact fStr_clean .. | exact fBool_clean ..
  have h3 : ∀ f ∈ credentialDataFields, f.Clean := by
    intro f hf
    simp only [credentialDataFields, List.mem_cons, List.not_mem_nil, or_false] at hf
    rcases hf with rfl | rfl | rfl <;> first | exact fStr_clean .. | exact fOptMap_clean _ _ elemAny_clean _ _
  have h4 : ∀ f ∈ authDataFields, f.Clean := by
    intro f hf
    simp only [authDataFields, List.mem_cons, List.not_mem_nil, or_false] at hf
    rcases hf with rfl | rfl | rfl | rfl | rfl
    · exact fStr_clean ..
    · exact fOptMap_clean _ _ elemBool_clean _ _
    · exact fUint_clean ..
    · exact fAny_clean ..
    · exact fPtr_clean _ h3 ..
  have h5 : ∀ f ∈ attestationStatementFields, f.Clean := by
    intro f hf
    simp only [attestationStatementFields, List.mem_cons, List.not_mem_nil, or_false] at hf
    rcases hf with rfl | rfl | rfl
    · exact fInt_clean ..
    · exact fStr_clean ..
    · exact fStrs_clean ..
  have h6 : ∀ f ∈ attestationObjectFields, f.Clean := by
    intro f hf
    simp only [attestationObjectFields, List.mem_cons, List.not_mem_nil, or_false] at hf
    rcases hf with rfl | rfl | rfl
    · exact fPtr_clean _ h5 ..
    · exact fPtr_clean _ h4 ..
    · exact fStr_clean ..
  intro f hf
  simp only [registerRequestFields, List.mem_cons, List.not_mem_nil, or_false] at hf
  rcases hf with rfl | rfl | rfl | rfl | rfl | rfl | rfl
  · exact fStr_clean ..
  · exact fStr_clean ..
  · exact fStrs_clean ..
  · exact fBool_clean ..
  · exact fPtr_clean _ h6 ..
  · exact fPtr_clean _ h2 ..
  · exact fPtr_clean _ h1 ..

/-! ## Tokens -/

theorem tryCodes_clean (a b : GoString) (d : Int) (c : GoString) (ts : List Nat) : (tryCodes a b d c ts).Clean := by
  induction ts with
  | nil => exact Res.clean_err (by simp [GoErr.wraps])
  | cons t ts ih =>
    unfold tryCodes
    repeat' split
    all_goals first | exact ih | exact Res.clean_ok _ | exact Res.clean_panic

theorem validateCodeWithTime_clean (p : MfaToken) (c : GoString) (t : Int) : (validateCodeWithTime p c t).Clean := by
  unfold validateCodeWithTime
  dsimp only
  repeat' split
  all_goals first | exact tryCodes_clean _ _ _ _ _ | exact Res.clean_err (by simp [GoErr.wraps])

theorem newTotp_clean (nd : Nondet) (p : MfaToken) (m : ReqMfaToken) : (newTotp nd p m).1.Clean := by
  unfold newTotp
  dsimp only
  generalize (if m.digits = 0 then 6 else m.digits) = d
  split
  · exact Res.clean_err (by simp [GoErr.wraps])
  · split
    · exact Res.clean_err (by simp [GoErr.wraps])
    · split
      · exact Res.clean_err (by simp [GoErr.wraps])
      · split
        · exact Res.clean_ok _
        · rename_i e h
          exact Res.clean_err (validateCodeWithTime_clean _ _ _ e h)
        · exact Res.clean_panic

theorem checkTransports_clean (ts : List GoString) : (checkTransports ts).Clean := by
  induction ts with
  | nil => exact Res.clean_ok _
  | cons t ts ih =>
    unfold checkTransports
    repeat' split
    all_goals first | exact ih | exact Res.clean_err (by simp [GoErr.wraps])

theorem numberIs_clean (v : Json) (n : Int) : (numberIs v n).Clean := by
  unfold numberIs
  split
  · exact Res.clean_ok _
  · exact Res.clean_panic

theorem optString_clean (v : Option Json) : (optString v).Clean := by
  unfold optString
  split
  · exact Res.clean_ok _
  · exact Res.clean_ok _
  · exact Res.clean_panic

theorem checkCoseKey_clean (pk : List (GoString × Json)) : (checkCoseKey pk).Clean := by
  unfold checkCoseKey
  dsimp only
  split
  · exact Res.clean_err (by simp [GoErr.wraps])
  split
  · exact Res.clean_panic
  · rename_i e h; exact Res.clean_err (numberIs_clean _ _ e h)
  · exact Res.clean_err (by simp [GoErr.wraps])
  split
  · exact Res.clean_err (by simp [GoErr.wraps])
  split
  · exact Res.clean_panic
  · rename_i e h; exact Res.clean_err (numberIs_clean _ _ e h)
  · exact Res.clean_err (by simp [GoErr.wraps])
  split
  · exact Res.clean_panic
  · rename_i e h
    refine Res.clean_err ?_
    split at h
    · simp at h
    · split at h
      · simp at h
      · rename_i e2 h2; simp at h; rw [← h]; exact numberIs_clean _ _ _ h2
      · simp at h; rw [← h]; simp [GoErr.wraps]
      · simp at h
  split
  · exact Res.clean_panic
  · rename_i e h; exact Res.clean_err (optString_clean _ e h)
  split
  · exact Res.clean_panic
  · rename_i e h; exact Res.clean_err (optString_clean _ e h)
  · exact Res.clean_ok _

theorem u2fFromRegister_clean (p : MfaToken) (r : RegisterRequest) : (u2fFromRegister p r).Clean := by
  unfold u2fFromRegister
  split
  · exact Res.clean_err (by simp [GoErr.wraps])
  split
  · exact Res.clean_err (by simp [GoErr.wraps])
  split
  · exact Res.clean_err (by simp [GoErr.wraps])
  split
  · rename_i e h; exact Res.clean_err (checkTransports_clean _ e h)
  · exact Res.clean_panic
  split
  · exact Res.clean_err (by simp [GoErr.wraps])
  split
  · exact Res.clean_err (by simp [GoErr.wraps])
  split
  · exact Res.clean_err (by simp [GoErr.wraps])
  split
  · exact Res.clean_err (by simp [GoErr.wraps])
  split
  · exact Res.clean_err (by simp [GoErr.wraps])
  split
  · exact Res.clean_err (by simp [GoErr.wraps])
  split
  · rename_i e h; exact Res.clean_err (checkCoseKey_clean _ e h)
  · exact Res.clean_panic
  · exact Res.clean_ok _

theorem newU2F_clean (p : MfaToken) (w : ReqWebAuthn) : (newU2F p w).Clean := by
  unfold newU2F
  split
  · exact Res.clean_err (by simp [GoErr.wraps])
  split
  · exact Res.clean_err (by simp [GoErr.wraps])
  split
  · exact Res.clean_err (by simp [GoErr.wraps])
  split
  · rename_i e h
    refine Res.clean_err ?_
    rintro (h' | h')
    · simp at h'
    · unfold unmarshal at h
      split at h
      · simp at h; rw [← h] at h'; simp [GoErr.wraps] at h'
      · exact decStruct_clean register_clean _ _ _ h h'
  · exact Res.clean_panic
  · exact u2fFromRegister_clean _ _

theorem newMfaToken_clean (nd : Nondet) (req : Request) : (newMfaToken nd req).1.Clean := by
  unfold newMfaToken
  dsimp only
  split
  · exact newTotp_clean _ _ _
  split
  · exact newU2F_clean _ _
  split
  · exact Res.clean_err (by simp [GoErr.wraps])
  · exact Res.clean_err (by simp [GoErr.wraps])

theorem addMfaToken_clean {nd : Nondet} {req req' : Request} {u : User} {e : GoErr}
    (h : u.addMfaToken nd req = (.err e, req')) : ¬ e.wraps .databaseCommit := by
  unfold User.addMfaToken at h
  split at h
  · rename_i e' r h'
    simp at h
    rw [← h.1]
    have := newMfaToken_clean nd req e' (by rw [h'])
    rintro (h2 | h2)
    · simp at h2
    · exact this h2
  · simp at h
  · split at h
    · rename_i t _ _ _ e' h'
      simp at h
      rw [← h.1]
      have : ∀ l, User.checkMfaDup t l = some e' → ¬ e'.wraps .databaseCommit := by
        intro l
        induction l with
        | nil => simp [User.checkMfaDup]
        | cons k ks ih =>
          unfold User.checkMfaDup
          split
          · intro h; simp at h; rw [← h]; simp [GoErr.wraps]
          · split
            · intro h; simp at h; rw [← h]; simp [GoErr.wraps]
            · exact ih
      exact this _ h'
    · simp at h

/-! ## Calls -/

theorem Mutation.kept {nd : Nondet} {req : Request} {db db' : Database} {c : Call} {fs : FS}
    (hc : Committed nd fs (c.target db) db' (exec c nd db fs req)) : (exec c nd db fs req).Kept := by
  cases hw : (writeFile fs (c.target db) (marshalDB (db'.touch nd.commitTime).toDBData) nd.io).2 with
  | none => exact .inl (hc.out_ok hw)
  | some e => exact .inr (hc.out_err e hw)

theorem not_kept_fail {db : Database} {fs : FS} {req : Request} {e : GoErr} (h : ¬ e.wraps .databaseCommit) :
    ¬ (db.failWith fs req e).Kept := by
  rintro (h' | ⟨e', h', h2⟩)
  · simp [Database.failWith] at h'
  · simp [Database.failWith] at h'; rw [← h'] at h2; exact h h2

theorem not_kept_panic {db : Database} {fs : FS} {req : Request} : ¬ (⟨db, fs, req, .panic⟩ : Result).Kept := by
  rintro (h' | ⟨e', h', h2⟩) <;> simp at *

theorem not_kept_hang {db : Database} {fs : FS} {req : Request} : ¬ (⟨db, fs, req, .hang⟩ : Result).Kept := by
  rintro (h' | ⟨e', h', h2⟩) <;> simp at *

theorem not_wraps_withE {k : StdErr} {a : List GoString} {e : GoErr} (hk : k ≠ .databaseCommit) (h : ¬ e.wraps .databaseCommit) :
    ¬ (GoErr.withE k a e).wraps .databaseCommit := by
  rintro (h' | h')
  · exact hk h'
  · exact h h'

/-- A mutating call that returns nil, or an error saying that the file could not be written, has changed the database. -/
theorem kept_mutation {c : Call} (hm : c.mutates = true) {nd : Nondet} {db : Database} {fs : FS} {req : Request}
    (h : (exec c nd db fs req).Kept) :
    ∃ db', Mutation nd req db c db' ∧ Committed nd fs (c.target db) db' (exec c nd db fs req) := by
  cases c <;> try (simp [Call.mutates] at hm; done)
  case save => exact ⟨db, .save, finish_committed nd db fs req id (fun _ h => h)⟩
  case copy fp => exact ⟨db, .copy fp, copy_committed nd fp db fs req⟩
  case addUser =>
    revert h
    simp only [exec, Database.addUser]
    split
    · rename_i e he
      exact fun h => absurd h (not_kept_fail (not_wraps_withE (by simp) (checkPolicy_clean he)))
    · rename_i hpol
      split
      · rename_i e he
        exact fun h => absurd h (not_kept_fail (not_wraps_withE (by simp) (newWithRoles_clean _ _ _ _ _ _ e he)))
      · exact fun h => absurd h not_kept_panic
      · rename_i user hnew
        split
        · exact fun h => absurd h (not_kept_fail (by simp [GoErr.wraps]))
        · rename_i hname
          split
          · rename_i e he
            exact fun h => absurd h (not_kept_fail (checkEmails_clean he))
          · rename_i emails hem
            exact fun _ => ⟨_, .addUser user emails hpol hnew hname hem,
              finish_committed nd (db.withUser { user with id := db.pickID nd.ids user.id } emails) fs req _ (fun _ h => .inr h)⟩
  case addPublicKey =>
    revert h
    simp only [exec, Database.addPublicKey]
    split
    · rename_i e he
      exact fun h => absurd h (not_kept_fail (not_wraps_withE (by simp) (validate_clean he)))
    · rename_i i u hv
      split
      · rename_i e he
        refine fun h => absurd h (not_kept_fail ?_)
        unfold User.addPublicKey at he
        split at he
        · rename_i e' h'
          simp at he
          rw [← he]
          refine not_wraps_withE (by simp) ?_
          unfold newPublicKey at h'
          split at h'
          · simp at h'
          · rename_i e2 h2; simp at h'; rw [← h']; exact parsePublicKey_clean _ _ h2
          · simp at h'
        · simp at he
        · split at he
          · simp at he; rw [← he]; simp [GoErr.wraps]
          · simp at he
      · exact fun h => absurd h not_kept_panic
      · rename_i u' h
        exact fun _ => ⟨_, .addPublicKey i u u' hv h, finish_committed nd (db.setUser i u') fs req _ (fun _ h => .inr h)⟩
  case deletePublicKey =>
    revert h
    simp only [exec, Database.deletePublicKey]
    split
    · rename_i e he
      exact fun h => absurd h (not_kept_fail (not_wraps_withE (by simp) (validate_clean he)))
    · rename_i i u hv
      split
      · rename_i e he
        refine fun h => absurd h (not_kept_fail ?_)
        unfold User.deletePublicKey at he
        split at he
        · simp at he
        · simp at he; rw [← he]; simp [GoErr.wraps]
      · exact fun h => absurd h not_kept_panic
      · rename_i u' h
        exact fun _ => ⟨_, .deletePublicKey i u u' hv h, finish_committed nd (db.setUser i u') fs req _ (fun _ h => .inr h)⟩
  case addAPIKey =>
    revert h
    simp only [exec, Database.addAPIKey]
    split
    · rename_i e he
      exact fun h => absurd h (not_kept_fail (not_wraps_withE (by simp) (validate_clean he)))
    · rename_i i u hv
      split
      · rename_i e he
        simp [getRandomStringFromRange] at he
      · exact fun h => absurd h not_kept_panic
      · rename_i s hs
        split
        · exact fun h => absurd h not_kept_hang
        · rename_i e he
          exact fun h => absurd h (not_kept_fail (keyLoop_clean he))
        · rename_i hash hl
          split
          · rename_i e he
            refine fun h => absurd h (not_kept_fail ?_)
            unfold User.addAPIKey at he
            split at he
            · rename_i e' h'
              simp at he
              rw [← he]
              refine not_wraps_withE (by simp) ?_
              unfold newAPIKey at h'
              repeat' split at h'
              all_goals first | (simp at h'; done) | (simp at h'; rw [← h']; simp [GoErr.wraps])
            · simp at he
            · simp at he
          · exact fun h => absurd h not_kept_panic
          · rename_i u' h
            exact fun _ => ⟨_, .addAPIKey i u u' s hash hv hs hl h,
              finish_committed nd { db.setUser i u' with refAPIKey := upd db.refAPIKey (s.take 24) (some i) } fs _ _ (fun _ h => .inr h)⟩
  case deleteAPIKey =>
    revert h
    simp only [exec, Database.deleteAPIKey]
    split
    · rename_i e he
      exact fun h => absurd h (not_kept_fail (not_wraps_withE (by simp) (validate_clean he)))
    · rename_i i u hv
      split
      · rename_i e he
        refine fun h => absurd h (not_kept_fail ?_)
        unfold User.deleteAPIKey at he
        split at he
        · simp at he; rw [← he]; simp [GoErr.wraps]
        · simp at he
      · exact fun h => absurd h not_kept_panic
      · rename_i u' key h
        exact fun _ => ⟨_, .deleteAPIKey i u u' key hv h,
          finish_committed nd { db.setUser i u' with refAPIKey := upd db.refAPIKey key.pfx none } fs _ _ (fun _ h => .inr h)⟩
  case changeUserPassword =>
    revert h
    simp only [exec, Database.changeUserPassword]
    split
    · rename_i e he
      exact fun h => absurd h (not_kept_fail (not_wraps_withE (by simp) (validate_clean he)))
    · rename_i i u hv
      split
      · rename_i e he
        exact fun h => absurd h (not_kept_fail (not_wraps_withE (by simp) (checkPasswordPolicy_clean he)))
      · rename_i hpol
        split
        · rename_i e he
          refine fun h => absurd h (not_kept_fail ?_)
          unfold User.changePassword at he
          split at he
          · rename_i e' h'
            simp at he
            rw [← he]
            refine not_wraps_withE (by simp) ?_
            unfold User.verifyPassword at h'
            repeat' split at h'
            all_goals first | (simp at h'; done) | (simp at h'; rw [← h']; simp [GoErr.wraps])
          · split at he
            · rename_i e' h'
              simp at he
              rw [← he]
              refine not_wraps_withE (by simp) ?_
              unfold User.addPassword at h'
              split at h'
              · rename_i e2 h2; simp at h'; rw [← h']; exact newPassword_clean _ _ _ _ h2
              · simp at h'
              · simp at h'
            · simp at he
            · simp at he
        · exact fun h => absurd h not_kept_panic
        · rename_i u' h
          exact fun _ => ⟨_, .changeUserPassword i u u' hv hpol h, finish_committed nd (db.setUser i u') fs req _ (fun _ h => .inr h)⟩
  case addMfaToken =>
    revert h
    simp only [exec, Database.addMfaToken]
    split
    · rename_i e he
      exact fun h => absurd h (not_kept_fail (not_wraps_withE (by simp) (validate_clean he)))
    · rename_i i u hv
      split
      · rename_i e r he
        exact fun h => absurd h (not_kept_fail (addMfaToken_clean he))
      · exact fun h => absurd h not_kept_panic
      · rename_i u' req' h
        exact fun _ => ⟨_, .addMfaToken i u u' req' hv h, finish_committed nd (db.setUser i u') fs req' _ (fun _ h => .inr h)⟩
  case deleteMfaToken =>
    revert h
    simp only [exec, Database.deleteMfaToken]
    split
    · rename_i e he
      exact fun h => absurd h (not_kept_fail (not_wraps_withE (by simp) (validate_clean he)))
    · rename_i i u hv
      split
      · rename_i e he
        refine fun h => absurd h (not_kept_fail ?_)
        unfold User.deleteMfaToken at he
        split at he
        · simp at he
        · simp at he; rw [← he]; simp [GoErr.wraps]
      · exact fun h => absurd h not_kept_panic
      · rename_i u' h
        exact fun _ => ⟨_, .deleteMfaToken i u u' hv h, finish_committed nd (db.setUser i u') fs req _ (fun _ h => .inr h)⟩

/-- A call either changes nothing, and then is no mutating call that was kept, or is a mutation that was kept. -/
theorem exec_kept (c : Call) (nd : Nondet) (db : Database) (fs : FS) (req : Request) :
    (NoEffect c db fs (exec c nd db fs req) ∧ ¬ (c.mutates = true ∧ (exec c nd db fs req).Kept)) ∨
      ((exec c nd db fs req).Kept ∧ c.mutates = true ∧
        ∃ db', Mutation nd req db c db' ∧ Committed nd fs (c.target db) db' (exec c nd db fs req)) := by
  by_cases hk : c.mutates = true ∧ (exec c nd db fs req).Kept
  · exact .inr ⟨hk.2, hk.1, kept_mutation hk.1 hk.2⟩
  · rcases exec_spec c nd db fs req with h | ⟨db', m, h⟩
    · exact .inl ⟨h, hk⟩
    · exact absurd ⟨by cases m <;> rfl, Mutation.kept h⟩ hk

end GoIdentity
