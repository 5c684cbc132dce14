import Verif.Spec.ErrorText
import Verif.Lemmas.Exec
import Verif.Lemmas.Split
import Verif.Lemmas.UserOps
import Verif.Lemmas.DecodeOk
import Verif.Lemmas.Pem
/-!
# Every error of a call formats well and quotes only permitted strings
-/
set_option linter.unusedSectionVars false
namespace GoIdentity

/-! ## Formatting -/

/-- Whether a format text takes arguments of these kinds (`true` for an integer). -/
def fits : GoString → List Bool → Bool
  | [], [] => true
  | [], _ :: _ => false
  | [b], [] => !(b == 37)
  | [_], _ :: _ => false
  | b :: v :: rest, args =>
    if b = 37 then
      match args with
      | [] => false
      | true :: args => (v == 118 || v == 100) && fits rest args
      | false :: args => (v == 118 || v == 115 || v == 113) && fits rest args
    else fits (v :: rest) args

def FmtArg.isInt : FmtArg → Bool
  | .str _ => false
  | .int _ => true

theorem sprintf_isSome (quote : GoString → GoString) : ∀ (f : GoString) (args : List FmtArg),
    fits f (args.map FmtArg.isInt) = true → ∃ t, sprintf quote f args = some t
  | [], [], _ => ⟨_, rfl⟩
  | [], _ :: _, h => by simp [fits] at h
  | [b], [], h => by
    simp [fits] at h
    exact ⟨[b], by simp [sprintf, h]⟩
  | [_], _ :: _, h => by simp [fits] at h
  | b :: v :: rest, args, h => by
    unfold fits at h
    unfold sprintf
    by_cases hb : b = 37
    · simp only [if_pos hb] at h ⊢
      cases args with
      | nil => simp at h
      | cons a args =>
        cases a with
        | str s =>
          simp only [List.map_cons, FmtArg.isInt, Bool.and_eq_true, Bool.or_eq_true, beq_iff_eq] at h
          obtain ⟨t, ht⟩ := sprintf_isSome quote rest args h.2
          obtain ⟨x, hx⟩ : ∃ x, fmtVerb quote v (.str s) = some x := by
            rcases h.1 with (h | h) | h <;> subst h <;> exact ⟨_, rfl⟩
          exact ⟨x ++ t, by simp [hx, ht]⟩
        | int i =>
          simp only [List.map_cons, FmtArg.isInt, Bool.and_eq_true, Bool.or_eq_true, beq_iff_eq] at h
          obtain ⟨t, ht⟩ := sprintf_isSome quote rest args h.2
          obtain ⟨x, hx⟩ : ∃ x, fmtVerb quote v (.int i) = some x := by
            rcases h.1 with h | h <;> subst h <;> exact ⟨_, rfl⟩
          exact ⟨x ++ t, by simp [hx, ht]⟩
    · simp only [if_neg hb] at h ⊢
      obtain ⟨t, ht⟩ := sprintf_isSome quote (v :: rest) args h
      exact ⟨b :: t, by simp [ht]⟩

theorem fits_no_percent : ∀ f : GoString, fits f [] = true → (37 : UInt8) ∉ f
  | [], _ => by simp
  | [b], h => by
    simp [fits] at h
    simpa using fun hb => h hb.symm
  | b :: v :: rest, h => by
    unfold fits at h
    by_cases hb : b = 37
    · simp [if_pos hb] at h
    · simp only [if_neg hb] at h
      have := fits_no_percent (v :: rest) h
      simp only [List.mem_cons, not_or] at this ⊢
      exact ⟨fun e => hb e.symm, this⟩

/-! ## Good errors -/

/-- The error formats, has no verbs in bare constants (but for one constant), and quotes only `S`. -/
def GoErr.Good (S : GoString → Prop) : GoErr → Prop
  | .std e => fits e.text [] = true ∨ e = .webAuthnVerifyRequest
  | .ext _ => True
  | .withV e ss is => fits e.text (ss.map (fun _ => false) ++ is.map (fun _ => true)) = true ∧ ∀ s ∈ ss, S s
  | .withE e ss i => fits e.text (ss.map (fun _ => false) ++ [false]) = true ∧ (∀ s ∈ ss, S s) ∧ i.Good S

theorem GoErr.Good.text {S : GoString → Prop} (quote : GoString → GoString) :
    ∀ {e : GoErr}, e.Good S → ∃ t, e.text quote = some t
  | .std _, _ => ⟨_, rfl⟩
  | .ext _, _ => ⟨_, rfl⟩
  | .withV e ss is, h => by
    refine sprintf_isSome quote _ _ ?_
    rw [List.map_append, List.map_map, List.map_map]
    exact h.1
  | .withE e ss i, h => by
    obtain ⟨t, ht⟩ := GoErr.Good.text quote h.2.2
    unfold GoErr.text
    rw [ht]
    refine sprintf_isSome quote _ _ ?_
    rw [List.map_append, List.map_map]
    exact h.1

theorem GoErr.Good.quoted {S : GoString → Prop} : ∀ {e : GoErr}, e.Good S → ∀ s ∈ e.quoted, S s
  | .std _, _ => by simp [GoErr.quoted]
  | .ext _, _ => by simp [GoErr.quoted]
  | .withV _ _ _, h => h.2
  | .withE _ ss i, h => by
    intro s hs
    rcases List.mem_append.1 hs with hs | hs
    · exact h.2.1 s hs
    · exact GoErr.Good.quoted h.2.2 s hs

theorem GoErr.Good.bare {S : GoString → Prop} : ∀ {e : GoErr}, e.Good S → ∀ x ∈ e.bare,
    (37 : UInt8) ∉ x.text ∨ x = .webAuthnVerifyRequest
  | .std _, h => by
    intro x hx
    obtain rfl := List.mem_singleton.1 hx
    exact h.imp (fits_no_percent _) id
  | .ext _, _ => by simp [GoErr.bare]
  | .withV _ _ _, _ => by simp [GoErr.bare]
  | .withE _ ss i, h => by
    unfold GoErr.bare
    exact GoErr.Good.bare (e := i) h.2.2

def Res.Good {α : Type} (S : GoString → Prop) : Res α → Prop
  | .err e => e.Good S
  | _ => True

theorem Res.Good.of_eq {α : Type} {S : GoString → Prop} {r : Res α} {e : GoErr} (h : r.Good S) (he : r = .err e) :
    e.Good S := by rw [he] at h; exact h

def OptGood (S : GoString → Prop) : Option GoErr → Prop
  | some e => e.Good S
  | none => True

theorem OptGood.of_eq {S : GoString → Prop} {r : Option GoErr} {e : GoErr} (h : OptGood S r) (he : r = some e) :
    e.Good S := by rw [he] at h; exact h

def ExGood {α : Type} (S : GoString → Prop) : Except GoErr α → Prop
  | .error e => e.Good S
  | .ok _ => True

theorem ExGood.of_eq {α : Type} {S : GoString → Prop} {r : Except GoErr α} {e : GoErr} (h : ExGood S r)
    (he : r = .error e) : e.Good S := by rw [he] at h; exact h

variable [Ext] {S : GoString → Prop}

theorem newRole_good (s : GoString) : (newRole s).Good S := by
  unfold newRole
  dsimp only
  split
  · exact .inl rfl
  · split <;> trivial

theorem parseName_good (s : GoString) (hs : S s) : (parseName s).Good S := by
  have hb : (GoErr.withV .parseNameFailed [s] []).Good S := ⟨rfl, by simpa using hs⟩
  unfold parseName
  dsimp only
  repeat' split
  all_goals first | exact hb | trivial

theorem newEmailAddress_good (s : GoString) : (newEmailAddress s).Good S := by
  unfold newEmailAddress
  repeat' split
  all_goals first | exact .inl rfl | trivial

theorem bcryptGenerate_good (pw : GoString) (c : Int) (salt : Option GoString) : (bcryptGenerate pw c salt).Good S := by
  unfold bcryptGenerate
  dsimp only
  generalize (if c < 4 then 10 else c) = c
  split
  · trivial
  · split <;> trivial

theorem newPassword_good (now : Clock) (salt : Option GoString) (s : GoString) : (newPassword now salt s).Good S := by
  unfold newPassword newPasswordWithOptions
  dsimp only
  split
  · exact .inl rfl
  · rw [if_pos rfl]
    split
    · trivial
    · rename_i e he
      exact ⟨rfl, by simp, (bcryptGenerate_good _ _ _).of_eq he⟩
    · trivial

theorem newAPIKey_good (now : Clock) (id : GoString) (k : ReqKey) (hs : S k.usage) : (newAPIKey now id k).Good S := by
  unfold newAPIKey
  split
  · exact .inl rfl
  split
  · exact .inl rfl
  split
  · exact ⟨rfl, by simpa using hs⟩
  split
  · exact .inl rfl
  trivial

theorem checkPasswordPolicy_good (p : Policy) (pw : GoString) : OptGood S (checkPasswordPolicy p pw) := by
  unfold checkPasswordPolicy
  split
  · exact .inl rfl
  · trivial

theorem checkPolicy_good (p : Policy) (u pw : GoString) : OptGood S (checkPolicy p u pw) := by
  unfold checkPolicy
  split
  · rename_i e he
    unfold checkUserPolicy at he
    split at he
    · injection he with he
      subst he
      exact Or.inl rfl
    · cases he
  · exact checkPasswordPolicy_good p pw

theorem addPassword_good (now : Clock) (salt : Option GoString) (s : GoString) (k : Int) (u : User) :
    (User.addPassword now salt s k u).Good S := by
  unfold User.addPassword
  split
  · exact (newPassword_good _ _ _).of_eq ‹_›
  · trivial
  · trivial

theorem addEmailAddress_good (now : Clock) (s : GoString) (u : User) : (User.addEmailAddress now s u).Good S := by
  unfold User.addEmailAddress
  split
  · exact (newEmailAddress_good _).of_eq ‹_›
  · trivial
  · repeat' split
    all_goals trivial

theorem addRole_good (now : Clock) (s : GoString) (u : User) : (User.addRole now s u).Good S := by
  unfold User.addRole
  split
  · exact (newRole_good _).of_eq ‹_›
  · trivial
  · repeat' split
    all_goals trivial

theorem addRoles_good : ∀ (now : Clock) (ss : List GoString) (u : User), (User.addRoles now ss u).Good S
  | _, [], _ => trivial
  | _, s :: ss, u => by
    unfold User.addRoles
    split
    · exact (addRole_good _ _ _).of_eq ‹_›
    · trivial
    · exact addRoles_good _ ss _

theorem valid_good (u : User) : u.valid.Good S := by
  unfold User.valid
  split
  · exact ⟨rfl, by simp⟩
  split
  · exact .inl rfl
  split
  · exact .inl rfl
  trivial

theorem addFullName_good (now : Clock) (s : GoString) (u : User) (hs : S (trimSpace s)) :
    (User.addFullName now s u).Good S := by
  unfold User.addFullName
  dsimp only
  split
  · trivial
  · split
    · exact (parseName_good _ hs).of_eq ‹_›
    · trivial
    · trivial

theorem newWithRoles_good (nd : Nondet) (n p m f : GoString) (roles : List GoString) (hs : S (trimSpace f)) :
    (User.newWithRoles nd n p m f roles).Good S := by
  unfold User.newWithRoles
  split
  · exact (addPassword_good _ _ _ _ _).of_eq ‹_›
  · trivial
  split
  · exact (addEmailAddress_good _ _ _).of_eq ‹_›
  · trivial
  split
  · exact (addRoles_good _ _ _).of_eq ‹_›
  · trivial
  split
  · exact (addFullName_good _ _ _ hs).of_eq ‹_›
  · trivial
  split
  · exact (valid_good _).of_eq ‹_›
  · trivial
  · trivial

theorem validateUserIdentity_good (db : Database) (n m : GoString) : ExGood S (db.validateUserIdentity n m) := by
  unfold Database.validateUserIdentity
  repeat' split
  all_goals first | exact .inl rfl | trivial

theorem verifyPassword_good (s : GoString) (u : User) : OptGood S (u.verifyPassword s) := by
  unfold User.verifyPassword
  repeat' split
  all_goals first | exact .inl rfl | trivial

/-- Decoding the field gives no error but that of the JSON library. -/
def FieldGood {σ : Type} (S : GoString → Prop) (f : Field σ) : Prop := ∀ j s, (f.dec j s).Good S

section Decoding
variable {σ τ α : Type} {fs : List (Field τ)}

theorem decMembers_good (h : ∀ f ∈ fs, FieldGood S f) : ∀ (m : List (GoString × Json)) (s : τ),
    (decMembers fs m s).Good S
  | [], _ => trivial
  | (k, v) :: m, s => by
    unfold decMembers
    split
    · exact decMembers_good h m s
    · rename_i f hf
      split
      · exact decMembers_good h m _
      · exact (h f (findField_in hf) _ _).of_eq ‹_›
      · trivial

theorem decStruct_good (h : ∀ f ∈ fs, FieldGood S f) (j : Json) (s : τ) : (decStruct fs j s).Good S := by
  unfold decStruct
  split
  · trivial
  · exact decMembers_good h _ _
  · trivial

theorem decElems_good (h : ∀ f ∈ fs, FieldGood S f) (z : τ) : ∀ js, (decElems fs z js).Good S
  | [] => trivial
  | j :: js => by
    have ih := decElems_good h z js
    unfold decElems
    split
    · trivial
    · trivial
    · rename_i h1
      injection h1 with h1 h2
      subst h1 h2
      split
      · split
        · trivial
        · exact ih.of_eq ‹_›
        · trivial
      · exact (decStruct_good h _ _).of_eq ‹_›
      · trivial

theorem decStrs_good : ∀ js, (decStrs js).Good S
  | [] => trivial
  | j :: js => by
    have ih := decStrs_good js
    cases j
    all_goals unfold decStrs
    all_goals first
      | trivial
      | (split
         · trivial
         · exact ih.of_eq ‹_›
         · trivial)

theorem decMap_good {elem : Json → Res α} (h : ∀ j, (elem j).Good S) :
    ∀ (m : List (GoString × Json)) (acc : List (GoString × α)), (decMap elem m acc).Good S
  | [], _ => trivial
  | (k, v) :: m, acc => by
    unfold decMap
    split
    · exact decMap_good h m _
    · exact (h v).of_eq ‹_›
    · trivial

theorem fStr_good (n g st) : FieldGood S (fStr (σ := σ) n g st) := by intro j s; cases j <;> trivial
theorem fBool_good (n g st) : FieldGood S (fBool (σ := σ) n g st) := by intro j s; cases j <;> trivial
theorem fBoolAlways_good (n g st) : FieldGood S (fBoolAlways (σ := σ) n g st) := by intro j s; cases j <;> trivial
theorem elemAny_good (j : Json) : (elemAny j).Good S := by unfold elemAny; split <;> trivial
theorem fAny_good (n g st) : FieldGood S (fAny (σ := σ) n g st) := by
  intro j s
  simp only [fAny]
  split
  · trivial
  · exact (elemAny_good j).of_eq ‹_›
  · trivial
theorem fInt_good (n g st) : FieldGood S (fInt (σ := σ) n g st) := by
  intro j s
  simp only [fInt, decInt]
  repeat' split
  all_goals trivial
theorem fIntAlways_good (n g st) : FieldGood S (fIntAlways (σ := σ) n g st) := by
  intro j s
  simp only [fIntAlways, decInt]
  repeat' split
  all_goals trivial
theorem fUint_good (b n g st) : FieldGood S (fUint (σ := σ) b n g st) := by
  intro j s
  simp only [fUint, decUint]
  repeat' split
  all_goals trivial
theorem fTime_good (n g st) : FieldGood S (fTime (σ := σ) n g st) := by
  intro j s
  simp only [fTime]
  repeat' split
  all_goals trivial
theorem fStruct_good (h : ∀ f ∈ fs, FieldGood S f) (n g st) : FieldGood S (fStruct (σ := σ) n fs g st) := by
  intro j s
  simp only [fStruct]
  split
  · trivial
  · exact (decStruct_good h _ _).of_eq ‹_›
  · trivial
theorem fPtr_good (h : ∀ f ∈ fs, FieldGood S f) (n z g st) : FieldGood S (fPtr (σ := σ) n fs z g st) := by
  intro j s
  simp only [fPtr]
  split
  · trivial
  split
  · trivial
  · exact (decStruct_good h _ _).of_eq ‹_›
  · trivial
theorem fList_good (h : ∀ f ∈ fs, FieldGood S f) (n z g st) : FieldGood S (fList (σ := σ) n fs z g st) := by
  intro j s
  simp only [fList]
  split
  · trivial
  · split
    · trivial
    · exact (decElems_good h _ _).of_eq ‹_›
    · trivial
  · trivial
theorem fStrs_good (n g st) : FieldGood S (fStrs (σ := σ) n g st) := by
  intro j s
  simp only [fStrs]
  split
  · trivial
  · split
    · trivial
    · exact (decStrs_good _).of_eq ‹_›
    · trivial
  · trivial
theorem fMap_good {elem : Json → Res α} (h : ∀ j, (elem j).Good S) (n e g st) :
    FieldGood S (fMap (σ := σ) n e elem g st) := by
  intro j s
  simp only [fMap]
  split
  · trivial
  · split
    · trivial
    · exact (decMap_good h _ _).of_eq ‹_›
    · trivial
  · trivial
theorem fOptMap_good {elem : Json → Res α} (h : ∀ j, (elem j).Good S) (n e g st) :
    FieldGood S (fOptMap (σ := σ) n e elem g st) := by
  intro j s
  simp only [fOptMap]
  split
  · trivial
  · split
    · trivial
    · exact (decMap_good h _ _).of_eq ‹_›
    · trivial
  · trivial
theorem elemStr_good (j : Json) : (elemStr j).Good S := by cases j <;> trivial
theorem elemBool_good (j : Json) : (elemBool j).Good S := by cases j <;> trivial

end Decoding

theorem fieldsGood_nil {σ : Type} : ∀ f ∈ ([] : List (Field σ)), FieldGood S f := by simp
theorem fieldsGood_cons {σ : Type} {f : Field σ} {fs : List (Field σ)} (h : FieldGood S f)
    (hs : ∀ g ∈ fs, FieldGood S g) : ∀ g ∈ f :: fs, FieldGood S g := List.forall_mem_cons.2 ⟨h, hs⟩

macro "fields_good " i:ident : tactic => `(tactic|
  (unfold $i:ident; repeat' (first
    | exact fStr_good _ _ _ | exact fBool_good _ _ _ | exact fBoolAlways_good _ _ _ | exact fAny_good _ _ _
    | exact fInt_good _ _ _ | exact fIntAlways_good _ _ _ | exact fUint_good _ _ _ _ | exact fTime_good _ _ _
    | exact fStrs_good _ _ _ | exact fMap_good elemStr_good _ _ _ _ | exact fMap_good elemBool_good _ _ _ _
    | exact fOptMap_good elemAny_good _ _ _ _ | exact fOptMap_good elemBool_good _ _ _ _
    | exact fStruct_good ‹_› _ _ _ | exact fPtr_good ‹_› _ _ _ _ | exact fList_good ‹_› _ _ _ _
    | exact fieldsGood_nil | refine fieldsGood_cons ?_ ?_
    | (intro j s; cases j <;> trivial))))

theorem userFields_good : ∀ f ∈ userFields, FieldGood S f := by
  have : ∀ f ∈ nameFields, FieldGood S f := by fields_good nameFields
  have : ∀ f ∈ organizationFields, FieldGood S f := by fields_good organizationFields
  have : ∀ f ∈ locationFields, FieldGood S f := by fields_good locationFields
  have : ∀ f ∈ emailFields, FieldGood S f := by fields_good emailFields
  have : ∀ f ∈ passwordFields, FieldGood S f := by fields_good passwordFields
  have : ∀ f ∈ apiKeyFields, FieldGood S f := by fields_good apiKeyFields
  have : ∀ f ∈ publicKeyFields, FieldGood S f := by fields_good publicKeyFields
  have : ∀ f ∈ mfaDeviceFields, FieldGood S f := by fields_good mfaDeviceFields
  have : ∀ f ∈ mfaTokenFields, FieldGood S f := by fields_good mfaTokenFields
  have : ∀ f ∈ lockoutFields, FieldGood S f := by fields_good lockoutFields
  have : ∀ f ∈ imageConfigFields, FieldGood S f := by fields_good imageConfigFields
  have : ∀ f ∈ imageFields, FieldGood S f := by fields_good imageFields
  have : ∀ f ∈ roleFields, FieldGood S f := by fields_good roleFields
  fields_good userFields

theorem unmarshal_good {σ : Type} {fs : List (Field σ)} (h : ∀ f ∈ fs, FieldGood S f) (z : σ) (b : GoString) :
    (unmarshal fs z b).Good S := by
  unfold unmarshal
  split
  · trivial
  · exact decStruct_good h _ _

theorem unmarshalDB_good (b : GoString) : (unmarshalDB b).Good S := by
  have := userFields_good (S := S)
  have : ∀ f ∈ passwordPolicyFields, FieldGood S f := by fields_good passwordPolicyFields
  have : ∀ f ∈ userPolicyFields, FieldGood S f := by fields_good userPolicyFields
  have : ∀ f ∈ policyFields, FieldGood S f := by fields_good policyFields
  have : ∀ f ∈ dbFields, FieldGood S f := by fields_good dbFields
  unfold unmarshalDB
  split
  · trivial
  · exact decStruct_good this _ _

theorem authDataFields_good : ∀ f ∈ authDataFields, FieldGood S f := by
  have : ∀ f ∈ credentialDataFields, FieldGood S f := by fields_good credentialDataFields
  fields_good authDataFields

theorem authenticateRequestFields_good : ∀ f ∈ authenticateRequestFields, FieldGood S f := by
  have := authDataFields_good (S := S)
  have : ∀ f ∈ clientDataFields, FieldGood S f := by fields_good clientDataFields
  fields_good authenticateRequestFields

theorem registerRequestFields_good : ∀ f ∈ registerRequestFields, FieldGood S f := by
  have := authDataFields_good (S := S)
  have : ∀ f ∈ clientDataFields, FieldGood S f := by fields_good clientDataFields
  have : ∀ f ∈ attestationStatementFields, FieldGood S f := by fields_good attestationStatementFields
  have : ∀ f ∈ attestationObjectFields, FieldGood S f := by fields_good attestationObjectFields
  have : ∀ f ∈ deviceFields, FieldGood S f := by fields_good deviceFields
  fields_good registerRequestFields

theorem unpackWebAuthnRequest_good (s : GoString) : (unpackWebAuthnRequest s).Good S := by
  unfold unpackWebAuthnRequest
  split
  · exact ⟨rfl, by simp, trivial⟩
  · split
    · exact ⟨rfl, by simp, (unmarshal_good authenticateRequestFields_good _ _).of_eq ‹_›⟩
    · trivial
    · trivial

theorem verifyTokens_good (w : ReqWebAuthn) (id : GoString) : ∀ ts : List MfaToken,
    (User.verifyTokens w id ts).Good S
  | [] => .inr rfl
  | t :: ts => by
    have ih := verifyTokens_good w id ts
    unfold User.verifyTokens
    repeat' split
    all_goals first | exact ih | exact .inr rfl | trivial

theorem verifyWebAuthnRequest_good (w : ReqWebAuthn) (u : User) : (u.verifyWebAuthnRequest w).Good S := by
  unfold User.verifyWebAuthnRequest
  split
  · exact (unpackWebAuthnRequest_good _).of_eq ‹_›
  · trivial
  · exact verifyTokens_good _ _ _

theorem tryCodes_good (hm : ∀ s ∈ fixedMessages, S s) (secret algo : GoString) (d : Int) (code : GoString) :
    ∀ ts, (tryCodes secret algo d code ts).Good S
  | [] => ⟨rfl, by simpa using hm _ (by decide)⟩
  | t :: ts => by
    have ih := tryCodes_good hm secret algo d code ts
    unfold tryCodes
    repeat' split
    all_goals first | exact ih | trivial

theorem validateCodeWithTime_good (hm : ∀ s ∈ fixedMessages, S s) (p : MfaToken) (code : GoString) (unix : Int) :
    (validateCodeWithTime p code unix).Good S := by
  unfold validateCodeWithTime
  dsimp only
  split
  · exact ⟨rfl, by simpa using hm _ (by decide)⟩
  split
  · exact ⟨rfl, by simpa using hm _ (by decide)⟩
  split
  · exact ⟨rfl, by simpa using hm _ (by decide)⟩
  exact tryCodes_good hm _ _ _ _ _

theorem newTotp_good (hm : ∀ s ∈ fixedMessages, S s) (nd : Nondet) (p : MfaToken) (m : ReqMfaToken)
    (ha : S (toLower m.algorithm)) : (newTotp nd p m).1.Good S := by
  unfold newTotp
  dsimp only
  generalize (if toLower m.algorithm = gs! "sha1" ∨ toLower m.algorithm = gs! "sha256" ∨
    toLower m.algorithm = gs! "sha512" then some (toLower m.algorithm)
    else if toLower m.algorithm = [] then some (gs! "sha1") else none) = a?
  generalize (if m.digits = 0 then (6 : Int) else m.digits) = d
  cases a? with
  | none => exact ⟨rfl, by simpa using ha⟩
  | some a =>
    dsimp only
    split
    · exact ⟨rfl, by simp⟩
    split
    · exact ⟨rfl, by simp⟩
    split
    · trivial
    · exact (validateCodeWithTime_good hm _ _ _).of_eq ‹_›
    · trivial

theorem checkTransports_good : ∀ ts : List GoString, (∀ t ∈ ts, S t) → (checkTransports ts).Good S
  | [], _ => trivial
  | t :: ts, h => by
    have ih := checkTransports_good ts (fun x hx => h x (List.mem_cons_of_mem _ hx))
    unfold checkTransports
    split
    · exact ih
    split
    · exact .inl rfl
    · exact ⟨rfl, by simpa using h t (by simp)⟩

theorem numberIs_good (v : Json) (n : Int) : (numberIs v n).Good S := by
  unfold numberIs
  split <;> trivial

theorem optString_good (v : Option Json) : (optString v).Good S := by
  unfold optString
  split <;> trivial

theorem checkCoseKey_good (hm : ∀ s ∈ fixedMessages, S s) (pk : List (GoString × Json)) :
    (checkCoseKey pk).Good S := by
  have hn : S (gs! "number") := hm _ (by decide)
  unfold checkCoseKey
  split
  · exact .inl rfl
  split
  · trivial
  · exact (numberIs_good _ _).of_eq ‹_›
  · exact ⟨rfl, by simpa using hn⟩
  split
  · exact .inl rfl
  split
  · trivial
  · exact (numberIs_good _ _).of_eq ‹_›
  · exact ⟨rfl, by simpa using hn⟩
  dsimp only
  have hc : (match mapGet (gs! "curve_type") pk with
      | none => .ok []
      | some v =>
        match numberIs v 1 with
        | .panic => .panic
        | .err e => .err e
        | .ok false => .err (.withV .webAuthnRegisterPublicKeyCurveUnsupported [gs! "number"] [])
        | .ok true => .ok (gs! "p256") : Res GoString).Good S := by
    split
    · trivial
    split
    · trivial
    · exact (numberIs_good _ _).of_eq ‹_›
    · exact ⟨rfl, by simpa using hn⟩
    · trivial
  split
  · trivial
  · exact hc.of_eq ‹_›
  split
  · trivial
  · exact (optString_good _).of_eq ‹_›
  split
  · trivial
  · exact (optString_good _).of_eq ‹_›
  · trivial

theorem u2fFromRegister_err_good (hm : ∀ s ∈ fixedMessages, S s) (p : MfaToken) (r : RegisterRequest)
    (hr : S r.type) (ht : ∀ t ∈ r.transports, S t) : (u2fFromRegister p r).Good S := by
  unfold u2fFromRegister
  split
  · exact .inl rfl
  split
  · exact .inl rfl
  split
  · exact ⟨rfl, by simpa using hr⟩
  split
  · exact (checkTransports_good _ ht).of_eq ‹_›
  · trivial
  split
  · exact .inl rfl
  split
  · exact .inl rfl
  split
  · exact .inl rfl
  split
  · exact .inl rfl
  split
  · exact .inl rfl
  split
  · exact .inl rfl
  split
  · exact (checkCoseKey_good hm _).of_eq ‹_›
  · trivial
  · trivial

/-- What the registration quoted in a request may contribute. -/
def RegQuotable (w : ReqWebAuthn) (s : GoString) : Prop :=
  ∃ b r, b64Decode w.register = some b ∧ unmarshal registerRequestFields RegisterRequest.zero b = .ok r ∧
    (s = r.type ∨ s ∈ r.transports)

theorem newU2F_good (hm : ∀ s ∈ fixedMessages, S s) (p : MfaToken) (w : ReqWebAuthn)
    (hr : ∀ s, RegQuotable w s → S s) : (newU2F p w).Good S := by
  unfold newU2F
  split
  · exact .inl rfl
  split
  · exact .inl rfl
  split
  · exact ⟨rfl, by simp, trivial⟩
  rename_i b hb
  split
  · exact ⟨rfl, by simp, (unmarshal_good registerRequestFields_good _ _).of_eq ‹_›⟩
  · trivial
  rename_i r hru
  exact u2fFromRegister_err_good hm _ _ (hr _ ⟨b, r, hb, hru, .inl rfl⟩) fun t ht => hr _ ⟨b, r, hb, hru, .inr ht⟩

theorem newMfaToken_good (hm : ∀ s ∈ fixedMessages, S s) (nd : Nondet) (req : Request)
    (hr : ∀ s, RegQuotable req.webAuthn s → S s) (ha : S (toLower req.mfaToken.algorithm))
    (ht : S req.mfaToken.type) : (newMfaToken nd req).1.Good S := by
  unfold newMfaToken
  dsimp only
  split
  · exact newTotp_good hm _ _ _ ha
  split
  · exact newU2F_good hm _ _ hr
  split
  · exact .inl rfl
  · exact ⟨rfl, by simpa using ht⟩

theorem checkMfaDup_good (t : MfaToken) : ∀ ts, OptGood S (User.checkMfaDup t ts)
  | [] => trivial
  | k :: ks => by
    have ih := checkMfaDup_good t ks
    unfold User.checkMfaDup
    split
    · exact ⟨rfl, by simp, .inl rfl⟩
    split
    · exact ⟨rfl, by simp, .inl rfl⟩
    · exact ih

theorem userAddMfaToken_good (hm : ∀ s ∈ fixedMessages, S s) (nd : Nondet) (req : Request) (u : User)
    (hr : ∀ s, RegQuotable req.webAuthn s → S s) (ha : S (toLower req.mfaToken.algorithm))
    (ht : S req.mfaToken.type) : (u.addMfaToken nd req).1.Good S := by
  have hg := newMfaToken_good hm nd req hr ha ht
  unfold User.addMfaToken
  split
  · rename_i h
    rw [h] at hg
    exact ⟨rfl, by simp, hg⟩
  · trivial
  · split
    · exact (checkMfaDup_good _ _).of_eq ‹_›
    · trivial

theorem userDeleteMfaToken_good (hm : ∀ s ∈ fixedMessages, S s) (now : Clock) (id : GoString) (u : User)
    (hi : S id) : (u.deleteMfaToken now id).Good S := by
  unfold User.deleteMfaToken
  split
  · trivial
  · exact ⟨rfl, by simpa using ⟨hi, hm _ (by decide)⟩⟩

/-! ## Public keys -/

/-- What a public key sent in a request may contribute. -/
def KeyQuotable (payload s : GoString) : Prop :=
  (∃ b, pemDecode (trimSpace payload) = some (s, b)) ∨ s ∈ otherSshTypes

theorem trimSpace_infix (s : GoString) : trimSpace s <:+: s := by
  obtain ⟨a, b, _, _, h, _⟩ := trimSpace_spec s
  exact ⟨a, b, h.symm⟩

theorem newPublicKey_good (hm : ∀ s ∈ fixedMessages, S s) (now : Clock) (id : GoString) (k : ReqKey)
    (hu : S k.usage) (hk : ∀ s, KeyQuotable k.payload s → S s) : (newPublicKey now id k).Good S := by
  have hssh : ∀ p : PublicKey, p.payload = k.payload → (parsePublicKeyOpenSSH p).Good S := by
    intro p hp
    rw [parsePublicKeyOpenSSH_eq]
    split
    · exact ⟨rfl, by simp, trivial⟩
    split
    · exact ⟨rfl, by simp, trivial⟩
    · rename_i t r hkey
      rcases sshParse_type hkey with ⟨_, e, n, h⟩ | h
      · cases h
      · exact ⟨rfl, by simpa using hk t (.inr h.1)⟩
    · trivial
  have hpgp : ∀ p : PublicKey, (parsePublicKeyPGP p).Good S := by
    intro p
    unfold parsePublicKeyPGP
    dsimp only
    repeat' split
    all_goals first | trivial | exact ⟨rfl, by simp, trivial⟩
  have hrsa : ∀ p : PublicKey, p.payload = k.payload → p.usage = k.usage → (parsePublicKeyRSA p).Good S := by
    intro p hp hpu
    unfold parsePublicKeyRSA
    split
    · exact ⟨rfl, by simpa [hpu] using hu⟩
    split
    · exact ⟨rfl, by simpa using hm _ (by decide)⟩
    rename_i ty bytes hpem
    split
    · exact ⟨rfl, by simpa using hk _ (.inl ⟨bytes, hp ▸ hpem⟩)⟩
    split
    · exact ⟨rfl, by simp, trivial⟩
    · trivial
    · trivial
  have hparse : ∀ p : PublicKey, p.payload = k.payload → p.usage = k.usage → (parsePublicKey p).Good S := by
    intro p hp hpu
    unfold parsePublicKey
    split
    · exact ⟨rfl, by simpa [hpu] using hu⟩
    split
    · exact .inl rfl
    split
    · exact hrsa p hp hpu
    split
    · exact hssh p hp
    split
    · exact hpgp p
    · exact ⟨rfl, by simpa [hpu] using hu⟩
  unfold newPublicKey
  split
  · trivial
  · exact (hparse _ rfl rfl).of_eq ‹_›
  · trivial

theorem userAddPublicKey_good (hm : ∀ s ∈ fixedMessages, S s) (nd : Nondet) (k : ReqKey) (u : User)
    (hu : S k.usage) (hk : ∀ s, KeyQuotable k.payload s → S s) : (u.addPublicKey nd k).Good S := by
  unfold User.addPublicKey
  split
  · exact ⟨rfl, by simpa using hu, (newPublicKey_good hm _ _ _ hu hk).of_eq ‹_›⟩
  · trivial
  · split
    · exact ⟨rfl, by simpa using ⟨hu, hm _ (by decide)⟩⟩
    · trivial

theorem userDeletePublicKey_good (hm : ∀ s ∈ fixedMessages, S s) (now : Clock) (k : ReqKey) (u : User)
    (hi : S k.id) : (u.deletePublicKey now k).Good S := by
  unfold User.deletePublicKey
  split
  · trivial
  · exact ⟨rfl, by simpa using ⟨hi, hm _ (by decide)⟩⟩

theorem userAddAPIKey_good (now : Clock) (id : GoString) (k : ReqKey) (u : User) (hu : S k.usage) :
    (u.addAPIKey now id k).Good S := by
  unfold User.addAPIKey
  split
  · exact ⟨rfl, by simpa using hu, (newAPIKey_good _ _ _ hu).of_eq ‹_›⟩
  · trivial
  · trivial

theorem userDeleteAPIKey_good (hm : ∀ s ∈ fixedMessages, S s) (now : Clock) (k : ReqKey) (u : User)
    (hi : S k.id) : (u.deleteAPIKey now k).Good S := by
  unfold User.deleteAPIKey
  split
  · exact ⟨rfl, by simpa using ⟨hi, hm _ (by decide)⟩⟩
  · trivial

theorem userDeleteAPIKey_usage {now : Clock} {k k' : ReqKey} {u u' : User}
    (h : u.deleteAPIKey now k = .ok (u', k')) : k'.usage = k.usage := by
  unfold User.deleteAPIKey at h
  split at h
  · cases h
  · injection h with h
    injection h with _ h
    rw [← h]

theorem userLookupAPIKey_good (pfx payload : GoString) : ∀ ks, OptGood S (User.lookupAPIKey pfx payload ks)
  | [] => .inl rfl
  | k :: ks => by
    have ih := userLookupAPIKey_good pfx payload ks
    unfold User.lookupAPIKey
    repeat' split
    all_goals first | exact ih | exact .inl rfl | trivial

theorem userChangePassword_good (nd : Nondet) (o p : GoString) (k : Int) (u : User) :
    (u.changePassword nd o p k).Good S := by
  unfold User.changePassword
  split
  · exact ⟨rfl, by simp, (verifyPassword_good _ _).of_eq ‹_›⟩
  · split
    · exact ⟨rfl, by simp, (addPassword_good _ _ _ _ _).of_eq ‹_›⟩
    · trivial
    · trivial

/-! ## Calls -/

theorem writeFile_good (fs : FS) (path data : GoString) (io : WriteOutcome) : OptGood S (writeFile fs path data io).2 := by
  unfold writeFile
  repeat' split
  all_goals trivial

theorem commit_good (nd : Nondet) (db : Database) (fs : FS) (hp : S db.path) : OptGood S (db.commit nd fs).2.2 := by
  have hw := writeFile_good (S := S) fs db.path
    (marshalDB ({ db with revision := (db.revision + 1) % 2 ^ 64, lastModified := nd.commitTime } : Database).toDBData) nd.io
  unfold Database.commit
  dsimp only
  split
  · trivial
  · rename_i h
    rw [h] at hw
    exact ⟨rfl, by simpa using hp, hw⟩

/-- The outcome is no error, or a good one. -/
def Outcome.Good (S : GoString → Prop) : Outcome → Prop
  | .done (some e) => e.Good S
  | _ => True

theorem finish_good (nd : Nondet) (db : Database) (fs : FS) (req : Request) (wrap : GoErr → GoErr)
    (hp : S db.path) (hw : ∀ e : GoErr, e.Good S → (wrap e).Good S) : (db.finish nd fs req wrap).out.Good S := by
  have hc := commit_good (S := S) nd db fs hp
  unfold Database.finish
  split
  · trivial
  · rename_i h
    rw [h] at hc
    exact hw _ hc

theorem checkEmails_good (hm : ∀ s ∈ fixedMessages, S s) (db : Database) : ∀ es : List EmailAddress,
    (∀ e ∈ es, S (toLower e.address)) → ExGood S (db.checkEmails es)
  | [], _ => trivial
  | e :: es, h => by
    have ih := checkEmails_good hm db es (fun x hx => h x (List.mem_cons_of_mem _ hx))
    unfold Database.checkEmails
    dsimp only
    split
    · exact ⟨rfl, by simpa using ⟨h e (by simp), hm _ (by decide)⟩⟩
    · split
      · exact ih.of_eq ‹_›
      · trivial

theorem keyLoop_good (nd : Nondet) (db : Database) (s : GoString) : ∀ (fuel a f : Nat) (e : GoErr),
    db.keyLoop nd s fuel a f = .fail e → e.Good S
  | 0, _, _, e, h => by simp [Database.keyLoop] at h
  | fuel + 1, a, f, e, h => by
    unfold Database.keyLoop at h
    split at h
    · rename_i e' he
      split at h
      · injection h with h
        subst h
        exact (newPassword_good _ _ _).of_eq he
      · exact keyLoop_good nd db s _ _ _ e h
    · cases h
    · split at h
      · exact keyLoop_good nd db s _ _ _ e h
      · cases h

theorem exec_good (c : Call) (nd : Nondet) (db : Database) (fs : FS) (req : Request) :
    (exec c nd db fs req).out.Good (Quotable c db req) := by
  have hm : ∀ s ∈ fixedMessages, Quotable c db req s := fun s h => .message s h
  have hv : ∀ e, db.validateUserIdentity req.user.username req.user.email = .error e → e.Good (Quotable c db req) :=
    fun e h => (validateUserIdentity_good _ _ _).of_eq h
  have hk : ∀ s, KeyQuotable req.key.payload s → Quotable c db req s := by
    rintro s (⟨b, h⟩ | h)
    · exact .pemType s b h
    · exact .sshType s h
  have hr : ∀ s, RegQuotable req.webAuthn s → Quotable c db req s := by
    rintro s ⟨b, r, h1, h2, h3⟩
    exact .registration b r h1 h2 s h3
  have hp : (∀ fp, c ≠ .copy fp) → Quotable c db req db.path := by
    intro hc
    have : c.target db = db.path := by
      cases c <;> first | rfl | exact absurd rfl (hc _)
    exact this ▸ .path
  cases c
  case addUser =>
    simp only [exec, Database.addUser]
    split
    · exact ⟨rfl, by simpa using .username, (checkPolicy_good _ _ _).of_eq ‹_›⟩
    split
    · exact ⟨rfl, by simpa using .username, (newWithRoles_good _ _ _ _ _ _ .fullName).of_eq ‹_›⟩
    · trivial
    rename_i user hnew
    obtain ⟨p, e, roles, name, _, he, _, _, _, _, hu⟩ := User.newWithRoles_ok hnew
    have hun : user.username = req.user.username := by rw [hu]
    have hue : user.emailAddresses = [e] := by rw [hu]
    split
    · exact ⟨rfl, by simpa [hun] using ⟨.lowerUsername, hm _ (by decide)⟩⟩
    split
    · rename_i he'
      refine (checkEmails_good hm db _ ?_).of_eq he'
      rw [hue]
      have : e.address = req.user.email := by
        unfold newEmailAddress at he
        repeat' split at he
        all_goals first | (cases he; rfl) | cases he
      simpa [this] using .lowerEmail
    · refine finish_good _ _ _ _ _ (hp (by simp)) fun e he => ⟨rfl, ?_, he⟩
      simpa [hun] using .lowerUsername
  case getUsers =>
    simp only [exec, Database.getUsers]
    split
    · exact ⟨rfl, by simp, hv _ ‹_›⟩
    · trivial
  case getUser =>
    simp only [exec, Database.getUserCall]
    split
    · exact ⟨rfl, by simp, hv _ ‹_›⟩
    · trivial
  case deleteUser =>
    simp only [exec, Database.deleteUser]
    split
    · exact ⟨rfl, by simpa using .queryID, hv _ ‹_›⟩
    · exact ⟨rfl, by simpa using ⟨.queryID, hm _ (by decide)⟩⟩
  case authenticateUser =>
    simp only [exec, Database.authenticateUser]
    split
    · exact ⟨rfl, by simp, .inl rfl⟩
    split
    · split
      · exact ⟨rfl, by simp, (verifyPassword_good _ _).of_eq ‹_›⟩
      · trivial
    split
    · split
      · exact ⟨rfl, by simp, (verifyWebAuthnRequest_good _ _).of_eq ‹_›⟩
      · trivial
      · trivial
    · exact ⟨rfl, by simpa using hm _ (by decide)⟩
  case save => exact finish_good _ _ _ _ _ (hp (by simp)) fun _ h => h
  case copy fp =>
    have hc := commit_good (S := Quotable (.copy fp) db req) nd { db with path := fp } fs .path
    simp only [exec, Database.copy]
    split
    · trivial
    · rename_i h
      rw [h] at hc
      exact hc
  case addPublicKey =>
    simp only [exec, Database.addPublicKey]
    split
    · exact ⟨rfl, by simpa using .usage, hv _ ‹_›⟩
    split
    · exact (userAddPublicKey_good hm _ _ _ .usage hk).of_eq ‹_›
    · trivial
    · exact finish_good _ _ _ _ _ (hp (by simp)) fun e he => ⟨rfl, by simpa using .usage, he⟩
  case getPublicKeys =>
    simp only [exec, Database.getPublicKeys]
    split
    · exact ⟨rfl, by simpa using .usage, hv _ ‹_›⟩
    · trivial
  case deletePublicKey =>
    simp only [exec, Database.deletePublicKey]
    split
    · exact ⟨rfl, by simpa using .keyID, hv _ ‹_›⟩
    split
    · exact (userDeletePublicKey_good hm _ _ _ .keyID).of_eq ‹_›
    · trivial
    · exact finish_good _ _ _ _ _ (hp (by simp)) fun e he => ⟨rfl, by simpa using .usage, he⟩
  case addAPIKey =>
    simp only [exec, Database.addAPIKey]
    split
    · exact ⟨rfl, by simpa using .usage, hv _ ‹_›⟩
    split
    · rename_i h
      simp [getRandomStringFromRange] at h
    · trivial
    split
    · trivial
    · exact keyLoop_good _ _ _ _ _ _ _ ‹_›
    split
    · rename_i h
      refine Res.Good.of_eq (userAddAPIKey_good _ _ _ _ ?_) h
      exact .usage
    · trivial
    · exact finish_good _ _ _ _ _ (hp (by simp)) fun e he => ⟨rfl, by simpa using .usage, he⟩
  case deleteAPIKey =>
    simp only [exec, Database.deleteAPIKey]
    split
    · exact ⟨rfl, by simpa using .keyID, hv _ ‹_›⟩
    split
    · exact (userDeleteAPIKey_good hm _ _ _ .keyID).of_eq ‹_›
    · trivial
    · rename_i key h
      have hu := userDeleteAPIKey_usage h
      exact finish_good _ _ _ _ _ (hp (by simp)) fun e he => ⟨rfl, by simpa [hu] using .usage, he⟩
  case getAPIKeys =>
    simp only [exec, Database.getAPIKeys]
    split
    · exact ⟨rfl, by simpa using .usage, hv _ ‹_›⟩
    · trivial
  case changeUserPassword =>
    simp only [exec, Database.changeUserPassword]
    split
    · exact ⟨rfl, by simp, hv _ ‹_›⟩
    split
    · exact ⟨rfl, by simp, (checkPasswordPolicy_good _ _).of_eq ‹_›⟩
    split
    · exact (userChangePassword_good _ _ _ _ _).of_eq ‹_›
    · trivial
    · exact finish_good _ _ _ _ _ (hp (by simp)) fun e he => ⟨rfl, by simp, he⟩
  case identifyUser =>
    simp only [exec, Database.identifyUser]
    split <;> trivial
  case lookupAPIKey =>
    simp only [exec, Database.lookupAPIKey]
    split
    · exact Or.inl rfl
    split
    · exact Or.inl rfl
    split
    · exact Or.inl rfl
    split
    · exact (userLookupAPIKey_good _ _ _).of_eq ‹_›
    · trivial
  case addMfaToken =>
    simp only [exec, Database.addMfaToken]
    split
    · exact ⟨rfl, by simp, hv _ ‹_›⟩
    rename_i u _
    have hg := userAddMfaToken_good hm nd req u hr .algorithm .tokenType
    split
    · rename_i h
      rw [h] at hg
      exact hg
    · trivial
    · exact finish_good _ _ _ _ _ (hp (by simp)) fun e he => ⟨rfl, by simp, he⟩
  case getMfaTokens =>
    simp only [exec, Database.getMfaTokens]
    split
    · exact ⟨rfl, by simp, hv _ ‹_›⟩
    · trivial
  case deleteMfaToken =>
    simp only [exec, Database.deleteMfaToken]
    split
    · exact ⟨rfl, by simpa using .tokenID, hv _ ‹_›⟩
    split
    · exact (userDeleteMfaToken_good hm _ _ _ .tokenID).of_eq ‹_›
    · trivial
    · exact finish_good _ _ _ _ _ (hp (by simp)) fun e he => ⟨rfl, by simpa using .tokenID, he⟩

/-! ## Opening -/

theorem loadEmails_good (hm : ∀ s ∈ fixedMessages, S s) (i : Nat) : ∀ (es : List EmailAddress) (m : GoString → Option Nat),
    (∀ e ∈ es, S (toLower e.address)) → (Database.loadEmails i es m).Good S
  | [], _, _ => trivial
  | e :: es, m, h => by
    unfold Database.loadEmails
    dsimp only
    split
    · exact ⟨rfl, by simpa using ⟨h e (by simp), hm _ (by decide)⟩⟩
    · exact loadEmails_good hm i es _ fun x hx => h x (List.mem_cons_of_mem _ hx)

theorem loadAPIKeys_good (hm : ∀ s ∈ fixedMessages, S s) (i : Nat) : ∀ (ks : List APIKey) (m : GoString → Option Nat),
    (∀ k ∈ ks, S k.pfx) → (Database.loadAPIKeys i ks m).Good S
  | [], _, _ => trivial
  | k :: ks, m, h => by
    unfold Database.loadAPIKeys
    split
    · exact ⟨rfl, by simpa using ⟨h k (by simp), hm _ (by decide)⟩⟩
    · exact loadAPIKeys_good hm i ks _ fun x hx => h x (List.mem_cons_of_mem _ hx)

theorem loadUsers_good (hm : ∀ s ∈ fixedMessages, S s) : ∀ (us : List User) (i : Nat) (db : Database),
    (∀ u ∈ us, ∀ s, u.Names s → S s) → (Database.loadUsers i us db).Good S
  | [], _, _, _ => trivial
  | u :: us, i, db, h => by
    have hu := h u (by simp)
    unfold Database.loadUsers
    split
    · rename_i e he
      unfold Database.loadUser at he
      dsimp only at he
      split at he
      · injection he with he
        subst he
        exact ⟨rfl, by simpa using hm _ (by decide), (valid_good u).of_eq ‹_›⟩
      · cases he
      split at he
      · injection he with he
        subst he
        exact ⟨rfl, by simpa using ⟨hu _ (.inl rfl), hm _ (by decide)⟩⟩
      · injection he with he
        subst he
        exact ⟨rfl, by simpa using ⟨hu _ (.inr (.inl rfl)), hm _ (by decide)⟩⟩
      split at he
      · injection he with he
        subst he
        exact (loadEmails_good hm i _ _ fun e he => hu _ (.inr (.inr (.inl ⟨e, he, rfl⟩)))).of_eq ‹_›
      · cases he
      split at he
      · injection he with he
        subst he
        exact (loadAPIKeys_good hm i _ _ fun k hk => hu _ (.inr (.inr (.inr ⟨k, hk, rfl⟩)))).of_eq ‹_›
      · cases he
      · cases he
    · trivial
    · exact loadUsers_good hm us _ _ fun x hx => h x (List.mem_cons_of_mem _ hx)

theorem readFileBytes_good (nd : Nondet) (fs : FS) (fp : GoString) : (readFileBytes nd fs fp).Good S := by
  unfold readFileBytes
  split
  · rename_i he
    unfold expandHomePath at he
    repeat' split at he
    all_goals cases he
    trivial
  · trivial
  repeat' split
  all_goals trivial

theorem readFileBytes_from {nd : Nondet} {fs : FS} {fp b : GoString} (h : readFileBytes nd fs fp = .ok b) :
    ∃ p, fs p = some (.file b) := by
  unfold readFileBytes at h
  split at h
  · cases h
  · cases h
  split at h
  · cases h
  split at h
  · rename_i p _ _ b' hb
    injection h with h
    exact ⟨_, h ▸ hb⟩
  · cases h

theorem commit_users (nd : Nondet) (db : Database) (fs : FS) : (db.commit nd fs).1.users = db.users := by
  unfold Database.commit
  dsimp only
  split <;> rfl

theorem newDatabase_good (nd : Nondet) (fs : FS) (fp : GoString) :
    (newDatabase nd fs fp).1.Good (OpenQuotable fs fp) := by
  have hm : ∀ s ∈ fixedMessages, OpenQuotable fs fp s := fun s h => .message s h
  have hcommit : ∀ db : Database, db.path = fp →
      (∀ u ∈ db.users, ∃ p b d, fs p = some (.file b) ∧ unmarshalDB b = .ok d ∧ u ∈ d.users) →
      (match db.commit nd fs with
        | (_, fs, some e) => (.err (.withE .newDatabase [fp] e), fs)
        | (db, fs, none) => (.ok db, fs) : Res Database × FS).1.Good (OpenQuotable fs fp) ∧
      ∀ db', (match db.commit nd fs with
        | (_, fs, some e) => (.err (.withE .newDatabase [fp] e), fs)
        | (db, fs, none) => (.ok db, fs) : Res Database × FS).1 = .ok db' →
        ∀ u ∈ db'.users, ∃ p b d, fs p = some (.file b) ∧ unmarshalDB b = .ok d ∧ u ∈ d.users := by
    intro db hp hu
    have hc := commit_good (S := OpenQuotable fs fp) nd db fs (hp ▸ .path)
    have hus := commit_users nd db fs
    rcases h : db.commit nd fs with ⟨db1, fs1, _ | e⟩
    · rw [h] at hus
      refine ⟨trivial, fun db' h' u hu' => ?_⟩
      injection h' with h'
      subst h'
      exact hu u (hus ▸ hu')
    · rw [h] at hc
      exact ⟨⟨rfl, by simpa using .path, hc⟩, fun _ h' => by cases h'⟩
  have ho : (Database.openFile nd fs fp).1.Good (OpenQuotable fs fp) ∧
      ∀ db, (Database.openFile nd fs fp).1 = .ok db →
        ∀ u ∈ db.users, ∃ p b d, fs p = some (.file b) ∧ unmarshalDB b = .ok d ∧ u ∈ d.users := by
    unfold Database.openFile
    split
    · exact ⟨⟨rfl, by simpa using .path, trivial⟩, by simp⟩
    split
    · split
      · exact ⟨⟨rfl, by simpa using .path, trivial⟩, by simp⟩
      · refine hcommit _ rfl fun u hu => ?_
        exact absurd hu (by simp [Database.empty, DBData.zero])
    · exact ⟨⟨rfl, by simpa using ⟨.path, hm _ (by decide)⟩⟩, by simp⟩
    · split
      · exact ⟨⟨rfl, by simpa using .path, (readFileBytes_good nd fs fp).of_eq ‹_›⟩, by simp⟩
      · exact ⟨trivial, by simp⟩
      rename_i b hb
      obtain ⟨p, hp⟩ := readFileBytes_from hb
      split
      · exact ⟨⟨rfl, by simpa using .path, (unmarshalDB_good b).of_eq ‹_›⟩, by simp⟩
      · exact ⟨trivial, by simp⟩
      rename_i d hd
      rcases enforceDefaultPolicy d.policy with ⟨policy, changed⟩
      dsimp only
      split
      · exact hcommit _ rfl fun u hu => ⟨p, b, d, hp, hd, hu⟩
      · exact ⟨trivial, fun db h u hu => by injection h with h; subst h; exact ⟨p, b, d, hp, hd, hu⟩⟩
  unfold newDatabase
  split
  · rename_i h
    rw [h] at ho
    exact ho.1
  · trivial
  · rename_i db _ h
    rw [h] at ho
    refine loadUsers_good hm _ _ _ fun u hu s hs => ?_
    obtain ⟨p, b, d, h1, h2, h3⟩ := ho.2 _ rfl u hu
    exact .stored p b d u h1 h2 h3 s hs

end GoIdentity
