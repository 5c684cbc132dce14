import Verif.Lemmas.Nulls
import Verif.Lemmas.Registration
/-!
# Documents with nulls are read back as they were written
-/
set_option linter.unusedSectionVars false
namespace GoIdentity
variable [Ext]

section
variable {σ τ : Type} {name : GoString} {x s : σ} {n : Nat}

theorem decSlots_enc {fs : List (Field τ)} {zero : τ} {l : List (Option τ)} (h : ∀ v, some v ∈ l → RoundTrip fs zero v v) :
    decSlots fs zero (l.map (encSlot fs)) = .ok l ∧ Json.cleanElems (l.map (encSlot fs)) = l.map (encSlot fs) := by
  induction l with
  | nil => exact ⟨rfl, rfl⟩
  | cons v l ih =>
    obtain ⟨h1, h2⟩ := ih fun w hw => h w (by simp [hw])
    rw [List.map_cons, Json.cleanElems, h2]
    cases v with
    | none =>
      refine ⟨?_, by simp [encSlot, Json.clean]⟩
      rw [encSlot, decSlots, h1]
    | some v =>
      obtain ⟨h3, h4⟩ := h v (by simp)
      refine ⟨?_, by rw [encSlot, h4]⟩
      have e : decSlots fs zero (encStruct fs v :: l.map (encSlot fs)) = (match decStruct fs (encStruct fs v) zero with
          | .ok x => (match decSlots fs zero (l.map (encSlot fs)) with | .ok xs => .ok (some x :: xs) | .err e => .err e | .panic => .panic)
          | .err e => .err e
          | .panic => .panic) := rfl
      rw [encSlot, e, h3, h1]

theorem step_fSlots {fs : List (Field τ)} {zero : τ} {get : σ → List (Option τ)} {set : σ → List (Option τ) → σ}
    (h : ∀ v, some v ∈ get x → RoundTrip fs zero v v) (h0 : set s [] = s) :
    Step (fSlots name fs zero get set) x s (set s (get x)) := by
  by_cases hx : get x = []
  · left; rw [hx]; exact ⟨by simp [fSlots, hx], h0⟩
  · right
    obtain ⟨h1, h2⟩ := decSlots_enc h
    refine ⟨.arr ((get x).map (encSlot fs)), by simp [fSlots, hx], by rw [Json.clean, h2], ?_⟩
    simp only [fSlots, h1]

theorem ints_fSlots {fs : List (Field τ)} {z : τ} {get : σ → List (Option τ)} {set : σ → List (Option τ) → σ} (hs : AllInts fs) :
    (fSlots name fs z get set).Ints := by
  intro x j h
  simp only [fSlots] at h
  split at h
  · simp at h
  · simp only [Option.some.injEq] at h
    subst h
    rw [Json.IntNums]
    generalize get x = l
    induction l with
    | nil => rw [List.map_nil, Json.IntNumsElems]; trivial
    | cons a l ih =>
      rw [List.map_cons, Json.IntNumsElems]
      refine ⟨?_, ih⟩
      cases a with
      | none => simp [encSlot, Json.IntNums]
      | some a => exact encStruct_ints hs _

theorem flat_fSlots {fs : List (Field τ)} {z : τ} {get : σ → List (Option τ)} {set : σ → List (Option τ) → σ} (hn : 2 ≤ n)
    (hs : AllFlat (n - 2) fs) : (fSlots name fs z get set).Flat n := by
  intro x j h
  simp only [fSlots] at h
  split at h
  · simp at h
  · simp only [Option.some.injEq] at h
    subst h
    rw [Json.depth]
    suffices H : ∀ l : List (Option τ), Json.depthElems (l.map (encSlot fs)) ≤ n - 1 by have := H (get x); omega
    intro l
    induction l with
    | nil => rw [List.map_nil, Json.depthElems]; exact Nat.zero_le _
    | cons a l ih =>
      rw [List.map_cons, Json.depthElems]
      refine Nat.max_le.2 ⟨?_, ih⟩
      cases a with
      | none => simp [encSlot, Json.depth]
      | some a => have := encStruct_flat hs a; rw [encSlot]; omega
end

theorem nullUser_roundTrip {x : NullUser} (h : x.Ok) : RoundTrip nullUserFields .zero x x := by
  have key : RoundTrip nullUserFields .zero x
      { x with rest := { x.rest with names := [], organizations := [], streetAddress := [], emailAddresses := [], passwords := [],
                                     publicKeys := [], apiKeys := [], mfaTokens := [], roles := [] } } := by
    have hr := h.rest
    refine chain_roundTrip (by decide) ?_
    unfold nullUserFields NullUser.zero User.zero
    step (step_fStr hr.id rfl)
    step (step_fBool rfl)
    step (step_fBool rfl)
    step (step_fStr hr.username rfl)
    step (step_fStr hr.title rfl)
    step (step_fPtr (fun a ha => name_roundTrip (hr.name a ha)) rfl rfl)
    step (step_fPtr (fun a ha => organization_roundTrip (hr.organization a ha)) rfl rfl)
    step (step_fSlots (fun a ha => name_roundTrip (h.names a ha)) rfl)
    step (step_fSlots (fun a ha => organization_roundTrip (h.organizations a ha)) rfl)
    step (step_fSlots (fun a ha => location_roundTrip (h.streetAddress a ha)) rfl)
    step (step_fPtr (fun a ha => email_roundTrip (hr.emailAddress a ha)) rfl rfl)
    step (step_fSlots (fun a ha => email_roundTrip (h.emailAddresses a ha)) rfl)
    step (step_fSlots (fun a ha => password_roundTrip (h.passwords a ha)) rfl)
    step (step_fSlots (fun a ha => publicKey_roundTrip (h.publicKeys a ha)) rfl)
    step (step_fSlots (fun a ha => apiKey_roundTrip (h.apiKeys a ha)) rfl)
    step (step_fSlots (fun a ha => mfaToken_roundTrip (h.mfaTokens a ha)) rfl)
    step (step_fPtr (fun a ha => lockout_roundTrip (hr.lockout a ha)) rfl rfl)
    step (step_fPtr (fun a ha => image_roundTrip (hr.avatar a ha)) rfl rfl)
    step (step_fTime hr.created)
    step (step_fTime hr.lastModified)
    step (step_fInt hr.revision rfl)
    step (step_fSlots (fun a ha => role_roundTrip (h.roles a ha)) rfl)
    exact .nil _
  rw [← h.lists] at key
  exact key

theorem nullData_roundTrip {x : NullData} (h : x.Ok) : RoundTrip nullFields .zero x x := by
  refine chain_roundTrip (by decide) ?_
  unfold nullFields NullData.zero
  step (step_fStr h.version rfl)
  step (step_fStruct (policy_roundTrip h.policy _))
  step (step_fUint h.revision rfl)
  step (step_fTime h.lastModified)
  step (step_fSlots (fun u hu => nullUser_roundTrip (h.users u hu)) rfl)
  exact .nil _

theorem ints_nullUser : AllInts nullUserFields :=
  allInts_cons ints_fStr <| allInts_cons ints_fBool <| allInts_cons ints_fBool <| allInts_cons ints_fStr <|
  allInts_cons ints_fStr <| allInts_cons (ints_fPtr ints_name) <| allInts_cons (ints_fPtr ints_organization) <|
  allInts_cons (ints_fSlots ints_name) <| allInts_cons (ints_fSlots ints_organization) <|
  allInts_cons (ints_fSlots ints_location) <| allInts_cons (ints_fPtr ints_email) <| allInts_cons (ints_fSlots ints_email) <|
  allInts_cons (ints_fSlots ints_password) <| allInts_cons (ints_fSlots ints_publicKey) <|
  allInts_cons (ints_fSlots ints_apiKey) <| allInts_cons (ints_fSlots ints_mfaToken) <|
  allInts_cons (ints_fPtr ints_lockout) <| allInts_cons (ints_fPtr ints_image) <| allInts_cons ints_fTime <|
  allInts_cons ints_fTime <| allInts_cons ints_fInt <| allInts_cons (ints_fSlots ints_role) <| allInts_nil

theorem flat_nullUser {n : Nat} (h : 3 ≤ n) : AllFlat n nullUserFields :=
  allFlat_cons flat_fStr <| allFlat_cons flat_fBool <| allFlat_cons flat_fBool <| allFlat_cons flat_fStr <|
  allFlat_cons flat_fStr <| allFlat_cons (flat_fPtr (by omega) flat_name) <| allFlat_cons (flat_fPtr (by omega) (flat_organization (by omega))) <|
  allFlat_cons (flat_fSlots (by omega) flat_name) <| allFlat_cons (flat_fSlots (by omega) (flat_organization (by omega))) <|
  allFlat_cons (flat_fSlots (by omega) flat_location) <| allFlat_cons (flat_fPtr (by omega) flat_email) <| allFlat_cons (flat_fSlots (by omega) flat_email) <|
  allFlat_cons (flat_fSlots (by omega) flat_password) <| allFlat_cons (flat_fSlots (by omega) flat_publicKey) <|
  allFlat_cons (flat_fSlots (by omega) flat_apiKey) <| allFlat_cons (flat_fSlots (by omega) (flat_mfaToken (by omega))) <|
  allFlat_cons (flat_fPtr (by omega) flat_lockout) <| allFlat_cons (flat_fPtr (by omega) (flat_image (by omega))) <| allFlat_cons flat_fTime <|
  allFlat_cons flat_fTime <| allFlat_cons flat_fInt <| allFlat_cons (flat_fSlots (by omega) flat_role) <| allFlat_nil

theorem ints_null : AllInts nullFields :=
  allInts_cons ints_fStr <| allInts_cons (ints_fStruct ints_policy) <| allInts_cons ints_fUint <| allInts_cons ints_fTime <|
  allInts_cons (ints_fSlots ints_nullUser) <| allInts_nil

theorem flat_null {n : Nat} (h : 5 ≤ n) : AllFlat n nullFields :=
  allFlat_cons flat_fStr <| allFlat_cons (flat_fStruct (by omega) (flat_policy (by omega))) <| allFlat_cons flat_fUint <| allFlat_cons flat_fTime <|
  allFlat_cons (flat_fSlots (by omega) (flat_nullUser (by omega))) <| allFlat_nil

theorem unmarshalNull_marshal {d : NullData} (h : d.Ok) : unmarshalNull (marshalNull d) = .ok d :=
  unmarshal_render (nullData_roundTrip h) ints_null (flat_null (by omega))

end GoIdentity
