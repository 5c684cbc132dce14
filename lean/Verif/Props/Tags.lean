import Verif.Lemmas.Snake
import Verif.Model.Structs
import Verif.Spec.Declared
/-!
# Struct tags: C62, C89
-/
namespace GoIdentity.Tag

/-! ## C62 -/

/-- The field's name starts with an upper-case letter, reading the first byte as a Latin-1 character. -/
def IsExported (f : StructField) : Prop :=
  ∃ b rest, f.name = b :: rest ∧ ((65 ≤ b.toNat ∧ b.toNat ≤ 90) ∨ (192 ≤ b.toNat ∧ b.toNat ≤ 222 ∧ b.toNat ≠ 215))

/-- One tag value is as the options demand. -/
def ValueOk (o : Options) (f : StructField) (v : GoString) : Prop :=
  (v = [] → o.disableTagPresent = true) ∧
  (o.disableTagMismatch = true ∨
    v = convertFieldToTag f.name ++ (if o.disableTagOnEmpty then [] else gs! ",omitempty"))

/-- The tags are as demanded, up to the first that is `-`. -/
def TagsOk (o : Options) (f : StructField) (ts : List GoString) : Prop :=
  ∀ pre t post, ts = pre ++ t :: post → (∀ p ∈ pre, f.tag p ≠ gs! "-") → f.tag t = gs! "-" ∨ ValueOk o f (f.tag t)

theorem checkTags_nil_iff (o : Options) (f : StructField) (ts : List GoString) :
    (checkTags o f ts).1 = [] ↔ TagsOk o f ts := by
  induction ts with
  | nil => simp [checkTags, TagsOk]
  | cons t ts ih =>
    have hcons : TagsOk o f (t :: ts) ↔
        f.tag t = gs! "-" ∨ (f.tag t ≠ gs! "-" ∧ ValueOk o f (f.tag t) ∧ TagsOk o f ts) := by
      constructor
      · intro h
        by_cases hd : f.tag t = gs! "-"
        · exact .inl hd
        · refine .inr ⟨hd, ?_, ?_⟩
          · rcases h [] t ts rfl (by simp) with h | h
            · exact absurd h hd
            · exact h
          · intro pre t' post he hp
            refine h (t :: pre) t' post (by rw [he]; rfl) ?_
            intro p hp'
            rcases List.mem_cons.1 hp' with rfl | hp'
            · exact hd
            · exact hp p hp'
      · rintro (h | ⟨hd, hv, h⟩)
        · intro pre t' post he hp
          cases pre with
          | nil => simp only [List.nil_append, List.cons.injEq] at he; rw [← he.1]; exact .inl h
          | cons p pre =>
            simp only [List.cons_append, List.cons.injEq] at he
            exact absurd (he.1 ▸ h) (hp p (by simp))
        · intro pre t' post he hp
          cases pre with
          | nil => simp only [List.nil_append, List.cons.injEq] at he; rw [← he.1]; exact .inr hv
          | cons p pre =>
            simp only [List.cons_append, List.cons.injEq] at he
            exact h pre t' post he.2 (fun q hq => hp q (by simp [hq]))
    rw [hcons]
    unfold checkTags
    dsimp only
    by_cases hd : f.tag t = gs! "-"
    · simp [hd]
    · rw [if_neg hd]
      by_cases h1 : f.tag t = [] ∧ (!o.disableTagPresent) = true
      · rw [if_pos h1]
        simp only [List.cons_ne_nil, false_iff, not_or, not_and]
        refine ⟨hd, fun _ hv => ?_⟩
        have := hv.1 h1.1
        rw [this] at h1; simp at h1
      · rw [if_neg h1]
        have hexp : expected o f = convertFieldToTag f.name ++ (if o.disableTagOnEmpty then [] else gs! ",omitempty") := by
          unfold expected
          cases o.disableTagOnEmpty <;> rfl
        by_cases h2 : f.tag t ≠ expected o f ∧ (!o.disableTagMismatch) = true
        · rw [if_pos h2]
          simp only [List.cons_ne_nil, false_iff, not_or, not_and]
          refine ⟨hd, fun _ hv => ?_⟩
          rcases hv.2 with h | h
          · rw [h] at h2; simp at h2
          · exact absurd (hexp ▸ h) h2.1
        · rw [if_neg h2, ih]
          have hv : ValueOk o f (f.tag t) := by
            constructor
            · intro h; simp [h] at h1; exact h1
            · rw [← hexp]
              by_cases hm : o.disableTagMismatch = true
              · exact .inl hm
              · right
                by_cases he : f.tag t = expected o f
                · exact he
                · exact absurd ⟨he, by simpa using hm⟩ h2
          simp [hd, hv]

theorem exported_iff (f : StructField) : exported f = true ↔ IsExported f := by
  unfold exported IsExported
  cases hn : f.name with
  | nil => simp
  | cons b rest =>
    simp only [isUpper, Bool.or_eq_true, decide_eq_true_eq, List.cons.injEq]
    constructor
    · intro h; exact ⟨b, rest, ⟨rfl, rfl⟩, by simpa [UInt8.le_iff_toNat_le] using h⟩
    · rintro ⟨b', r', ⟨rfl, _⟩, h⟩; simpa [UInt8.le_iff_toNat_le] using h

theorem checkFields_nil_iff (o : Options) (fs : List StructField) :
    (checkFields o fs).1 = [] ↔ ∀ f ∈ fs, IsExported f → TagsOk o f requiredTags := by
  induction fs with
  | nil => simp [checkFields]
  | cons f fs ih =>
    unfold checkFields
    dsimp only
    by_cases he : exported f = true
    · simp only [he, Bool.not_true, Bool.false_eq_true, if_false, List.append_eq_nil_iff, checkTags_nil_iff, ih,
        List.forall_mem_cons]
      rw [exported_iff] at he
      simp [he]
    · have he' : exported f = false := by simpa using he
      rw [exported_iff] at he
      simp [he', ih, he]

theorem suggestions_need_findings (o : Options) (f : StructField) (ts : List GoString) :
    (checkTags o f ts).1 = [] → (checkTags o f ts).2 = false := by
  induction ts with
  | nil => simp [checkTags]
  | cons t ts ih =>
    unfold checkTags
    dsimp only
    repeat' split
    all_goals simp_all

theorem no_suggestions (o : Options) (fs : List StructField) :
    (checkFields o fs).1 = [] → (checkFields o fs).2 = [] := by
  induction fs with
  | nil => simp [checkFields]
  | cons f fs ih =>
    unfold checkFields
    dsimp only
    split
    · exact ih
    · intro h
      simp only [List.append_eq_nil_iff] at h
      simp [suggestions_need_findings o f _ h.1, ih h.2]

theorem findings_nil_iff (o : Options) (fs : List StructField) :
    findings o fs = [] ↔ ∀ f ∈ fs, IsExported f → TagsOk o f requiredTags := by
  rw [← checkFields_nil_iff]
  unfold findings
  dsimp only
  constructor
  · intro h
    split at h
    · simp at h
    · exact h
  · intro h
    simp [no_suggestions _ _ h, h]

/-- C62: the check succeeds exactly if it is disabled, or the resource is a struct all of whose exported fields carry the
demanded json, xml and yaml tags, up to the first that is `-`; and success comes without output. -/
theorem C62_compliance_iff (r : Resource) (opts : Option Options) (out : List GoString) :
    getTagCompliance r opts = some (out, none) ↔
      out = [] ∧ ((opts.getD {}).disabled = true ∨
      ∃ name fs, r = .struct name fs ∧
        ∀ f ∈ fs, IsExported f → TagsOk (opts.getD {}) f [gs! "json", gs! "xml", gs! "yaml"]) := by
  unfold getTagCompliance
  dsimp only
  by_cases hd : (opts.getD {}).disabled = true
  · simp [hd, eq_comm]
  · rw [if_neg hd, or_iff_right hd]
    cases r with
    | other => simp
    | noElem => simp
    | struct name fs =>
      have hreq : requiredTags = [gs! "json", gs! "xml", gs! "yaml"] := rfl
      simp only [Resource.struct.injEq, ← hreq]
      have : (∃ n l, (name = n ∧ fs = l) ∧ ∀ f ∈ l, IsExported f → TagsOk (opts.getD {}) f requiredTags) ↔
          findings (opts.getD {}) fs = [] := by
        rw [findings_nil_iff]
        exact ⟨fun ⟨_, _, ⟨_, h⟩, h2⟩ => h ▸ h2, fun h => ⟨_, _, ⟨rfl, rfl⟩, h⟩⟩
      rw [this]
      cases findings (opts.getD {}) fs with
      | nil => simp [eq_comm]
      | cons a l => simp

/-- C62: otherwise the error names the struct and there is output; the check panics only on a resource without element type. -/
theorem C62_failure (r : Resource) (opts : Option Options) :
    (getTagCompliance r opts = none ↔ r = .noElem ∧ (opts.getD {}).disabled = false) ∧
    ∀ name fs out e, r = .struct name fs → getTagCompliance r opts = some (out, some e) →
      out ≠ [] ∧ e = gs! "struct \"" ++ name ++ gs! "\" is not compliant" := by
  unfold getTagCompliance
  dsimp only
  constructor
  · by_cases hd : (opts.getD {}).disabled = true
    · simp [hd]
    · rw [if_neg hd]
      cases r <;> simp [hd]
  · rintro name fs out e rfl h
    split at h
    · simp at h
    · dsimp only at h
      cases hf : findings (opts.getD {}) fs with
      | nil => rw [hf] at h; simp at h
      | cons a l =>
        rw [hf] at h
        simp only [List.map_cons, List.length_cons, Nat.zero_lt_succ, gt_iff_lt, if_true, Option.some.injEq, Prod.mk.injEq] at h
        obtain ⟨rfl, rfl⟩ := h
        exact ⟨by simp, by simp [quote]⟩

example :
    let f : StructField := same (gs! "ID") (gs! "string") (gs! "id,omitempty")
    let g : StructField := bare (gs! "secret") (gs! "string")
    let bad : StructField := three (gs! "UserName") (gs! "*identity.Name") (gs! "username,omitempty") [] []
    getTagCompliance (.struct (gs! "S") [f, g]) none = some ([], none) ∧
    getTagCompliance (.struct (gs! "S") [f, bad]) none = some
      ([gs! "tag \"json\" mismatch found in S.UserName (*identity.Name): username,omitempty (actual) vs. user_name,omitempty (expected)",
        gs! "tag \"xml\" not found in S.UserName (*identity.Name)",
        gs! "tag \"yaml\" not found in S.UserName (*identity.Name)",
        gs! "suggested struct changes to S:\nUserName *Name `json:\"user_name,omitempty\" xml:\"user_name,omitempty\" yaml:\"user_name,omitempty\"`"],
       some (gs! "struct \"S\" is not compliant")) := by
  decide +kernel

/-! ## C89 -/

/-- An ASCII identifier: letters, digits and underscores. -/
def Identifier (s : GoString) : Prop := ∀ b ∈ s, identByte b = true

/-- C89: `ToSnake` writes no upper-case letter, and what it writes it would not change again. -/
theorem C89_snake_normal (s : GoString) :
    (∀ b ∈ toSnake s, ¬ (65 ≤ b.toNat ∧ b.toNat ≤ 90)) ∧ (Identifier s → toSnake (toSnake s) = toSnake s) := by
  constructor
  · intro b hb h
    have := snakeBytes_not_upper none (trimSpace s) b hb
    simp only [isUpper, decide_eq_false_iff_not] at this
    exact this h
  · intro h
    unfold toSnake
    rw [ident_clear h, ident_clear (snakeBytes_ident h none), snakeBytes_snaky (snakeBytes_is_snaky _ _)]

/-- C89: the tag derived from a field name consists of the letters and digits of the name, in lower case and in order, and of
underscores. -/
theorem C89_tag_spells_the_name {s : GoString} (h : Identifier s) :
    (convertFieldToTag s).filter (· != 95) = (s.map lowerByte).filter (· != 95) ∧
    ∀ b ∈ convertFieldToTag s, ¬ (65 ≤ b.toNat ∧ b.toNat ≤ 90) := by
  constructor
  · unfold convertFieldToTag
    rw [replaceAll_filter (by decide), replaceAll_filter (by decide)]
    unfold toSnake
    rw [ident_clear h, snakeBytes_filter]
    refine List.filter_congr ?_
    intro b hb
    obtain ⟨v, hv, rfl⟩ := List.mem_map.1 hb
    have := h v hv
    revert this
    exact forall_bytes (P := fun v => identByte v = true → (!sepByte (lowerByte v)) = (lowerByte v != 95)) (by decide +kernel) v
  · intro b hb hu
    unfold convertFieldToTag replaceAll at hb
    have hno : ∀ x ∈ (gs! "openssh") ++ gs! "_md5", ¬ (65 ≤ x.toNat ∧ x.toNat ≤ 90) := by decide
    rcases replaceAllAux_mem hb with hb | hb
    · exact hno b (by simp only [List.mem_append]; exact .inl hb) hu
    · rcases replaceAllAux_mem hb with hb | hb
      · exact hno b (by simp only [List.mem_append]; exact .inr hb) hu
      · exact (C89_snake_normal s).1 b hb hu

/-- C89: so fields get the same tag only if their names agree up to case and underscores. -/
theorem C89_same_tag {s t : GoString} (hs : Identifier s) (ht : Identifier t) (h : convertFieldToTag s = convertFieldToTag t) :
    (s.map lowerByte).filter (· != 95) = (t.map lowerByte).filter (· != 95) := by
  rw [← (C89_tag_spells_the_name hs).1, ← (C89_tag_spells_the_name ht).1, h]

/-- C89: a field tagged as the suggestion says passes the check (if its name is an identifier that starts with a letter). -/
theorem C89_suggestion_complies (o : Options) {f : StructField} (hn : Identifier f.name) (he : IsExported f)
    (h : ∀ t ∈ requiredTags, f.tag t = expected o f) : TagsOk o f requiredTags := by
  have hne : convertFieldToTag f.name ≠ [] ∧ convertFieldToTag f.name ≠ gs! "-" := by
    obtain ⟨b, rest, hb, hu⟩ := he
    have hi := hn b (by rw [hb]; simp)
    have h2 := (C89_tag_spells_the_name hn).1
    rw [hb] at h2
    have h3 : lowerByte b ≠ 95 ∧ lowerByte b ≠ 45 := by
      exact forall_bytes (P := fun b => identByte b = true →
        ((65 ≤ b.toNat ∧ b.toNat ≤ 90) ∨ (192 ≤ b.toNat ∧ b.toNat ≤ 222 ∧ b.toNat ≠ 215)) → lowerByte b ≠ 95 ∧ lowerByte b ≠ 45)
        (by decide +kernel) b hi hu
    rw [List.map_cons, List.filter_cons, if_pos (by simpa using h3.1)] at h2
    rw [hb]
    constructor
    · intro hc; rw [hc] at h2; cases h2
    · intro hc; rw [hc] at h2
      have : (45 : UInt8) = lowerByte b := (List.cons.inj h2).1
      exact h3.2 this.symm
  have hexp : expected o f = convertFieldToTag f.name ++ (if o.disableTagOnEmpty then [] else gs! ",omitempty") := by
    unfold expected
    cases o.disableTagOnEmpty <;> rfl
  intro pre t post hts _
  right
  rw [h t (by rw [hts]; simp)]
  constructor
  · intro hc; rw [hexp] at hc; exact absurd (List.append_eq_nil_iff.1 hc).1 hne.1
  · right; exact hexp

/-- C89: every struct of the repository passes the check, with the options its test suite uses. -/
theorem C89_declared_structs_comply :
    ∀ d ∈ declared, getTagCompliance (.struct d.1.name d.1.fields) (some d.2) = some ([], none) := by
  decide +kernel

/-- The name in a json tag. -/
def jsonName (f : StructField) : GoString := (f.tag (gs! "json")).takeWhile (· != 44)

/-- The json names of the exported fields. -/
def Declared.jsonNames (d : Declared) : List GoString :=
  (d.fields.filter fun f => exported f && f.tag (gs! "json") != gs! "-").map jsonName

/-- C89: the names in the stored file and in the WebAuthn documents are those of the tags, in the order of the declaration. -/
theorem C89_file_uses_the_tags :
    dbFields.map (·.name) = tDatabase.jsonNames ∧ policyFields.map (·.name) = tPolicy.jsonNames ∧
    passwordPolicyFields.map (·.name) = tPasswordPolicy.jsonNames ∧ userPolicyFields.map (·.name) = tUserPolicy.jsonNames ∧
    userFields.map (·.name) = tUser.jsonNames ∧ nameFields.map (·.name) = tName.jsonNames ∧
    organizationFields.map (·.name) = tOrganization.jsonNames ∧ locationFields.map (·.name) = tLocation.jsonNames ∧
    emailFields.map (·.name) = tEmailAddress.jsonNames ∧ passwordFields.map (·.name) = tPassword.jsonNames ∧
    publicKeyFields.map (·.name) = tPublicKey.jsonNames ∧ apiKeyFields.map (·.name) = tAPIKey.jsonNames ∧
    mfaTokenFields.map (·.name) = tMfaToken.jsonNames ∧ mfaDeviceFields.map (·.name) = tMfaDevice.jsonNames ∧
    lockoutFields.map (·.name) = tLockoutState.jsonNames ∧ imageFields.map (·.name) = tImage.jsonNames ∧
    roleFields.map (·.name) = tRole.jsonNames ∧ clientDataFields.map (·.name) = tClientData.jsonNames ∧
    credentialDataFields.map (·.name) = tCredentialData.jsonNames ∧ authDataFields.map (·.name) = tAuthData.jsonNames ∧
    attestationStatementFields.map (·.name) = tAttestationStatement.jsonNames ∧
    attestationObjectFields.map (·.name) = tAttestationObject.jsonNames ∧ deviceFields.map (·.name) = tDevice.jsonNames ∧
    registerRequestFields.map (·.name) = tWebAuthnRegisterRequest.jsonNames ∧
    authenticateRequestFields.map (·.name) = tWebAuthnAuthenticateRequest.jsonNames := by
  decide +kernel

/-- The json names of the fields that are written even if they are zero: those without `omitempty`, and structs. -/
def Declared.always (d : Declared) : List GoString :=
  (d.fields.filter fun f => exported f && (f.tag (gs! "json") == jsonName f ||
    [gs! "time.Time", gs! "identity.Policy", gs! "identity.PasswordPolicy", gs! "identity.UserPolicy", gs! "image.Config"].contains
      f.type)).map jsonName

/-- C89: and what is left out when empty is what is tagged `omitempty` and no struct. -/
theorem C89_file_omits_what_is_tagged :
    (encMembers dbFields DBData.zero).map (·.1) = tDatabase.always ∧
    (encMembers policyFields Policy.zero).map (·.1) = tPolicy.always ∧
    (encMembers passwordPolicyFields Policy.zero.password).map (·.1) = tPasswordPolicy.always ∧
    (encMembers userPolicyFields Policy.zero.user).map (·.1) = tUserPolicy.always ∧
    (encMembers userFields User.zero).map (·.1) = tUser.always ∧ (encMembers nameFields Name.zero).map (·.1) = tName.always ∧
    (encMembers organizationFields Organization.zero).map (·.1) = tOrganization.always ∧
    (encMembers locationFields Location.zero).map (·.1) = tLocation.always ∧
    (encMembers emailFields EmailAddress.zero).map (·.1) = tEmailAddress.always ∧
    (encMembers passwordFields Password.zero).map (·.1) = tPassword.always ∧
    (encMembers publicKeyFields PublicKey.zero).map (·.1) = tPublicKey.always ∧
    (encMembers apiKeyFields APIKey.zero).map (·.1) = tAPIKey.always ∧
    (encMembers mfaTokenFields MfaToken.zero).map (·.1) = tMfaToken.always ∧
    (encMembers mfaDeviceFields MfaDevice.zero).map (·.1) = tMfaDevice.always ∧
    (encMembers lockoutFields LockoutState.zero).map (·.1) = tLockoutState.always ∧
    (encMembers imageFields Image.zero).map (·.1) = tImage.always ∧
    (encMembers roleFields Role.zero).map (·.1) = tRole.always := by
  decide +kernel

example : convertFieldToTag (gs! "FingerprintMD5") = gs! "fingerprint_md5" ∧ convertFieldToTag (gs! "OpenSSH") = gs! "openssh" ∧
    convertFieldToTag (gs! "ClientDataEncoded") = gs! "client_data_encoded" ∧ toSnake (gs! "JSONData2x") = gs! "json_data_2_x" ∧
    tUser.always = [gs! "created", gs! "last_modified"] := by
  decide +kernel

end GoIdentity.Tag
