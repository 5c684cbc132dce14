import Verif.Model.Structs
import Verif.Lemmas.JsonPrefix
import Verif.Lemmas.TimeText
/-!
# Encoding and decoding structs
-/
namespace GoIdentity

/-! ## Numbers -/

theorem all_isDigit {s : GoString} : s.all isDigit = true ↔ ∀ b ∈ s, IsDigit b := by
  rw [List.all_eq_true]
  exact ⟨fun h b hb => isDigit_iff.1 (h b hb), fun h b hb => isDigit_iff.2 (h b hb)⟩

theorem parseUintLit_natDec {bound n : Nat} (h : n < bound) : parseUintLit bound (natDec n) = some n := by
  obtain ⟨h1, h2, h3, _⟩ := natDec_spec n
  unfold parseUintLit
  rw [h2, if_pos ⟨h3, all_isDigit.2 h1, h⟩]

theorem parseIntLit_intDec {n : Int} (h : Int64 n) : parseIntLit (intDec n) = some n := by
  obtain ⟨hlo, hhi⟩ := h
  obtain ⟨h1, h2, h3, _⟩ := natDec_spec n.natAbs
  unfold intDec
  split
  · rename_i hneg
    simp only [parseIntLit, if_true]
    rw [h2, if_pos ⟨h3, all_isDigit.2 h1, by omega⟩]
    simp only [Option.some.injEq]
    omega
  · rename_i hneg
    obtain ⟨b, t, he, hb⟩ := natDec_cons n.natAbs
    have h45 : b ≠ 45 := by rintro rfl; exact absurd hb (by decide)
    rw [he] at h1 h2 ⊢
    simp only [parseIntLit, if_neg h45]
    rw [if_pos ⟨all_isDigit.2 h1, by rw [h2]; omega⟩, h2]
    simp only [Option.some.injEq]
    omega

theorem intDec_natCast (n : Nat) : intDec n = natDec n := by
  unfold intDec
  rw [if_neg (by omega)]
  rfl

/-! ## One field -/

/-- Writing a field of `x` and reading it into `s` gives `s'`. -/
def Step {σ : Type} (f : Field σ) (x s s' : σ) : Prop :=
  (f.enc x = none ∧ s' = s) ∨ ∃ j, f.enc x = some j ∧ j.clean = j ∧ f.dec j s = .ok s'

section
variable {σ τ : Type} {name : GoString} {x s : σ}

theorem step_fStr {get : σ → GoString} {set : σ → GoString → σ} (hv : Utf8 (get x)) (h0 : set s [] = s) :
    Step (fStr name get set) x s (set s (get x)) := by
  by_cases h : get x = []
  · left; rw [h]; exact ⟨by simp [fStr, h], h0⟩
  · right
    exact ⟨.str (get x), by simp [fStr, h], by rw [Json.clean, cleanStr_valid hv], rfl⟩

theorem step_fBool {get : σ → Bool} {set : σ → Bool → σ} (h0 : set s false = s) :
    Step (fBool name get set) x s (set s (get x)) := by
  by_cases h : get x = false
  · left; rw [h]; exact ⟨by simp [fBool, h], h0⟩
  · right
    exact ⟨.bool (get x), by simp [fBool, h], by simp [Json.clean], rfl⟩

theorem step_fBoolAlways {get : σ → Bool} {set : σ → Bool → σ} : Step (fBoolAlways name get set) x s (set s (get x)) :=
  .inr ⟨.bool (get x), rfl, by simp [Json.clean], rfl⟩

theorem step_fInt {get : σ → Int} {set : σ → Int → σ} (hv : Int64 (get x)) (h0 : set s 0 = s) :
    Step (fInt name get set) x s (set s (get x)) := by
  by_cases h : get x = 0
  · left; rw [h]; exact ⟨by simp [fInt, h], h0⟩
  · right
    exact ⟨.num (intDec (get x)), by simp [fInt, h], by simp [Json.clean], by simp [fInt, decInt, parseIntLit_intDec hv]⟩

theorem step_fIntAlways {get : σ → Int} {set : σ → Int → σ} (hv : Int64 (get x)) :
    Step (fIntAlways name get set) x s (set s (get x)) :=
  .inr ⟨.num (intDec (get x)), rfl, by simp [Json.clean], by simp [fIntAlways, decInt, parseIntLit_intDec hv]⟩

theorem step_fUint {bound : Nat} {get : σ → Nat} {set : σ → Nat → σ} (hv : get x < bound) (h0 : set s 0 = s) :
    Step (fUint bound name get set) x s (set s (get x)) := by
  by_cases h : get x = 0
  · left; rw [h]; exact ⟨by simp [fUint, h], h0⟩
  · right
    exact ⟨.num (natDec (get x)), by simp [fUint, h], by simp [Json.clean], by simp [fUint, decUint, parseUintLit_natDec hv]⟩

theorem step_fTime {get : σ → GoTime} {set : σ → GoTime → σ} (hv : (get x).Ok) :
    Step (fTime name get set) x s (set s (get x)) :=
  .inr ⟨.str (fmtTime (get x)), rfl, by rw [Json.clean, cleanStr_valid (fmtTime_valid _)],
    by simp [fTime, parseTime_fmt hv]⟩

/-- The struct value `v`, encoded and decoded into `z`, gives `v'`. -/
def RoundTrip (fs : List (Field τ)) (z v v' : τ) : Prop :=
  decStruct fs (encStruct fs v) z = .ok v' ∧ (encStruct fs v).clean = encStruct fs v

theorem step_fStruct {fs : List (Field τ)} {get : σ → τ} {set : σ → τ → σ} {v : τ} (h : RoundTrip fs (get s) (get x) v) :
    Step (fStruct name fs get set) x s (set s v) :=
  .inr ⟨encStruct fs (get x), rfl, h.2, by simp [fStruct, h.1]⟩

theorem step_fPtr {fs : List (Field τ)} {zero : τ} {get : σ → Option τ} {set : σ → Option τ → σ}
    (h : ∀ v, get x = some v → RoundTrip fs zero v v) (hs : get s = none) (h0 : set s none = s) :
    Step (fPtr name fs zero get set) x s (set s (get x)) := by
  cases hx : get x with
  | none => left; exact ⟨by simp [fPtr, hx], h0⟩
  | some v =>
    right
    obtain ⟨h1, h2⟩ := h v hx
    refine ⟨encStruct fs v, by simp [fPtr, hx], h2, ?_⟩
    unfold encStruct at h1 ⊢
    simp only [fPtr, hs, Option.getD_none, h1]

theorem decElems_enc {fs : List (Field τ)} {zero : τ} {l : List τ} (h : ∀ v ∈ l, RoundTrip fs zero v v) :
    decElems fs zero (l.map (encStruct fs)) = .ok l ∧
    Json.cleanElems (l.map (encStruct fs)) = l.map (encStruct fs) := by
  induction l with
  | nil => exact ⟨rfl, rfl⟩
  | cons v l ih =>
    obtain ⟨h1, h2⟩ := h v (by simp)
    obtain ⟨h3, h4⟩ := ih fun w hw => h w (by simp [hw])
    refine ⟨?_, by rw [List.map_cons, Json.cleanElems, h2, h4]⟩
    unfold encStruct at h1 h3
    rw [List.map_cons]
    unfold encStruct
    rw [decElems]
    · simp only [h1, h3]
    · simp

theorem step_fList {fs : List (Field τ)} {zero : τ} {get : σ → List τ} {set : σ → List τ → σ}
    (h : ∀ v ∈ get x, RoundTrip fs zero v v) (h0 : set s [] = s) :
    Step (fList name fs zero get set) x s (set s (get x)) := by
  by_cases hx : get x = []
  · left; rw [hx]; exact ⟨by simp [fList, hx], h0⟩
  · right
    obtain ⟨h1, h2⟩ := decElems_enc h
    refine ⟨.arr ((get x).map (encStruct fs)), by simp [fList, hx], by rw [Json.clean, h2], ?_⟩
    simp only [fList, h1]

theorem decStrs_enc (l : List GoString) : decStrs (l.map .str) = .ok l := by
  induction l with
  | nil => rfl
  | cons v l ih => rw [List.map_cons, decStrs, ih]

theorem cleanElems_strs {l : List GoString} (h : ∀ v ∈ l, Utf8 v) : Json.cleanElems (l.map .str) = l.map .str := by
  induction l with
  | nil => rfl
  | cons v l ih =>
    rw [List.map_cons, Json.cleanElems, Json.clean, cleanStr_valid (h v (by simp)), ih fun w hw => h w (by simp [hw])]

theorem step_fStrs {get : σ → List GoString} {set : σ → List GoString → σ} (h : ∀ v ∈ get x, Utf8 v) (h0 : set s [] = s) :
    Step (fStrs name get set) x s (set s (get x)) := by
  by_cases hx : get x = []
  · left; rw [hx]; exact ⟨by simp [fStrs, hx], h0⟩
  · right
    refine ⟨.arr ((get x).map .str), by simp [fStrs, hx], by rw [Json.clean, cleanElems_strs h], ?_⟩
    simp only [fStrs, decStrs_enc]

/-! ### Maps -/

theorem bytesLt_irrefl (a : GoString) : bytesLt a a = false := by
  induction a with
  | nil => rfl
  | cons b a ih => simp [bytesLt, ih]

theorem bytesLt_asymm {a b : GoString} (h : bytesLt a b = true) : bytesLt b a = false := by
  induction a generalizing b with
  | nil => cases b <;> simp_all [bytesLt]
  | cons x a ih =>
    cases b with
    | nil => simp [bytesLt] at h
    | cons y b =>
      simp only [bytesLt, Bool.or_eq_true, decide_eq_true_eq, Bool.and_eq_true, beq_iff_eq, Bool.or_eq_false_iff,
        decide_eq_false_iff_not, Bool.and_eq_false_iff] at h ⊢
      rcases h with h | ⟨rfl, h⟩
      · refine ⟨by omega, .inl ?_⟩
        rw [beq_eq_false_iff_ne]
        rintro rfl
        omega
      · exact ⟨by omega, .inr (ih h)⟩

theorem mapInsert_last {α : Type} {k : GoString} {v : α} {m : List (GoString × α)} (h : ∀ p ∈ m, bytesLt p.1 k = true) :
    mapInsert k v m = m ++ [(k, v)] := by
  induction m with
  | nil => rfl
  | cons p m ih =>
    obtain ⟨k', v'⟩ := p
    have hp := h (k', v') (by simp)
    have hne : k ≠ k' := by
      rintro rfl
      rw [bytesLt_irrefl] at hp
      simp at hp
    have hlt : bytesLt k k' = false := bytesLt_asymm hp
    rw [mapInsert, if_neg hne, if_neg (by simp [hlt]), ih fun p hp => h p (by simp [hp])]
    rfl

theorem decMap_enc {α : Type} {encElem : α → Json} {elem : Json → Res α} {m : List (GoString × α)}
    (he : ∀ p ∈ m, elem (encElem p.2) = .ok p.2) (ho : m.Pairwise fun a b => bytesLt a.1 b.1 = true)
    {acc : List (GoString × α)} (ha : ∀ a ∈ acc, ∀ p ∈ m, bytesLt a.1 p.1 = true) :
    decMap elem (m.map fun kv => (kv.1, encElem kv.2)) acc = .ok (acc ++ m) := by
  induction m generalizing acc with
  | nil => simp [decMap]
  | cons p m ih =>
    rw [List.pairwise_cons] at ho
    rw [List.map_cons, decMap, he p (by simp)]
    dsimp only
    rw [mapInsert_last fun a h => ha a h p (by simp), ih (fun q hq => he q (by simp [hq])) ho.2]
    · simp
    · intro a h q hq
      rcases List.mem_append.1 h with h | h
      · exact ha a h q (by simp [hq])
      · simp only [List.mem_singleton] at h
        subst h
        exact ho.1 q hq

theorem cleanMembers_map {α : Type} {encElem : α → Json} {m : List (GoString × α)}
    (h : ∀ p ∈ m, Utf8 p.1 ∧ (encElem p.2).clean = encElem p.2) :
    Json.cleanMembers (m.map fun kv => (kv.1, encElem kv.2)) = m.map fun kv => (kv.1, encElem kv.2) := by
  induction m with
  | nil => rfl
  | cons p m ih =>
    obtain ⟨h1, h2⟩ := h p (by simp)
    rw [List.map_cons, Json.cleanMembers, cleanStr_valid h1, h2, ih fun q hq => h q (by simp [hq])]

theorem step_fMap {α : Type} {encElem : α → Json} {elem : Json → Res α} {get : σ → List (GoString × α)}
    {set : σ → List (GoString × α) → σ}
    (h : ∀ p ∈ get x, Utf8 p.1 ∧ (encElem p.2).clean = encElem p.2 ∧ elem (encElem p.2) = .ok p.2)
    (ho : (get x).Pairwise fun a b => bytesLt a.1 b.1 = true) (hs : get s = []) (h0 : set s [] = s) :
    Step (fMap name encElem elem get set) x s (set s (get x)) := by
  by_cases hx : get x = []
  · left; rw [hx]; exact ⟨by simp [fMap, hx], h0⟩
  · right
    refine ⟨.obj ((get x).map fun kv => (kv.1, encElem kv.2)), by simp [fMap, hx], ?_, ?_⟩
    · rw [Json.clean, cleanMembers_map fun p hp => ⟨(h p hp).1, (h p hp).2.1⟩]
    · simp only [fMap, hs]
      rw [decMap_enc (fun p hp => (h p hp).2.2) ho (by simp)]
      rfl

end

/-! ## Structs -/

theorem findField_mem {σ : Type} {fs : List (Field σ)} (hn : (fs.map (·.name)).Nodup) {f : Field σ} (hf : f ∈ fs) :
    findField fs f.name = some f := by
  unfold findField
  have : fs.find? (fun g => g.name == f.name) = some f := by
    induction fs with
    | nil => simp at hf
    | cons g fs ih =>
      rw [List.map_cons, List.nodup_cons] at hn
      rw [List.find?_cons]
      rcases List.mem_cons.1 hf with rfl | hf
      · simp
      · have hne : g.name ≠ f.name := fun he => hn.1 (List.mem_map.2 ⟨f, hf, he.symm⟩)
        rw [show (g.name == f.name) = false by simp [hne]]
        exact ih hn.2 hf
  rw [this]

/-- The fields of `gs` written from `x` and read one after the other, starting with `s`. -/
inductive Chain {σ : Type} (x : σ) : List (Field σ) → σ → σ → Prop
  | nil (s : σ) : Chain x [] s s
  | cons {f : Field σ} {gs : List (Field σ)} {s s' s'' : σ} (h : Step f x s s') (t : Chain x gs s' s'') : Chain x (f :: gs) s s''

theorem chain_decode {σ : Type} {fs gs : List (Field σ)} {x s s' : σ} (hf : ∀ f ∈ gs, findField fs f.name = some f)
    (hv : ∀ f ∈ gs, Utf8 f.name) (h : Chain x gs s s') :
    decMembers fs (encMembers gs x) s = .ok s' ∧ Json.cleanMembers (encMembers gs x) = encMembers gs x := by
  induction h with
  | nil s => exact ⟨rfl, rfl⟩
  | @cons f gs s s1 s2 h t ih =>
    obtain ⟨i1, i2⟩ := ih (fun f hf' => hf f (by simp [hf'])) fun f hf' => hv f (by simp [hf'])
    rcases h with ⟨he, rfl⟩ | ⟨j, he, hc, hd⟩
    · have : encMembers (f :: gs) x = encMembers gs x := by simp [encMembers, he]
      rw [this]; exact ⟨i1, i2⟩
    · have : encMembers (f :: gs) x = (f.name, j) :: encMembers gs x := by simp [encMembers, he]
      rw [this, decMembers, hf f (by simp)]
      dsimp only
      rw [hd]
      exact ⟨i1, by rw [Json.cleanMembers, i2, hc, cleanStr_valid (hv f (by simp))]⟩

/-- The member names of a struct are distinct and valid. -/
def GoodNames {σ : Type} (fs : List (Field σ)) : Prop := (fs.map (·.name)).Nodup ∧ (fs.map (·.name)).all validUTF8 = true

instance {σ : Type} (fs : List (Field σ)) : Decidable (GoodNames fs) := by unfold GoodNames; infer_instance

theorem chain_roundTrip {σ : Type} {fs : List (Field σ)} (hn : GoodNames fs) {x z v : σ} (h : Chain x fs z v) :
    RoundTrip fs z x v := by
  obtain ⟨h1, h2⟩ := chain_decode (fs := fs) (fun f hf => findField_mem hn.1 hf)
    (fun f hf => List.all_eq_true.1 hn.2 _ (List.mem_map.2 ⟨f, hf, rfl⟩)) h
  exact ⟨h1, by rw [encStruct, Json.clean, h2]⟩

macro "step" t:term : tactic => `(tactic| (refine .cons $t ?_; try dsimp only))

theorem role_roundTrip {x : Role} (h : x.Ok) : RoundTrip roleFields .zero x x := by
  refine chain_roundTrip (by decide) ?_
  unfold roleFields Role.zero
  step (step_fStr h.name rfl)
  step (step_fStr h.organization rfl)
  exact .nil _

theorem name_roundTrip {x : Name} (h : x.Ok) : RoundTrip nameFields .zero x x := by
  refine chain_roundTrip (by decide) ?_
  unfold nameFields Name.zero
  step (step_fStr h.first rfl)
  step (step_fStr h.last rfl)
  step (step_fStr h.middle rfl)
  step (step_fStr h.preferred rfl)
  step (step_fBool rfl)
  step (step_fBool rfl)
  step (step_fBool rfl)
  step (step_fBool rfl)
  step (step_fBool rfl)
  exact .nil _

theorem organization_roundTrip {x : Organization} (h : x.Ok) : RoundTrip organizationFields .zero x x := by
  refine chain_roundTrip (by decide) ?_
  unfold organizationFields Organization.zero
  step (step_fUint h.id rfl)
  step (step_fStr h.name rfl)
  step (step_fStrs h.aliases rfl)
  exact .nil _

theorem location_roundTrip {x : Location} (h : x.Ok) : RoundTrip locationFields .zero x x := by
  refine chain_roundTrip (by decide) ?_
  unfold locationFields Location.zero
  step (step_fStr h.street rfl)
  step (step_fStr h.city rfl)
  step (step_fStr h.state rfl)
  step (step_fStr h.zipCode rfl)
  step (step_fBool rfl)
  step (step_fBool rfl)
  step (step_fBool rfl)
  step (step_fBool rfl)
  step (step_fBool rfl)
  exact .nil _

theorem email_roundTrip {x : EmailAddress} (h : x.Ok) : RoundTrip emailFields .zero x x := by
  refine chain_roundTrip (by decide) ?_
  obtain ⟨a, b, c, d⟩ := x
  have hp := h.isPrimary
  dsimp only at hp
  subst hp
  unfold emailFields EmailAddress.zero
  step (step_fStr h.address rfl)
  step (step_fBool rfl)
  step (step_fStr h.domain rfl)
  exact .nil _

theorem password_roundTrip {x : Password} (h : x.Ok) : RoundTrip passwordFields .zero x x := by
  refine chain_roundTrip (by decide) ?_
  unfold passwordFields Password.zero
  step (step_fStr h.purpose rfl)
  step (step_fStr h.algorithm rfl)
  step (step_fStr h.hash rfl)
  step (step_fInt h.cost rfl)
  step (step_fBool rfl)
  step (step_fTime h.expiredAt)
  step (step_fTime h.createdAt)
  step (step_fBool rfl)
  step (step_fTime h.disabledAt)
  exact .nil _

theorem apiKey_roundTrip {x : APIKey} (h : x.Ok) : RoundTrip apiKeyFields .zero x x := by
  refine chain_roundTrip (by decide) ?_
  unfold apiKeyFields APIKey.zero
  step (step_fStr h.id rfl)
  step (step_fStr h.pfx rfl)
  step (step_fStr h.usage rfl)
  step (step_fStr h.comment rfl)
  step (step_fStr h.payload rfl)
  step (step_fBool rfl)
  step (step_fTime h.expiredAt)
  step (step_fTime h.createdAt)
  step (step_fBool rfl)
  step (step_fTime h.disabledAt)
  exact .nil _

theorem publicKey_roundTrip {x : PublicKey} (h : x.Ok) : RoundTrip publicKeyFields .zero x x := by
  refine chain_roundTrip (by decide) ?_
  unfold publicKeyFields PublicKey.zero
  step (step_fStr h.id rfl)
  step (step_fStr h.usage rfl)
  step (step_fStr h.type rfl)
  step (step_fStr h.fingerprint rfl)
  step (step_fStr h.fingerprintMD5 rfl)
  step (step_fStr h.comment rfl)
  step (step_fStr h.payload rfl)
  step (step_fStr h.openSSH rfl)
  step (step_fBool rfl)
  step (step_fTime h.expiredAt)
  step (step_fTime h.createdAt)
  step (step_fBool rfl)
  step (step_fTime h.disabledAt)
  exact .nil _

theorem mfaDevice_roundTrip {x : MfaDevice} (h : x.Ok) : RoundTrip mfaDeviceFields .zero x x := by
  refine chain_roundTrip (by decide) ?_
  unfold mfaDeviceFields MfaDevice.zero
  step (step_fStr h.name rfl)
  step (step_fStr h.vendor rfl)
  step (step_fStr h.type rfl)
  exact .nil _

theorem mfaToken_roundTrip {x : MfaToken} (h : x.Ok) : RoundTrip mfaTokenFields .zero x x := by
  refine chain_roundTrip (by decide) ?_
  unfold mfaTokenFields MfaToken.zero
  step (step_fStr h.id rfl)
  step (step_fStr h.type rfl)
  step (step_fStr h.algorithm rfl)
  step (step_fStr h.comment rfl)
  step (step_fStr h.secret rfl)
  step (step_fInt h.period rfl)
  step (step_fInt h.digits rfl)
  step (step_fBool rfl)
  step (step_fTime h.expiredAt)
  step (step_fTime h.createdAt)
  step (step_fBool rfl)
  step (step_fTime h.disabledAt)
  step (step_fPtr (fun d hd => mfaDevice_roundTrip (h.device d hd)) rfl rfl)
  step (step_fMap (fun p hp => ⟨(h.parameters p hp).1, by rw [Json.clean, cleanStr_valid (h.parameters p hp).2], rfl⟩)
    h.parametersOrder rfl rfl)
  step (step_fMap (fun p hp => ⟨h.flags p hp, by simp [Json.clean], rfl⟩) h.flagsOrder rfl rfl)
  step (step_fUint h.signatureCounter rfl)
  exact .nil _

theorem lockout_roundTrip {x : LockoutState} (h : x.Ok) : RoundTrip lockoutFields .zero x x := by
  refine chain_roundTrip (by decide) ?_
  unfold lockoutFields LockoutState.zero
  step (step_fBool rfl)
  step (step_fTime h.startTime)
  step (step_fTime h.endTime)
  exact .nil _

theorem imageConfig_roundTrip {x : Image} (h : x.Ok) (s : Image) :
    RoundTrip imageConfigFields s x { s with width := x.width, height := x.height } := by
  refine chain_roundTrip (by decide) ?_
  unfold imageConfigFields
  refine .cons (s' := s) (.inr ⟨.null, rfl, by simp [Json.clean], rfl⟩) ?_
  step (step_fIntAlways h.width)
  step (step_fIntAlways h.height)
  exact .nil _

theorem image_roundTrip {x : Image} (h : x.Ok) : RoundTrip imageFields .zero x x := by
  refine chain_roundTrip (by decide) ?_
  unfold imageFields Image.zero
  step (step_fStr h.title rfl)
  step (step_fStr h.body rfl)
  step (step_fStruct (imageConfig_roundTrip h _))
  step (step_fStr h.path rfl)
  exact .nil _

theorem user_roundTrip {x : User} (h : x.Ok) : RoundTrip userFields .zero x x := by
  refine chain_roundTrip (by decide) ?_
  unfold userFields User.zero
  step (step_fStr h.id rfl)
  step (step_fBool rfl)
  step (step_fBool rfl)
  step (step_fStr h.username rfl)
  step (step_fStr h.title rfl)
  step (step_fPtr (fun a ha => name_roundTrip (h.name a ha)) rfl rfl)
  step (step_fPtr (fun a ha => organization_roundTrip (h.organization a ha)) rfl rfl)
  step (step_fList (fun a ha => name_roundTrip (h.names a ha)) rfl)
  step (step_fList (fun a ha => organization_roundTrip (h.organizations a ha)) rfl)
  step (step_fList (fun a ha => location_roundTrip (h.streetAddress a ha)) rfl)
  step (step_fPtr (fun a ha => email_roundTrip (h.emailAddress a ha)) rfl rfl)
  step (step_fList (fun a ha => email_roundTrip (h.emailAddresses a ha)) rfl)
  step (step_fList (fun a ha => password_roundTrip (h.passwords a ha)) rfl)
  step (step_fList (fun a ha => publicKey_roundTrip (h.publicKeys a ha)) rfl)
  step (step_fList (fun a ha => apiKey_roundTrip (h.apiKeys a ha)) rfl)
  step (step_fList (fun a ha => mfaToken_roundTrip (h.mfaTokens a ha)) rfl)
  step (step_fPtr (fun a ha => lockout_roundTrip (h.lockout a ha)) rfl rfl)
  step (step_fPtr (fun a ha => image_roundTrip (h.avatar a ha)) rfl rfl)
  step (step_fTime h.created)
  step (step_fTime h.lastModified)
  step (step_fInt h.revision rfl)
  step (step_fList (fun a ha => role_roundTrip (h.roles a ha)) rfl)
  exact .nil _

theorem passwordPolicy_roundTrip {x : PasswordPolicy} (h : x.Ok) (s : PasswordPolicy) : RoundTrip passwordPolicyFields s x x := by
  refine chain_roundTrip (by decide) ?_
  unfold passwordPolicyFields
  step (step_fIntAlways h.keepVersions)
  step (step_fIntAlways h.minLength)
  step (step_fIntAlways h.maxLength)
  step step_fBoolAlways
  step step_fBoolAlways
  step step_fBoolAlways
  step step_fBoolAlways
  step step_fBoolAlways
  step step_fBoolAlways
  exact .nil _

theorem userPolicy_roundTrip {x : UserPolicy} (h : x.Ok) (s : UserPolicy) : RoundTrip userPolicyFields s x x := by
  refine chain_roundTrip (by decide) ?_
  unfold userPolicyFields
  step (step_fIntAlways h.minLength)
  step (step_fIntAlways h.maxLength)
  step step_fBoolAlways
  step step_fBoolAlways
  exact .nil _

theorem policy_roundTrip {x : Policy} (h : x.Ok) (s : Policy) : RoundTrip policyFields s x x := by
  refine chain_roundTrip (by decide) ?_
  unfold policyFields
  step (step_fStruct (passwordPolicy_roundTrip h.password _))
  step (step_fStruct (userPolicy_roundTrip h.user _))
  exact .nil _

theorem db_roundTrip {x : DBData} (h : x.Ok) : RoundTrip dbFields .zero x x := by
  refine chain_roundTrip (by decide) ?_
  unfold dbFields DBData.zero
  step (step_fStr h.version rfl)
  step (step_fStruct (policy_roundTrip h.policy _))
  step (step_fUint h.revision rfl)
  step (step_fTime h.lastModified)
  step (step_fList (fun u hu => user_roundTrip (h.users u hu)) rfl)
  exact .nil _

/-! ## Printed numbers are integers, for all field values -/

/-- The field is written with integer numbers only. -/
def Field.Ints {σ : Type} (f : Field σ) : Prop := ∀ x j, f.enc x = some j → j.IntNums

def AllInts {σ : Type} (fs : List (Field σ)) : Prop := ∀ f ∈ fs, f.Ints

theorem allInts_nil {σ : Type} : AllInts ([] : List (Field σ)) := by simp [AllInts]

theorem allInts_cons {σ : Type} {f : Field σ} {fs : List (Field σ)} (h : f.Ints) (hs : AllInts fs) : AllInts (f :: fs) := by
  intro g hg
  rcases List.mem_cons.1 hg with rfl | hg
  · exact h
  · exact hs g hg

theorem encStruct_ints {σ : Type} {fs : List (Field σ)} (h : AllInts fs) (x : σ) : (encStruct fs x).IntNums := by
  rw [encStruct, Json.IntNums]
  induction fs with
  | nil => rw [show encMembers ([] : List (Field σ)) x = [] from rfl, Json.IntNumsMembers]; trivial
  | cons f fs ih =>
    have ih := ih fun g hg => h g (by simp [hg])
    cases he : f.enc x with
    | none =>
      have : encMembers (f :: fs) x = encMembers fs x := by simp [encMembers, he]
      rw [this]; exact ih
    | some j =>
      have : encMembers (f :: fs) x = (f.name, j) :: encMembers fs x := by simp [encMembers, he]
      rw [this, Json.IntNumsMembers]
      exact ⟨h f (by simp) x j he, ih⟩

section
variable {σ τ : Type} {name : GoString}

theorem ints_fStr {get : σ → GoString} {set : σ → GoString → σ} : (fStr name get set).Ints := by
  intro x j h
  simp only [fStr] at h
  split at h
  · simp at h
  · simp only [Option.some.injEq] at h; subst h; simp [Json.IntNums]

theorem ints_fBool {get : σ → Bool} {set : σ → Bool → σ} : (fBool name get set).Ints := by
  intro x j h
  simp only [fBool] at h
  split at h
  · simp at h
  · simp only [Option.some.injEq] at h; subst h; simp [Json.IntNums]

theorem ints_fBoolAlways {get : σ → Bool} {set : σ → Bool → σ} : (fBoolAlways name get set).Ints := by
  intro x j h
  simp only [fBoolAlways, Option.some.injEq] at h; subst h; simp [Json.IntNums]

theorem ints_fInt {get : σ → Int} {set : σ → Int → σ} : (fInt name get set).Ints := by
  intro x j h
  simp only [fInt] at h
  split at h
  · simp at h
  · simp only [Option.some.injEq] at h; subst h; rw [Json.IntNums]; exact ⟨_, rfl⟩

theorem ints_fIntAlways {get : σ → Int} {set : σ → Int → σ} : (fIntAlways name get set).Ints := by
  intro x j h
  simp only [fIntAlways, Option.some.injEq] at h; subst h; rw [Json.IntNums]; exact ⟨_, rfl⟩

theorem ints_fUint {b : Nat} {get : σ → Nat} {set : σ → Nat → σ} : (fUint b name get set).Ints := by
  intro x j h
  simp only [fUint] at h
  split at h
  · simp at h
  · simp only [Option.some.injEq] at h; subst h; rw [Json.IntNums]; exact ⟨_, (intDec_natCast _).symm⟩

theorem ints_fTime {get : σ → GoTime} {set : σ → GoTime → σ} : (fTime name get set).Ints := by
  intro x j h
  simp only [fTime, Option.some.injEq] at h; subst h; simp [Json.IntNums]

theorem ints_fStruct {fs : List (Field τ)} {get : σ → τ} {set : σ → τ → σ} (hs : AllInts fs) :
    (fStruct name fs get set).Ints := by
  intro x j h
  simp only [fStruct, Option.some.injEq] at h; subst h; exact encStruct_ints hs _

theorem ints_fPtr {fs : List (Field τ)} {z : τ} {get : σ → Option τ} {set : σ → Option τ → σ} (hs : AllInts fs) :
    (fPtr name fs z get set).Ints := by
  intro x j h
  simp only [fPtr, Option.map_eq_some_iff] at h
  obtain ⟨a, _, rfl⟩ := h
  exact encStruct_ints hs _

theorem ints_fList {fs : List (Field τ)} {z : τ} {get : σ → List τ} {set : σ → List τ → σ} (hs : AllInts fs) :
    (fList name fs z get set).Ints := by
  intro x j h
  simp only [fList] at h
  split at h
  · simp at h
  · simp only [Option.some.injEq] at h
    subst h
    rw [Json.IntNums]
    generalize get x = l
    induction l with
    | nil => rw [List.map_nil, Json.IntNumsElems]; trivial
    | cons a l ih => rw [List.map_cons, Json.IntNumsElems]; exact ⟨encStruct_ints hs _, ih⟩

theorem ints_fStrs {get : σ → List GoString} {set : σ → List GoString → σ} : (fStrs name get set).Ints := by
  intro x j h
  simp only [fStrs] at h
  split at h
  · simp at h
  · simp only [Option.some.injEq] at h
    subst h
    rw [Json.IntNums]
    generalize get x = l
    induction l with
    | nil => rw [List.map_nil, Json.IntNumsElems]; trivial
    | cons a l ih => rw [List.map_cons, Json.IntNumsElems]; exact ⟨by simp [Json.IntNums], ih⟩

theorem ints_fMap {α : Type} {encElem : α → Json} {elem : Json → Res α} {get : σ → List (GoString × α)}
    {set : σ → List (GoString × α) → σ} (he : ∀ a, (encElem a).IntNums) : (fMap name encElem elem get set).Ints := by
  intro x j h
  simp only [fMap] at h
  split at h
  · simp at h
  · simp only [Option.some.injEq] at h
    subst h
    rw [Json.IntNums]
    generalize get x = l
    induction l with
    | nil => rw [List.map_nil, Json.IntNumsMembers]; trivial
    | cons a l ih => rw [List.map_cons, Json.IntNumsMembers]; exact ⟨he _, ih⟩

end

theorem ints_role : AllInts roleFields :=
  allInts_cons ints_fStr <| allInts_cons ints_fStr <| allInts_nil

theorem ints_name : AllInts nameFields :=
  allInts_cons ints_fStr <| allInts_cons ints_fStr <| allInts_cons ints_fStr <| allInts_cons ints_fStr <|
  allInts_cons ints_fBool <| allInts_cons ints_fBool <| allInts_cons ints_fBool <| allInts_cons ints_fBool <|
  allInts_cons ints_fBool <| allInts_nil

theorem ints_organization : AllInts organizationFields :=
  allInts_cons ints_fUint <| allInts_cons ints_fStr <| allInts_cons ints_fStrs <| allInts_nil

theorem ints_location : AllInts locationFields :=
  allInts_cons ints_fStr <| allInts_cons ints_fStr <| allInts_cons ints_fStr <| allInts_cons ints_fStr <|
  allInts_cons ints_fBool <| allInts_cons ints_fBool <| allInts_cons ints_fBool <| allInts_cons ints_fBool <|
  allInts_cons ints_fBool <| allInts_nil

theorem ints_email : AllInts emailFields :=
  allInts_cons ints_fStr <| allInts_cons ints_fBool <| allInts_cons ints_fStr <| allInts_nil

theorem ints_password : AllInts passwordFields :=
  allInts_cons ints_fStr <| allInts_cons ints_fStr <| allInts_cons ints_fStr <| allInts_cons ints_fInt <|
  allInts_cons ints_fBool <| allInts_cons ints_fTime <| allInts_cons ints_fTime <| allInts_cons ints_fBool <|
  allInts_cons ints_fTime <| allInts_nil

theorem ints_apiKey : AllInts apiKeyFields :=
  allInts_cons ints_fStr <| allInts_cons ints_fStr <| allInts_cons ints_fStr <| allInts_cons ints_fStr <|
  allInts_cons ints_fStr <| allInts_cons ints_fBool <| allInts_cons ints_fTime <| allInts_cons ints_fTime <|
  allInts_cons ints_fBool <| allInts_cons ints_fTime <| allInts_nil

theorem ints_publicKey : AllInts publicKeyFields :=
  allInts_cons ints_fStr <| allInts_cons ints_fStr <| allInts_cons ints_fStr <| allInts_cons ints_fStr <|
  allInts_cons ints_fStr <| allInts_cons ints_fStr <| allInts_cons ints_fStr <| allInts_cons ints_fStr <|
  allInts_cons ints_fBool <| allInts_cons ints_fTime <| allInts_cons ints_fTime <| allInts_cons ints_fBool <|
  allInts_cons ints_fTime <| allInts_nil

theorem ints_mfaDevice : AllInts mfaDeviceFields :=
  allInts_cons ints_fStr <| allInts_cons ints_fStr <| allInts_cons ints_fStr <| allInts_nil

theorem ints_mfaToken : AllInts mfaTokenFields :=
  allInts_cons ints_fStr <| allInts_cons ints_fStr <| allInts_cons ints_fStr <| allInts_cons ints_fStr <|
  allInts_cons ints_fStr <| allInts_cons ints_fInt <| allInts_cons ints_fInt <| allInts_cons ints_fBool <|
  allInts_cons ints_fTime <| allInts_cons ints_fTime <| allInts_cons ints_fBool <| allInts_cons ints_fTime <|
  allInts_cons (ints_fPtr ints_mfaDevice) <| allInts_cons (ints_fMap fun _ => by simp [Json.IntNums]) <|
  allInts_cons (ints_fMap fun _ => by simp [Json.IntNums]) <| allInts_cons ints_fUint <| allInts_nil

theorem ints_lockout : AllInts lockoutFields :=
  allInts_cons ints_fBool <| allInts_cons ints_fTime <| allInts_cons ints_fTime <| allInts_nil

theorem ints_imageConfig : AllInts imageConfigFields :=
  allInts_cons (fun x j h => by simp only [Option.some.injEq] at h; subst h; simp [Json.IntNums]) <|
  allInts_cons ints_fIntAlways <| allInts_cons ints_fIntAlways <| allInts_nil

theorem ints_image : AllInts imageFields :=
  allInts_cons ints_fStr <| allInts_cons ints_fStr <| allInts_cons (ints_fStruct ints_imageConfig) <|
  allInts_cons ints_fStr <| allInts_nil

theorem ints_user : AllInts userFields :=
  allInts_cons ints_fStr <| allInts_cons ints_fBool <| allInts_cons ints_fBool <| allInts_cons ints_fStr <|
  allInts_cons ints_fStr <| allInts_cons (ints_fPtr ints_name) <| allInts_cons (ints_fPtr ints_organization) <|
  allInts_cons (ints_fList ints_name) <| allInts_cons (ints_fList ints_organization) <|
  allInts_cons (ints_fList ints_location) <| allInts_cons (ints_fPtr ints_email) <| allInts_cons (ints_fList ints_email) <|
  allInts_cons (ints_fList ints_password) <| allInts_cons (ints_fList ints_publicKey) <|
  allInts_cons (ints_fList ints_apiKey) <| allInts_cons (ints_fList ints_mfaToken) <|
  allInts_cons (ints_fPtr ints_lockout) <| allInts_cons (ints_fPtr ints_image) <| allInts_cons ints_fTime <|
  allInts_cons ints_fTime <| allInts_cons ints_fInt <| allInts_cons (ints_fList ints_role) <| allInts_nil

theorem ints_passwordPolicy : AllInts passwordPolicyFields :=
  allInts_cons ints_fIntAlways <| allInts_cons ints_fIntAlways <| allInts_cons ints_fIntAlways <|
  allInts_cons ints_fBoolAlways <| allInts_cons ints_fBoolAlways <| allInts_cons ints_fBoolAlways <|
  allInts_cons ints_fBoolAlways <| allInts_cons ints_fBoolAlways <| allInts_cons ints_fBoolAlways <| allInts_nil

theorem ints_userPolicy : AllInts userPolicyFields :=
  allInts_cons ints_fIntAlways <| allInts_cons ints_fIntAlways <| allInts_cons ints_fBoolAlways <|
  allInts_cons ints_fBoolAlways <| allInts_nil

theorem ints_policy : AllInts policyFields :=
  allInts_cons (ints_fStruct ints_passwordPolicy) <| allInts_cons (ints_fStruct ints_userPolicy) <| allInts_nil

theorem ints_db : AllInts dbFields :=
  allInts_cons ints_fStr <| allInts_cons (ints_fStruct ints_policy) <| allInts_cons ints_fUint <| allInts_cons ints_fTime <|
  allInts_cons (ints_fList ints_user) <| allInts_nil

/-! ## How deep a printed struct is nested -/

/-- The field is written with at most `n` brackets open. -/
def Field.Flat {σ : Type} (n : Nat) (f : Field σ) : Prop := ∀ x j, f.enc x = some j → j.depth ≤ n

def AllFlat {σ : Type} (n : Nat) (fs : List (Field σ)) : Prop := ∀ f ∈ fs, f.Flat n

theorem allFlat_nil {σ : Type} {n : Nat} : AllFlat n ([] : List (Field σ)) := by simp [AllFlat]

theorem allFlat_cons {σ : Type} {n : Nat} {f : Field σ} {fs : List (Field σ)} (h : f.Flat n) (hs : AllFlat n fs) :
    AllFlat n (f :: fs) := by
  intro g hg
  rcases List.mem_cons.1 hg with rfl | hg
  · exact h
  · exact hs g hg

theorem encStruct_flat {σ : Type} {n : Nat} {fs : List (Field σ)} (h : AllFlat n fs) (x : σ) :
    (encStruct fs x).depth ≤ n + 1 := by
  rw [encStruct, Json.depth]
  refine Nat.succ_le_succ ?_
  induction fs with
  | nil => rw [show encMembers ([] : List (Field σ)) x = [] from rfl, Json.depthMembers]; exact Nat.zero_le _
  | cons f fs ih =>
    have ih := ih fun g hg => h g (by simp [hg])
    cases he : f.enc x with
    | none =>
      have : encMembers (f :: fs) x = encMembers fs x := by simp [encMembers, he]
      rw [this]; exact ih
    | some j =>
      have : encMembers (f :: fs) x = (f.name, j) :: encMembers fs x := by simp [encMembers, he]
      rw [this, Json.depthMembers]
      exact Nat.max_le.2 ⟨h f (by simp) x j he, ih⟩

section
variable {σ τ : Type} {name : GoString} {n : Nat}

theorem flat_fStr {get : σ → GoString} {set : σ → GoString → σ} : (fStr name get set).Flat n := by
  intro x j h
  simp only [fStr] at h
  split at h
  · simp at h
  · simp only [Option.some.injEq] at h; subst h; simp [Json.depth]

theorem flat_fBool {get : σ → Bool} {set : σ → Bool → σ} : (fBool name get set).Flat n := by
  intro x j h
  simp only [fBool] at h
  split at h
  · simp at h
  · simp only [Option.some.injEq] at h; subst h; simp [Json.depth]

theorem flat_fBoolAlways {get : σ → Bool} {set : σ → Bool → σ} : (fBoolAlways name get set).Flat n := by
  intro x j h
  simp only [fBoolAlways, Option.some.injEq] at h; subst h; simp [Json.depth]

theorem flat_fInt {get : σ → Int} {set : σ → Int → σ} : (fInt name get set).Flat n := by
  intro x j h
  simp only [fInt] at h
  split at h
  · simp at h
  · simp only [Option.some.injEq] at h; subst h; simp [Json.depth]

theorem flat_fIntAlways {get : σ → Int} {set : σ → Int → σ} : (fIntAlways name get set).Flat n := by
  intro x j h
  simp only [fIntAlways, Option.some.injEq] at h; subst h; simp [Json.depth]

theorem flat_fUint {b : Nat} {get : σ → Nat} {set : σ → Nat → σ} : (fUint b name get set).Flat n := by
  intro x j h
  simp only [fUint] at h
  split at h
  · simp at h
  · simp only [Option.some.injEq] at h; subst h; simp [Json.depth]

theorem flat_fTime {get : σ → GoTime} {set : σ → GoTime → σ} : (fTime name get set).Flat n := by
  intro x j h
  simp only [fTime, Option.some.injEq] at h; subst h; simp [Json.depth]

theorem flat_fStruct {fs : List (Field τ)} {get : σ → τ} {set : σ → τ → σ} (hn : 1 ≤ n) (hs : AllFlat (n - 1) fs) :
    (fStruct name fs get set).Flat n := by
  intro x j h
  simp only [fStruct, Option.some.injEq] at h; subst h
  have := encStruct_flat hs (get x)
  omega

theorem flat_fPtr {fs : List (Field τ)} {z : τ} {get : σ → Option τ} {set : σ → Option τ → σ} (hn : 1 ≤ n)
    (hs : AllFlat (n - 1) fs) : (fPtr name fs z get set).Flat n := by
  intro x j h
  simp only [fPtr, Option.map_eq_some_iff] at h
  obtain ⟨a, _, rfl⟩ := h
  have := encStruct_flat hs a
  omega

theorem flat_fList {fs : List (Field τ)} {z : τ} {get : σ → List τ} {set : σ → List τ → σ} (hn : 2 ≤ n)
    (hs : AllFlat (n - 2) fs) : (fList name fs z get set).Flat n := by
  intro x j h
  simp only [fList] at h
  split at h
  · simp at h
  · simp only [Option.some.injEq] at h
    subst h
    rw [Json.depth]
    suffices H : ∀ l : List τ, Json.depthElems (l.map (encStruct fs)) ≤ n - 1 by have := H (get x); omega
    intro l
    induction l with
    | nil => rw [List.map_nil, Json.depthElems]; exact Nat.zero_le _
    | cons a l ih =>
      rw [List.map_cons, Json.depthElems]
      have := encStruct_flat hs a
      exact Nat.max_le.2 ⟨by omega, ih⟩

theorem flat_fStrs {get : σ → List GoString} {set : σ → List GoString → σ} (hn : 1 ≤ n) :
    (fStrs name get set).Flat n := by
  intro x j h
  simp only [fStrs] at h
  split at h
  · simp at h
  · simp only [Option.some.injEq] at h
    subst h
    rw [Json.depth]
    suffices H : ∀ l : List GoString, Json.depthElems (l.map .str) ≤ 0 by have := H (get x); omega
    intro l
    induction l with
    | nil => rw [List.map_nil, Json.depthElems]; exact Nat.le_refl _
    | cons a l ih => rw [List.map_cons, Json.depthElems]; exact Nat.max_le.2 ⟨by simp [Json.depth], ih⟩

theorem flat_fMap {α : Type} {encElem : α → Json} {elem : Json → Res α} {get : σ → List (GoString × α)}
    {set : σ → List (GoString × α) → σ} (hn : 1 ≤ n) (he : ∀ a, (encElem a).depth ≤ 0) :
    (fMap name encElem elem get set).Flat n := by
  intro x j h
  simp only [fMap] at h
  split at h
  · simp at h
  · simp only [Option.some.injEq] at h
    subst h
    rw [Json.depth]
    suffices H : ∀ l : List (GoString × α), Json.depthMembers (l.map fun kv => (kv.1, encElem kv.2)) ≤ 0 by
      have := H (get x); omega
    intro l
    induction l with
    | nil => rw [List.map_nil, Json.depthMembers]; exact Nat.le_refl _
    | cons a l ih => rw [List.map_cons, Json.depthMembers]; exact Nat.max_le.2 ⟨he _, ih⟩

end

theorem flat_role {n : Nat} : AllFlat n roleFields :=
  allFlat_cons flat_fStr <| allFlat_cons flat_fStr <| allFlat_nil

theorem flat_name {n : Nat} : AllFlat n nameFields :=
  allFlat_cons flat_fStr <| allFlat_cons flat_fStr <| allFlat_cons flat_fStr <| allFlat_cons flat_fStr <|
  allFlat_cons flat_fBool <| allFlat_cons flat_fBool <| allFlat_cons flat_fBool <| allFlat_cons flat_fBool <|
  allFlat_cons flat_fBool <| allFlat_nil

theorem flat_organization {n : Nat} (h : 1 ≤ n) : AllFlat n organizationFields :=
  allFlat_cons flat_fUint <| allFlat_cons flat_fStr <| allFlat_cons (flat_fStrs (by omega)) <| allFlat_nil

theorem flat_location {n : Nat} : AllFlat n locationFields :=
  allFlat_cons flat_fStr <| allFlat_cons flat_fStr <| allFlat_cons flat_fStr <| allFlat_cons flat_fStr <|
  allFlat_cons flat_fBool <| allFlat_cons flat_fBool <| allFlat_cons flat_fBool <| allFlat_cons flat_fBool <|
  allFlat_cons flat_fBool <| allFlat_nil

theorem flat_email {n : Nat} : AllFlat n emailFields :=
  allFlat_cons flat_fStr <| allFlat_cons flat_fBool <| allFlat_cons flat_fStr <| allFlat_nil

theorem flat_password {n : Nat} : AllFlat n passwordFields :=
  allFlat_cons flat_fStr <| allFlat_cons flat_fStr <| allFlat_cons flat_fStr <| allFlat_cons flat_fInt <|
  allFlat_cons flat_fBool <| allFlat_cons flat_fTime <| allFlat_cons flat_fTime <| allFlat_cons flat_fBool <|
  allFlat_cons flat_fTime <| allFlat_nil

theorem flat_apiKey {n : Nat} : AllFlat n apiKeyFields :=
  allFlat_cons flat_fStr <| allFlat_cons flat_fStr <| allFlat_cons flat_fStr <| allFlat_cons flat_fStr <|
  allFlat_cons flat_fStr <| allFlat_cons flat_fBool <| allFlat_cons flat_fTime <| allFlat_cons flat_fTime <|
  allFlat_cons flat_fBool <| allFlat_cons flat_fTime <| allFlat_nil

theorem flat_publicKey {n : Nat} : AllFlat n publicKeyFields :=
  allFlat_cons flat_fStr <| allFlat_cons flat_fStr <| allFlat_cons flat_fStr <| allFlat_cons flat_fStr <|
  allFlat_cons flat_fStr <| allFlat_cons flat_fStr <| allFlat_cons flat_fStr <| allFlat_cons flat_fStr <|
  allFlat_cons flat_fBool <| allFlat_cons flat_fTime <| allFlat_cons flat_fTime <| allFlat_cons flat_fBool <|
  allFlat_cons flat_fTime <| allFlat_nil

theorem flat_mfaDevice {n : Nat} : AllFlat n mfaDeviceFields :=
  allFlat_cons flat_fStr <| allFlat_cons flat_fStr <| allFlat_cons flat_fStr <| allFlat_nil

theorem flat_mfaToken {n : Nat} (h : 1 ≤ n) : AllFlat n mfaTokenFields :=
  allFlat_cons flat_fStr <| allFlat_cons flat_fStr <| allFlat_cons flat_fStr <| allFlat_cons flat_fStr <|
  allFlat_cons flat_fStr <| allFlat_cons flat_fInt <| allFlat_cons flat_fInt <| allFlat_cons flat_fBool <|
  allFlat_cons flat_fTime <| allFlat_cons flat_fTime <| allFlat_cons flat_fBool <| allFlat_cons flat_fTime <|
  allFlat_cons (flat_fPtr (by omega) flat_mfaDevice) <| allFlat_cons (flat_fMap (by omega) fun _ => by simp [Json.depth]) <|
  allFlat_cons (flat_fMap (by omega) fun _ => by simp [Json.depth]) <| allFlat_cons flat_fUint <| allFlat_nil

theorem flat_lockout {n : Nat} : AllFlat n lockoutFields :=
  allFlat_cons flat_fBool <| allFlat_cons flat_fTime <| allFlat_cons flat_fTime <| allFlat_nil

theorem flat_imageConfig {n : Nat} : AllFlat n imageConfigFields :=
  allFlat_cons (fun x j h => by simp only [Option.some.injEq] at h; subst h; simp [Json.depth]) <|
  allFlat_cons flat_fIntAlways <| allFlat_cons flat_fIntAlways <| allFlat_nil

theorem flat_image {n : Nat} (h : 1 ≤ n) : AllFlat n imageFields :=
  allFlat_cons flat_fStr <| allFlat_cons flat_fStr <| allFlat_cons (flat_fStruct (by omega) flat_imageConfig) <|
  allFlat_cons flat_fStr <| allFlat_nil

theorem flat_user {n : Nat} (h : 3 ≤ n) : AllFlat n userFields :=
  allFlat_cons flat_fStr <| allFlat_cons flat_fBool <| allFlat_cons flat_fBool <| allFlat_cons flat_fStr <|
  allFlat_cons flat_fStr <| allFlat_cons (flat_fPtr (by omega) flat_name) <| allFlat_cons (flat_fPtr (by omega) (flat_organization (by omega))) <|
  allFlat_cons (flat_fList (by omega) flat_name) <| allFlat_cons (flat_fList (by omega) (flat_organization (by omega))) <|
  allFlat_cons (flat_fList (by omega) flat_location) <| allFlat_cons (flat_fPtr (by omega) flat_email) <| allFlat_cons (flat_fList (by omega) flat_email) <|
  allFlat_cons (flat_fList (by omega) flat_password) <| allFlat_cons (flat_fList (by omega) flat_publicKey) <|
  allFlat_cons (flat_fList (by omega) flat_apiKey) <| allFlat_cons (flat_fList (by omega) (flat_mfaToken (by omega))) <|
  allFlat_cons (flat_fPtr (by omega) flat_lockout) <| allFlat_cons (flat_fPtr (by omega) (flat_image (by omega))) <| allFlat_cons flat_fTime <|
  allFlat_cons flat_fTime <| allFlat_cons flat_fInt <| allFlat_cons (flat_fList (by omega) flat_role) <| allFlat_nil

theorem flat_passwordPolicy {n : Nat} : AllFlat n passwordPolicyFields :=
  allFlat_cons flat_fIntAlways <| allFlat_cons flat_fIntAlways <| allFlat_cons flat_fIntAlways <|
  allFlat_cons flat_fBoolAlways <| allFlat_cons flat_fBoolAlways <| allFlat_cons flat_fBoolAlways <|
  allFlat_cons flat_fBoolAlways <| allFlat_cons flat_fBoolAlways <| allFlat_cons flat_fBoolAlways <| allFlat_nil

theorem flat_userPolicy {n : Nat} : AllFlat n userPolicyFields :=
  allFlat_cons flat_fIntAlways <| allFlat_cons flat_fIntAlways <| allFlat_cons flat_fBoolAlways <|
  allFlat_cons flat_fBoolAlways <| allFlat_nil

theorem flat_policy {n : Nat} (h : 1 ≤ n) : AllFlat n policyFields :=
  allFlat_cons (flat_fStruct (by omega) flat_passwordPolicy) <| allFlat_cons (flat_fStruct (by omega) flat_userPolicy) <| allFlat_nil

theorem flat_db {n : Nat} (h : 5 ≤ n) : AllFlat n dbFields :=
  allFlat_cons flat_fStr <| allFlat_cons (flat_fStruct (by omega) (flat_policy (by omega))) <| allFlat_cons flat_fUint <| allFlat_cons flat_fTime <|
  allFlat_cons (flat_fList (by omega) (flat_user (by omega))) <| allFlat_nil

/-- A printed database is never nested more than six deep. -/
theorem db_depth (d : DBData) : (encStruct dbFields d).depth ≤ 6 := encStruct_flat (flat_db (Nat.le_refl 5)) d

/-! ## The database document -/

theorem unmarshal_marshal {d : DBData} (h : d.Ok) : unmarshalDB (marshalDB d) = .ok d := by
  obtain ⟨h1, h2⟩ := db_roundTrip h
  unfold unmarshalDB marshalDB
  rw [parseDoc_render (encStruct_ints ints_db d) (by have := db_depth d; omega), h2]
  exact h1

theorem unmarshal_prefix (d : DBData) {p q : GoString} (he : marshalDB d = p ++ q) (hq : q ≠ []) :
    unmarshalDB p = .err (.ext (gs! "json")) := by
  unfold unmarshalDB
  rw [parseDoc_strict_prefix (m := encMembers dbFields d) (encStruct_ints ints_db d) he hq]

end GoIdentity
