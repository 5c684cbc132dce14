import Verif.Lemmas.Fill
import Mathlib.Tactic.ByContra
/-!
# What the decoder reads into each record
-/
set_option linter.unusedSimpArgs false
namespace GoIdentity

/-- The decoder reads members into the record as `R` says. -/
def ReadsAs {σ : Type} (fs : List (Field σ)) (R : Members → σ → σ → Prop) : Prop :=
  ∀ m s r, decMembers fs m s = .ok r ↔ R m s r

theorem Into.append {α : Type} {name : GoString} {step : Json → α → α → Prop} {m m' : Members} {v w : α} :
    Into name step (m ++ m') v w ↔ ∃ u, Into name step m v u ∧ Into name step m' u w := by
  induction m generalizing v with
  | nil =>
    constructor
    · exact fun h => ⟨v, .nil v, h⟩
    · rintro ⟨u, h1, h2⟩; cases h1; exact h2
  | cons kj m ih =>
    obtain ⟨k, j⟩ := kj
    rw [List.cons_append]
    constructor
    · intro h
      cases h with
      | other hk h => obtain ⟨u, h1, h2⟩ := ih.1 h; exact ⟨u, .other hk h1, h2⟩
      | take hk hs h => obtain ⟨u, h1, h2⟩ := ih.1 h; exact ⟨u, .take hk hs h1, h2⟩
    · rintro ⟨u, h1, h2⟩
      cases h1 with
      | other hk h => exact .other hk (ih.2 ⟨u, h, h2⟩)
      | take hk hs h => exact .take hk hs (ih.2 ⟨u, h, h2⟩)

theorem Into.still {α : Type} {name : GoString} {step : Json → α → α → Prop} (hs : Overwrites step) {m : Members} {v w : α}
    (hm : ∀ kj ∈ m, ¬ Concerns name kj) (h : Into name step m v w) : w = v := by
  induction h with
  | nil => rfl
  | other _ _ ih => exact ih fun kj hkj => hm kj (List.mem_cons_of_mem _ hkj)
  | @take k j m v u w hk hst _ ih =>
    have hj : j = .null := by
      by_contra hj
      exact hm (k, j) List.mem_cons_self ⟨hk, hj⟩
    subst hj
    rw [ih fun kj hkj => hm kj (List.mem_cons_of_mem _ hkj), (hs.1 v u).1 hst]

theorem mapGet_mapInsert {α : Type} (k k' : GoString) (a : α) (m : List (GoString × α)) :
    mapGet k' (mapInsert k a m) = if k' = k then some a else mapGet k' m := by
  induction m with
  | nil => simp [mapInsert, mapGet]
  | cons kv m ih =>
    obtain ⟨k0, v0⟩ := kv
    rw [mapInsert]
    split
    · next h => subst h; by_cases hk : k' = k <;> simp [mapGet, hk]
    · next h =>
      split
      · by_cases hk : k' = k <;> simp [mapGet, hk]
      · rw [mapGet, ih, mapGet]
        by_cases h0 : k' = k0
        · subst h0
          rw [if_pos rfl, if_pos rfl, if_neg (fun e => h e.symm)]
        · rw [if_neg h0, if_neg h0]

/-! ## Field kinds -/

theorem dec_fStr {σ : Type} {name : GoString} {get : σ → GoString} {set : σ → GoString → σ} (hid : ∀ s, set s (get s) = s)
    (j : Json) (s s' : σ) : (fStr name get set).dec j s = .ok s' ↔ ∃ v, TextStep j (get s) v ∧ s' = set s v := by
  unfold fStr TextStep
  cases j <;> simp [typeErr, hid, eq_comm]

theorem dec_fBool {σ : Type} {name : GoString} {get : σ → Bool} {set : σ → Bool → σ} (hid : ∀ s, set s (get s) = s)
    (j : Json) (s s' : σ) : (fBool name get set).dec j s = .ok s' ↔ ∃ v, BoolStep j (get s) v ∧ s' = set s v := by
  unfold fBool BoolStep
  cases j <;> simp [typeErr, hid, eq_comm]

theorem dec_fBoolAlways {σ : Type} {name : GoString} {get : σ → Bool} {set : σ → Bool → σ} (hid : ∀ s, set s (get s) = s)
    (j : Json) (s s' : σ) : (fBoolAlways name get set).dec j s = .ok s' ↔ ∃ v, BoolStep j (get s) v ∧ s' = set s v := by
  unfold fBoolAlways BoolStep
  cases j <;> simp [typeErr, hid, eq_comm]

theorem decInt_iff {σ : Type} {get : σ → Int} {set : σ → Int → σ} (hid : ∀ s, set s (get s) = s)
    (j : Json) (s s' : σ) : decInt set j s = .ok s' ↔ ∃ v, IntStep j (get s) v ∧ s' = set s v := by
  unfold decInt IntStep
  simp only [← parseIntLit_iff]
  cases j with
  | num l =>
    dsimp only
    cases h : parseIntLit l <;> simp [typeErr, h, eq_comm]
  | _ => simp [typeErr, hid, eq_comm]

theorem dec_fInt {σ : Type} {name : GoString} {get : σ → Int} {set : σ → Int → σ} (hid : ∀ s, set s (get s) = s)
    (j : Json) (s s' : σ) : (fInt name get set).dec j s = .ok s' ↔ ∃ v, IntStep j (get s) v ∧ s' = set s v := decInt_iff hid j s s'

theorem dec_fIntAlways {σ : Type} {name : GoString} {get : σ → Int} {set : σ → Int → σ} (hid : ∀ s, set s (get s) = s)
    (j : Json) (s s' : σ) : (fIntAlways name get set).dec j s = .ok s' ↔ ∃ v, IntStep j (get s) v ∧ s' = set s v := decInt_iff hid j s s'

theorem dec_fUint {σ : Type} {bound : Nat} {name : GoString} {get : σ → Nat} {set : σ → Nat → σ} (hid : ∀ s, set s (get s) = s)
    (j : Json) (s s' : σ) : (fUint bound name get set).dec j s = .ok s' ↔ ∃ v, NatStep bound j (get s) v ∧ s' = set s v := by
  unfold fUint NatStep decUint
  simp only [← parseUintLit_iff]
  cases j with
  | num l =>
    dsimp only
    cases h : parseUintLit bound l <;> simp [typeErr, h, eq_comm]
  | _ => simp [typeErr, hid, eq_comm]

theorem dec_fTime {σ : Type} {name : GoString} {get : σ → GoTime} {set : σ → GoTime → σ} (hid : ∀ s, set s (get s) = s)
    (j : Json) (s s' : σ) : (fTime name get set).dec j s = .ok s' ↔ ∃ v, TimeStep j (get s) v ∧ s' = set s v := by
  unfold fTime TimeStep
  simp only [← parseTime_iff]
  cases j with
  | str l =>
    dsimp only
    cases h : parseTime l <;> simp [typeErr, h, eq_comm]
  | _ => simp [typeErr, hid, eq_comm]

theorem decStruct_iff {τ : Type} {fs : List (Field τ)} {R : Members → τ → τ → Prop} (hR : ReadsAs fs R) {j : Json} {v w : τ} :
    decStruct fs j v = .ok w ↔ PartStep R j v w := by
  unfold decStruct PartStep
  cases j with
  | obj m => simp [hR m v w]
  | _ => simp [typeErr, eq_comm]

theorem dec_fStruct {σ τ : Type} {name : GoString} {fs : List (Field τ)} {get : σ → τ} {set : σ → τ → σ} {R : Members → τ → τ → Prop}
    (hR : ReadsAs fs R) (j : Json) (s s' : σ) :
    (fStruct name fs get set).dec j s = .ok s' ↔ ∃ v, PartStep R j (get s) v ∧ s' = set s v := by
  simp only [← decStruct_iff hR]
  unfold fStruct
  dsimp only
  cases h : decStruct fs j (get s) <;> simp [eq_comm]

theorem dec_fPtr {σ τ : Type} {name : GoString} {fs : List (Field τ)} {zero : τ} {get : σ → Option τ} {set : σ → Option τ → σ}
    {R : Members → τ → τ → Prop} (hR : ReadsAs fs R) (j : Json) (s s' : σ) :
    (fPtr name fs zero get set).dec j s = .ok s' ↔ ∃ v, OptStep R zero j (get s) v ∧ s' = set s v := by
  unfold fPtr OptStep
  cases j with
  | null => simp [eq_comm]
  | obj m =>
    have hx : ∀ m v x, R m v x ↔ decMembers fs m v = .ok x := fun m v x => (hR m v x).symm
    simp only [hx]
    unfold decStruct
    dsimp only
    cases h : decMembers fs m ((get s).getD zero) <;> simp [h, eq_comm]
  | _ => simp [decStruct, typeErr]

theorem decElems_iff {τ : Type} {fs : List (Field τ)} {zero : τ} {R : Members → τ → τ → Prop} (hR : ReadsAs fs R) {js : List Json} {w : List τ} :
    decElems fs zero js = .ok w ↔ List.Forall₂ (fun e x => ∃ m, e = .obj m ∧ R m zero x) js w := by
  induction js generalizing w with
  | nil => rw [decElems, List.forall₂_nil_left_iff]; simp [eq_comm]
  | cons j js ih =>
    rw [List.forall₂_cons_left_iff]
    cases j with
    | null => simp [decElems]
    | obj m =>
      simp only [← ih]
      have hR' := hR m zero
      rw [decElems.eq_def]
      simp only [decStruct]
      cases h1 : decMembers fs m zero with
      | ok x =>
        dsimp only
        have hx : ∀ x', R m zero x' ↔ x = x' := by
          intro x'
          rw [← hR', h1]
          simp
        cases h2 : decElems fs zero js <;> simp [hx, eq_comm]
      | err e =>
        have hx : ∀ x', ¬ R m zero x' := by intro x'; rw [← hR', h1]; simp
        simp [hx]
      | panic =>
        have hx : ∀ x', ¬ R m zero x' := by intro x'; rw [← hR', h1]; simp
        simp [hx]
    | _ => simp [decElems, decStruct, typeErr]

theorem dec_fList {σ τ : Type} {name : GoString} {fs : List (Field τ)} {zero : τ} {get : σ → List τ} {set : σ → List τ → σ}
    {R : Members → τ → τ → Prop} (hR : ReadsAs fs R) (j : Json) (s s' : σ) :
    (fList name fs zero get set).dec j s = .ok s' ↔ ∃ v, ListStep R zero j (get s) v ∧ s' = set s v := by
  unfold fList ListStep
  simp only [← decElems_iff hR]
  cases j with
  | arr js =>
    dsimp only
    cases h : decElems fs zero js <;> simp [h, eq_comm]
  | _ => simp [typeErr, eq_comm]

theorem decStrs_iff {js : List Json} {w : List GoString} :
    decStrs js = .ok w ↔ List.Forall₂ (fun e x => e = .str x ∨ (e = .null ∧ x = [])) js w := by
  induction js generalizing w with
  | nil => rw [decStrs, List.forall₂_nil_left_iff]; simp [eq_comm]
  | cons j js ih =>
    rw [List.forall₂_cons_left_iff]
    simp only [← ih]
    cases j with
    | null => rw [decStrs]; cases h : decStrs js <;> simp [eq_comm]
    | str s => rw [decStrs]; cases h : decStrs js <;> simp [eq_comm]
    | _ => simp [decStrs, typeErr]

theorem dec_fStrs {σ : Type} {name : GoString} {get : σ → List GoString} {set : σ → List GoString → σ}
    (j : Json) (s s' : σ) : (fStrs name get set).dec j s = .ok s' ↔ ∃ v, TextsStep j (get s) v ∧ s' = set s v := by
  unfold fStrs TextsStep
  simp only [← decStrs_iff]
  cases j with
  | arr js =>
    dsimp only
    cases h : decStrs js <;> simp [h, eq_comm]
  | _ => simp [typeErr, eq_comm]

theorem decMap_iff {α : Type} {elem : Json → Res α} {E : Json → α → Prop} (hE : ∀ j a, elem j = .ok a ↔ E j a) {m : Members}
    {v w : List (GoString × α)} : decMap elem m v = .ok w ↔ Puts E m v w := by
  induction m generalizing v with
  | nil =>
    rw [decMap]
    constructor
    · intro h; cases h; exact .nil _
    · intro h; cases h; rfl
  | cons kj m ih =>
    obtain ⟨k, j⟩ := kj
    rw [decMap]
    constructor
    · intro h
      cases he : elem j with
      | ok a => rw [he] at h; exact .cons ((hE j a).1 he) (ih.1 h)
      | err e => rw [he] at h; cases h
      | panic => rw [he] at h; cases h
    · intro h
      cases h with
      | cons he h =>
        rw [(hE _ _).2 he]
        exact ih.2 h

theorem dec_fMap {σ α : Type} {name : GoString} {encElem : α → Json} {elem : Json → Res α} {get : σ → List (GoString × α)}
    {set : σ → List (GoString × α) → σ} {E : Json → α → Prop} (hE : ∀ j a, elem j = .ok a ↔ E j a)
    (j : Json) (s s' : σ) : (fMap name encElem elem get set).dec j s = .ok s' ↔ ∃ v, MapStep E j (get s) v ∧ s' = set s v := by
  unfold fMap MapStep
  simp only [← decMap_iff hE]
  cases j with
  | obj m =>
    dsimp only
    cases h : decMap elem m (get s) <;> simp [h, eq_comm]
  | _ => simp [typeErr, eq_comm]

theorem dec_fOptMap {σ α : Type} {name : GoString} {encElem : α → Json} {elem : Json → Res α} {get : σ → Option (List (GoString × α))}
    {set : σ → Option (List (GoString × α)) → σ} {E : Json → α → Prop} (hE : ∀ j a, elem j = .ok a ↔ E j a)
    (j : Json) (s s' : σ) : (fOptMap name encElem elem get set).dec j s = .ok s' ↔ ∃ v, OptMapStep E j (get s) v ∧ s' = set s v := by
  unfold fOptMap OptMapStep
  simp only [← decMap_iff hE]
  cases j with
  | obj m =>
    dsimp only
    cases h : decMap elem m ((get s).getD []) <;> simp [h, eq_comm]
  | _ => simp [typeErr, eq_comm]

theorem elemStr_iff (j : Json) (a : GoString) : elemStr j = .ok a ↔ TextElem j a := by
  unfold elemStr TextElem TextStep
  cases j <;> simp [typeErr, eq_comm]

theorem elemBool_iff (j : Json) (a : Bool) : elemBool j = .ok a ↔ BoolElem j a := by
  unfold elemBool BoolElem BoolStep
  cases j <;> simp [typeErr, eq_comm]

theorem elemAny_iff (j a : Json) : elemAny j = .ok a ↔ AnyElem j a := by
  unfold elemAny AnyElem
  by_cases h : j.floatsOk = true
  · rw [if_pos h]
    constructor
    · intro e; cases e; exact ⟨rfl, h⟩
    · rintro ⟨rfl, _⟩; rfl
  · rw [if_neg h]
    constructor
    · intro e; cases e
    · exact fun e => absurd e.2 h

theorem dec_fAny {σ : Type} {name : GoString} {get : σ → Json} {set : σ → Json → σ}
    (j : Json) (s s' : σ) : (fAny name get set).dec j s = .ok s' ↔ ∃ v, AnyElem j v ∧ s' = set s v := by
  simp only [← elemAny_iff]
  unfold fAny
  dsimp only
  cases h : elemAny j <;> simp [eq_comm]

/-! ## Records -/

/-- The other parts of the record stay as they are. -/
macro "others" : tactic => `(tactic| (
  repeat' (refine List.forall_mem_cons.2 ⟨?_, ?_⟩)
  all_goals first | exact fun _ _ _ => rfl | exact fun h => absurd rfl h | exact List.forall_mem_nil _))

theorem role_reads : ReadsAs roleFields Role.Says := by
  intro m s r
  unfold roleFields Role.Says
  refine (decMembers_iff (ρ := Unit) (rest := fun _ => ()) (sls := [
      ⟨(gs! "name"), _, fun x => x.name, TextStep⟩,
      ⟨(gs! "organization"), _, fun x => x.organization, TextStep⟩]) ?_ ?_ (by decide) (by decide)).trans ?_
  · refine .cons ⟨rfl, _, fun _ _ => rfl, fun _ _ => rfl, by others, dec_fStr (fun _ => rfl)⟩ <|
      .cons ⟨rfl, _, fun _ _ => rfl, fun _ _ => rfl, by others, dec_fStr (fun _ => rfl)⟩ <|
      .nil
  · intro s s' h hr
    simp only [List.forall_mem_cons] at h
    cases s; cases s'
    simp_all
  · simp only [List.forall_mem_cons, List.not_mem_nil, false_imp_iff, implies_true, true_and, and_true, and_assoc]

theorem name_reads : ReadsAs nameFields Name.Says := by
  intro m s r
  unfold nameFields Name.Says
  refine (decMembers_iff (ρ := Unit) (rest := fun _ => ()) (sls := [
      ⟨(gs! "first"), _, fun x => x.first, TextStep⟩,
      ⟨(gs! "last"), _, fun x => x.last, TextStep⟩,
      ⟨(gs! "middle"), _, fun x => x.middle, TextStep⟩,
      ⟨(gs! "preferred"), _, fun x => x.preferred, TextStep⟩,
      ⟨(gs! "nickname"), _, fun x => x.nickname, BoolStep⟩,
      ⟨(gs! "confirmed"), _, fun x => x.confirmed, BoolStep⟩,
      ⟨(gs! "primary"), _, fun x => x.primary, BoolStep⟩,
      ⟨(gs! "legal"), _, fun x => x.legal, BoolStep⟩,
      ⟨(gs! "alias"), _, fun x => x.alias, BoolStep⟩]) ?_ ?_ (by decide) (by decide)).trans ?_
  · refine .cons ⟨rfl, _, fun _ _ => rfl, fun _ _ => rfl, by others, dec_fStr (fun _ => rfl)⟩ <|
      .cons ⟨rfl, _, fun _ _ => rfl, fun _ _ => rfl, by others, dec_fStr (fun _ => rfl)⟩ <|
      .cons ⟨rfl, _, fun _ _ => rfl, fun _ _ => rfl, by others, dec_fStr (fun _ => rfl)⟩ <|
      .cons ⟨rfl, _, fun _ _ => rfl, fun _ _ => rfl, by others, dec_fStr (fun _ => rfl)⟩ <|
      .cons ⟨rfl, _, fun _ _ => rfl, fun _ _ => rfl, by others, dec_fBool (fun _ => rfl)⟩ <|
      .cons ⟨rfl, _, fun _ _ => rfl, fun _ _ => rfl, by others, dec_fBool (fun _ => rfl)⟩ <|
      .cons ⟨rfl, _, fun _ _ => rfl, fun _ _ => rfl, by others, dec_fBool (fun _ => rfl)⟩ <|
      .cons ⟨rfl, _, fun _ _ => rfl, fun _ _ => rfl, by others, dec_fBool (fun _ => rfl)⟩ <|
      .cons ⟨rfl, _, fun _ _ => rfl, fun _ _ => rfl, by others, dec_fBool (fun _ => rfl)⟩ <|
      .nil
  · intro s s' h hr
    simp only [List.forall_mem_cons] at h
    cases s; cases s'
    simp_all
  · simp only [List.forall_mem_cons, List.not_mem_nil, false_imp_iff, implies_true, true_and, and_true, and_assoc]

theorem organization_reads : ReadsAs organizationFields Organization.Says := by
  intro m s r
  unfold organizationFields Organization.Says
  refine (decMembers_iff (ρ := Unit) (rest := fun _ => ()) (sls := [
      ⟨(gs! "id"), _, fun x => x.id, (NatStep (2 ^ 64))⟩,
      ⟨(gs! "name"), _, fun x => x.name, TextStep⟩,
      ⟨(gs! "aliases"), _, fun x => x.aliases, TextsStep⟩]) ?_ ?_ (by decide) (by decide)).trans ?_
  · refine .cons ⟨rfl, _, fun _ _ => rfl, fun _ _ => rfl, by others, dec_fUint (fun _ => rfl)⟩ <|
      .cons ⟨rfl, _, fun _ _ => rfl, fun _ _ => rfl, by others, dec_fStr (fun _ => rfl)⟩ <|
      .cons ⟨rfl, _, fun _ _ => rfl, fun _ _ => rfl, by others, dec_fStrs⟩ <|
      .nil
  · intro s s' h hr
    simp only [List.forall_mem_cons] at h
    cases s; cases s'
    simp_all
  · simp only [List.forall_mem_cons, List.not_mem_nil, false_imp_iff, implies_true, true_and, and_true, and_assoc]

theorem location_reads : ReadsAs locationFields Location.Says := by
  intro m s r
  unfold locationFields Location.Says
  refine (decMembers_iff (ρ := Unit) (rest := fun _ => ()) (sls := [
      ⟨(gs! "street"), _, fun x => x.street, TextStep⟩,
      ⟨(gs! "city"), _, fun x => x.city, TextStep⟩,
      ⟨(gs! "state"), _, fun x => x.state, TextStep⟩,
      ⟨(gs! "zip_code"), _, fun x => x.zipCode, TextStep⟩,
      ⟨(gs! "confirmed"), _, fun x => x.confirmed, BoolStep⟩,
      ⟨(gs! "current"), _, fun x => x.current, BoolStep⟩,
      ⟨(gs! "domicile"), _, fun x => x.domicile, BoolStep⟩,
      ⟨(gs! "residential"), _, fun x => x.residential, BoolStep⟩,
      ⟨(gs! "commercial"), _, fun x => x.commercial, BoolStep⟩]) ?_ ?_ (by decide) (by decide)).trans ?_
  · refine .cons ⟨rfl, _, fun _ _ => rfl, fun _ _ => rfl, by others, dec_fStr (fun _ => rfl)⟩ <|
      .cons ⟨rfl, _, fun _ _ => rfl, fun _ _ => rfl, by others, dec_fStr (fun _ => rfl)⟩ <|
      .cons ⟨rfl, _, fun _ _ => rfl, fun _ _ => rfl, by others, dec_fStr (fun _ => rfl)⟩ <|
      .cons ⟨rfl, _, fun _ _ => rfl, fun _ _ => rfl, by others, dec_fStr (fun _ => rfl)⟩ <|
      .cons ⟨rfl, _, fun _ _ => rfl, fun _ _ => rfl, by others, dec_fBool (fun _ => rfl)⟩ <|
      .cons ⟨rfl, _, fun _ _ => rfl, fun _ _ => rfl, by others, dec_fBool (fun _ => rfl)⟩ <|
      .cons ⟨rfl, _, fun _ _ => rfl, fun _ _ => rfl, by others, dec_fBool (fun _ => rfl)⟩ <|
      .cons ⟨rfl, _, fun _ _ => rfl, fun _ _ => rfl, by others, dec_fBool (fun _ => rfl)⟩ <|
      .cons ⟨rfl, _, fun _ _ => rfl, fun _ _ => rfl, by others, dec_fBool (fun _ => rfl)⟩ <|
      .nil
  · intro s s' h hr
    simp only [List.forall_mem_cons] at h
    cases s; cases s'
    simp_all
  · simp only [List.forall_mem_cons, List.not_mem_nil, false_imp_iff, implies_true, true_and, and_true, and_assoc]

theorem emailAddress_reads : ReadsAs emailFields EmailAddress.Says := by
  intro m s r
  unfold emailFields EmailAddress.Says
  refine (decMembers_iff (ρ := Bool) (rest := fun x => x.isPrimary) (sls := [
      ⟨(gs! "address"), _, fun x => x.address, TextStep⟩,
      ⟨(gs! "confirmed"), _, fun x => x.confirmed, BoolStep⟩,
      ⟨(gs! "domain"), _, fun x => x.domain, TextStep⟩]) ?_ ?_ (by decide) (by decide)).trans ?_
  · refine .cons ⟨rfl, fun s v => { s with address := v }, fun _ _ => rfl, fun _ _ => rfl, by others, dec_fStr (fun _ => rfl)⟩ <|
      .cons ⟨rfl, fun s v => { s with confirmed := v }, fun _ _ => rfl, fun _ _ => rfl, by others, dec_fBool (fun _ => rfl)⟩ <|
      .cons ⟨rfl, fun s v => { s with domain := v }, fun _ _ => rfl, fun _ _ => rfl, by others, dec_fStr (fun _ => rfl)⟩ <|
      .nil
  · intro s s' h hr
    simp only [List.forall_mem_cons] at h
    cases s; cases s'
    simp_all
  · simp only [List.forall_mem_cons, List.not_mem_nil, false_imp_iff, implies_true, true_and, and_true, and_assoc]

theorem password_reads : ReadsAs passwordFields Password.Says := by
  intro m s r
  unfold passwordFields Password.Says
  refine (decMembers_iff (ρ := Unit) (rest := fun _ => ()) (sls := [
      ⟨(gs! "purpose"), _, fun x => x.purpose, TextStep⟩,
      ⟨(gs! "algorithm"), _, fun x => x.algorithm, TextStep⟩,
      ⟨(gs! "hash"), _, fun x => x.hash, TextStep⟩,
      ⟨(gs! "cost"), _, fun x => x.cost, IntStep⟩,
      ⟨(gs! "expired"), _, fun x => x.expired, BoolStep⟩,
      ⟨(gs! "expired_at"), _, fun x => x.expiredAt, TimeStep⟩,
      ⟨(gs! "created_at"), _, fun x => x.createdAt, TimeStep⟩,
      ⟨(gs! "disabled"), _, fun x => x.disabled, BoolStep⟩,
      ⟨(gs! "disabled_at"), _, fun x => x.disabledAt, TimeStep⟩]) ?_ ?_ (by decide) (by decide)).trans ?_
  · refine .cons ⟨rfl, _, fun _ _ => rfl, fun _ _ => rfl, by others, dec_fStr (fun _ => rfl)⟩ <|
      .cons ⟨rfl, _, fun _ _ => rfl, fun _ _ => rfl, by others, dec_fStr (fun _ => rfl)⟩ <|
      .cons ⟨rfl, _, fun _ _ => rfl, fun _ _ => rfl, by others, dec_fStr (fun _ => rfl)⟩ <|
      .cons ⟨rfl, _, fun _ _ => rfl, fun _ _ => rfl, by others, dec_fInt (fun _ => rfl)⟩ <|
      .cons ⟨rfl, _, fun _ _ => rfl, fun _ _ => rfl, by others, dec_fBool (fun _ => rfl)⟩ <|
      .cons ⟨rfl, _, fun _ _ => rfl, fun _ _ => rfl, by others, dec_fTime (fun _ => rfl)⟩ <|
      .cons ⟨rfl, _, fun _ _ => rfl, fun _ _ => rfl, by others, dec_fTime (fun _ => rfl)⟩ <|
      .cons ⟨rfl, _, fun _ _ => rfl, fun _ _ => rfl, by others, dec_fBool (fun _ => rfl)⟩ <|
      .cons ⟨rfl, _, fun _ _ => rfl, fun _ _ => rfl, by others, dec_fTime (fun _ => rfl)⟩ <|
      .nil
  · intro s s' h hr
    simp only [List.forall_mem_cons] at h
    cases s; cases s'
    simp_all
  · simp only [List.forall_mem_cons, List.not_mem_nil, false_imp_iff, implies_true, true_and, and_true, and_assoc]

theorem aPIKey_reads : ReadsAs apiKeyFields APIKey.Says := by
  intro m s r
  unfold apiKeyFields APIKey.Says
  refine (decMembers_iff (ρ := Unit) (rest := fun _ => ()) (sls := [
      ⟨(gs! "id"), _, fun x => x.id, TextStep⟩,
      ⟨(gs! "prefix"), _, fun x => x.pfx, TextStep⟩,
      ⟨(gs! "usage"), _, fun x => x.usage, TextStep⟩,
      ⟨(gs! "comment"), _, fun x => x.comment, TextStep⟩,
      ⟨(gs! "payload"), _, fun x => x.payload, TextStep⟩,
      ⟨(gs! "expired"), _, fun x => x.expired, BoolStep⟩,
      ⟨(gs! "expired_at"), _, fun x => x.expiredAt, TimeStep⟩,
      ⟨(gs! "created_at"), _, fun x => x.createdAt, TimeStep⟩,
      ⟨(gs! "disabled"), _, fun x => x.disabled, BoolStep⟩,
      ⟨(gs! "disabled_at"), _, fun x => x.disabledAt, TimeStep⟩]) ?_ ?_ (by decide) (by decide)).trans ?_
  · refine .cons ⟨rfl, _, fun _ _ => rfl, fun _ _ => rfl, by others, dec_fStr (fun _ => rfl)⟩ <|
      .cons ⟨rfl, _, fun _ _ => rfl, fun _ _ => rfl, by others, dec_fStr (fun _ => rfl)⟩ <|
      .cons ⟨rfl, _, fun _ _ => rfl, fun _ _ => rfl, by others, dec_fStr (fun _ => rfl)⟩ <|
      .cons ⟨rfl, _, fun _ _ => rfl, fun _ _ => rfl, by others, dec_fStr (fun _ => rfl)⟩ <|
      .cons ⟨rfl, _, fun _ _ => rfl, fun _ _ => rfl, by others, dec_fStr (fun _ => rfl)⟩ <|
      .cons ⟨rfl, _, fun _ _ => rfl, fun _ _ => rfl, by others, dec_fBool (fun _ => rfl)⟩ <|
      .cons ⟨rfl, _, fun _ _ => rfl, fun _ _ => rfl, by others, dec_fTime (fun _ => rfl)⟩ <|
      .cons ⟨rfl, _, fun _ _ => rfl, fun _ _ => rfl, by others, dec_fTime (fun _ => rfl)⟩ <|
      .cons ⟨rfl, _, fun _ _ => rfl, fun _ _ => rfl, by others, dec_fBool (fun _ => rfl)⟩ <|
      .cons ⟨rfl, _, fun _ _ => rfl, fun _ _ => rfl, by others, dec_fTime (fun _ => rfl)⟩ <|
      .nil
  · intro s s' h hr
    simp only [List.forall_mem_cons] at h
    cases s; cases s'
    simp_all
  · simp only [List.forall_mem_cons, List.not_mem_nil, false_imp_iff, implies_true, true_and, and_true, and_assoc]

theorem publicKey_reads : ReadsAs publicKeyFields PublicKey.Says := by
  intro m s r
  unfold publicKeyFields PublicKey.Says
  refine (decMembers_iff (ρ := Unit) (rest := fun _ => ()) (sls := [
      ⟨(gs! "id"), _, fun x => x.id, TextStep⟩,
      ⟨(gs! "usage"), _, fun x => x.usage, TextStep⟩,
      ⟨(gs! "type"), _, fun x => x.type, TextStep⟩,
      ⟨(gs! "fingerprint"), _, fun x => x.fingerprint, TextStep⟩,
      ⟨(gs! "fingerprint_md5"), _, fun x => x.fingerprintMD5, TextStep⟩,
      ⟨(gs! "comment"), _, fun x => x.comment, TextStep⟩,
      ⟨(gs! "payload"), _, fun x => x.payload, TextStep⟩,
      ⟨(gs! "openssh"), _, fun x => x.openSSH, TextStep⟩,
      ⟨(gs! "expired"), _, fun x => x.expired, BoolStep⟩,
      ⟨(gs! "expired_at"), _, fun x => x.expiredAt, TimeStep⟩,
      ⟨(gs! "created_at"), _, fun x => x.createdAt, TimeStep⟩,
      ⟨(gs! "disabled"), _, fun x => x.disabled, BoolStep⟩,
      ⟨(gs! "disabled_at"), _, fun x => x.disabledAt, TimeStep⟩]) ?_ ?_ (by decide) (by decide)).trans ?_
  · refine .cons ⟨rfl, _, fun _ _ => rfl, fun _ _ => rfl, by others, dec_fStr (fun _ => rfl)⟩ <|
      .cons ⟨rfl, _, fun _ _ => rfl, fun _ _ => rfl, by others, dec_fStr (fun _ => rfl)⟩ <|
      .cons ⟨rfl, _, fun _ _ => rfl, fun _ _ => rfl, by others, dec_fStr (fun _ => rfl)⟩ <|
      .cons ⟨rfl, _, fun _ _ => rfl, fun _ _ => rfl, by others, dec_fStr (fun _ => rfl)⟩ <|
      .cons ⟨rfl, _, fun _ _ => rfl, fun _ _ => rfl, by others, dec_fStr (fun _ => rfl)⟩ <|
      .cons ⟨rfl, _, fun _ _ => rfl, fun _ _ => rfl, by others, dec_fStr (fun _ => rfl)⟩ <|
      .cons ⟨rfl, _, fun _ _ => rfl, fun _ _ => rfl, by others, dec_fStr (fun _ => rfl)⟩ <|
      .cons ⟨rfl, _, fun _ _ => rfl, fun _ _ => rfl, by others, dec_fStr (fun _ => rfl)⟩ <|
      .cons ⟨rfl, _, fun _ _ => rfl, fun _ _ => rfl, by others, dec_fBool (fun _ => rfl)⟩ <|
      .cons ⟨rfl, _, fun _ _ => rfl, fun _ _ => rfl, by others, dec_fTime (fun _ => rfl)⟩ <|
      .cons ⟨rfl, _, fun _ _ => rfl, fun _ _ => rfl, by others, dec_fTime (fun _ => rfl)⟩ <|
      .cons ⟨rfl, _, fun _ _ => rfl, fun _ _ => rfl, by others, dec_fBool (fun _ => rfl)⟩ <|
      .cons ⟨rfl, _, fun _ _ => rfl, fun _ _ => rfl, by others, dec_fTime (fun _ => rfl)⟩ <|
      .nil
  · intro s s' h hr
    simp only [List.forall_mem_cons] at h
    cases s; cases s'
    simp_all
  · simp only [List.forall_mem_cons, List.not_mem_nil, false_imp_iff, implies_true, true_and, and_true, and_assoc]

theorem mfaDevice_reads : ReadsAs mfaDeviceFields MfaDevice.Says := by
  intro m s r
  unfold mfaDeviceFields MfaDevice.Says
  refine (decMembers_iff (ρ := Unit) (rest := fun _ => ()) (sls := [
      ⟨(gs! "name"), _, fun x => x.name, TextStep⟩,
      ⟨(gs! "vendor"), _, fun x => x.vendor, TextStep⟩,
      ⟨(gs! "type"), _, fun x => x.type, TextStep⟩]) ?_ ?_ (by decide) (by decide)).trans ?_
  · refine .cons ⟨rfl, _, fun _ _ => rfl, fun _ _ => rfl, by others, dec_fStr (fun _ => rfl)⟩ <|
      .cons ⟨rfl, _, fun _ _ => rfl, fun _ _ => rfl, by others, dec_fStr (fun _ => rfl)⟩ <|
      .cons ⟨rfl, _, fun _ _ => rfl, fun _ _ => rfl, by others, dec_fStr (fun _ => rfl)⟩ <|
      .nil
  · intro s s' h hr
    simp only [List.forall_mem_cons] at h
    cases s; cases s'
    simp_all
  · simp only [List.forall_mem_cons, List.not_mem_nil, false_imp_iff, implies_true, true_and, and_true, and_assoc]

theorem mfaToken_reads : ReadsAs mfaTokenFields MfaToken.Says := by
  intro m s r
  unfold mfaTokenFields MfaToken.Says
  refine (decMembers_iff (ρ := Unit) (rest := fun _ => ()) (sls := [
      ⟨(gs! "id"), _, fun x => x.id, TextStep⟩,
      ⟨(gs! "type"), _, fun x => x.type, TextStep⟩,
      ⟨(gs! "algorithm"), _, fun x => x.algorithm, TextStep⟩,
      ⟨(gs! "comment"), _, fun x => x.comment, TextStep⟩,
      ⟨(gs! "secret"), _, fun x => x.secret, TextStep⟩,
      ⟨(gs! "period"), _, fun x => x.period, IntStep⟩,
      ⟨(gs! "digits"), _, fun x => x.digits, IntStep⟩,
      ⟨(gs! "expired"), _, fun x => x.expired, BoolStep⟩,
      ⟨(gs! "expired_at"), _, fun x => x.expiredAt, TimeStep⟩,
      ⟨(gs! "created_at"), _, fun x => x.createdAt, TimeStep⟩,
      ⟨(gs! "disabled"), _, fun x => x.disabled, BoolStep⟩,
      ⟨(gs! "disabled_at"), _, fun x => x.disabledAt, TimeStep⟩,
      ⟨(gs! "device"), _, fun x => x.device, (OptStep MfaDevice.Says MfaDevice.zero)⟩,
      ⟨(gs! "parameters"), _, fun x => x.parameters, (MapStep TextElem)⟩,
      ⟨(gs! "flags"), _, fun x => x.flags, (MapStep BoolElem)⟩,
      ⟨(gs! "signature_counter"), _, fun x => x.signatureCounter, (NatStep (2 ^ 32))⟩]) ?_ ?_ (by decide) (by decide)).trans ?_
  · refine .cons ⟨rfl, _, fun _ _ => rfl, fun _ _ => rfl, by others, dec_fStr (fun _ => rfl)⟩ <|
      .cons ⟨rfl, _, fun _ _ => rfl, fun _ _ => rfl, by others, dec_fStr (fun _ => rfl)⟩ <|
      .cons ⟨rfl, _, fun _ _ => rfl, fun _ _ => rfl, by others, dec_fStr (fun _ => rfl)⟩ <|
      .cons ⟨rfl, _, fun _ _ => rfl, fun _ _ => rfl, by others, dec_fStr (fun _ => rfl)⟩ <|
      .cons ⟨rfl, _, fun _ _ => rfl, fun _ _ => rfl, by others, dec_fStr (fun _ => rfl)⟩ <|
      .cons ⟨rfl, _, fun _ _ => rfl, fun _ _ => rfl, by others, dec_fInt (fun _ => rfl)⟩ <|
      .cons ⟨rfl, _, fun _ _ => rfl, fun _ _ => rfl, by others, dec_fInt (fun _ => rfl)⟩ <|
      .cons ⟨rfl, _, fun _ _ => rfl, fun _ _ => rfl, by others, dec_fBool (fun _ => rfl)⟩ <|
      .cons ⟨rfl, _, fun _ _ => rfl, fun _ _ => rfl, by others, dec_fTime (fun _ => rfl)⟩ <|
      .cons ⟨rfl, _, fun _ _ => rfl, fun _ _ => rfl, by others, dec_fTime (fun _ => rfl)⟩ <|
      .cons ⟨rfl, _, fun _ _ => rfl, fun _ _ => rfl, by others, dec_fBool (fun _ => rfl)⟩ <|
      .cons ⟨rfl, _, fun _ _ => rfl, fun _ _ => rfl, by others, dec_fTime (fun _ => rfl)⟩ <|
      .cons ⟨rfl, _, fun _ _ => rfl, fun _ _ => rfl, by others, dec_fPtr mfaDevice_reads⟩ <|
      .cons ⟨rfl, _, fun _ _ => rfl, fun _ _ => rfl, by others, dec_fMap elemStr_iff⟩ <|
      .cons ⟨rfl, _, fun _ _ => rfl, fun _ _ => rfl, by others, dec_fMap elemBool_iff⟩ <|
      .cons ⟨rfl, _, fun _ _ => rfl, fun _ _ => rfl, by others, dec_fUint (fun _ => rfl)⟩ <|
      .nil
  · intro s s' h hr
    simp only [List.forall_mem_cons] at h
    cases s; cases s'
    simp_all
  · simp only [List.forall_mem_cons, List.not_mem_nil, false_imp_iff, implies_true, true_and, and_true, and_assoc]

theorem lockoutState_reads : ReadsAs lockoutFields LockoutState.Says := by
  intro m s r
  unfold lockoutFields LockoutState.Says
  refine (decMembers_iff (ρ := Unit) (rest := fun _ => ()) (sls := [
      ⟨(gs! "enabled"), _, fun x => x.enabled, BoolStep⟩,
      ⟨(gs! "start_time"), _, fun x => x.startTime, TimeStep⟩,
      ⟨(gs! "end_time"), _, fun x => x.endTime, TimeStep⟩]) ?_ ?_ (by decide) (by decide)).trans ?_
  · refine .cons ⟨rfl, _, fun _ _ => rfl, fun _ _ => rfl, by others, dec_fBool (fun _ => rfl)⟩ <|
      .cons ⟨rfl, _, fun _ _ => rfl, fun _ _ => rfl, by others, dec_fTime (fun _ => rfl)⟩ <|
      .cons ⟨rfl, _, fun _ _ => rfl, fun _ _ => rfl, by others, dec_fTime (fun _ => rfl)⟩ <|
      .nil
  · intro s s' h hr
    simp only [List.forall_mem_cons] at h
    cases s; cases s'
    simp_all
  · simp only [List.forall_mem_cons, List.not_mem_nil, false_imp_iff, implies_true, true_and, and_true, and_assoc]


theorem size_reads {m : Members} {s r : Image} : decMembers imageConfigFields m s = .ok r ↔
    SizeSays m (s.width, s.height) (r.width, r.height) ∧ (r.title, r.body, r.path) = (s.title, s.body, s.path) := by
  unfold imageConfigFields SizeSays
  refine (decMembers_iff (ρ := GoString × GoString × GoString) (rest := fun x => (x.title, x.body, x.path)) (sls := [
      ⟨gs! "ColorModel", Unit, fun _ => (), fun j _ _ => j = .null⟩,
      ⟨gs! "Width", _, fun x => x.width, IntStep⟩,
      ⟨gs! "Height", _, fun x => x.height, IntStep⟩]) ?_ ?_ (by decide) (by decide)).trans ?_
  · refine .cons ⟨rfl, fun s _ => s, fun _ _ => rfl, fun _ _ => rfl, by others, ?_⟩ <|
      .cons ⟨rfl, fun s v => { s with width := v }, fun _ _ => rfl, fun _ _ => rfl, by others, dec_fIntAlways (fun _ => rfl)⟩ <|
      .cons ⟨rfl, fun s v => { s with height := v }, fun _ _ => rfl, fun _ _ => rfl, by others, dec_fIntAlways (fun _ => rfl)⟩ .nil
    intro j s s'
    cases j <;> simp [typeErr, eq_comm]
  · intro s s' h hr
    simp only [List.forall_mem_cons] at h
    cases s; cases s'
    simp_all
  · simp only [List.forall_mem_cons, List.not_mem_nil, false_imp_iff, implies_true, true_and, and_true, and_assoc]

theorem image_reads : ReadsAs imageFields Image.Says := by
  intro m s r
  unfold imageFields Image.Says
  refine (decMembers_iff (ρ := Unit) (rest := fun _ => ()) (sls := [
      ⟨gs! "title", _, fun x => x.title, TextStep⟩,
      ⟨gs! "body", _, fun x => x.body, TextStep⟩,
      ⟨gs! "config", _, fun x => (x.width, x.height), PartStep SizeSays⟩,
      ⟨gs! "path", _, fun x => x.path, TextStep⟩]) ?_ ?_ (by decide) (by decide)).trans ?_
  · refine .cons ⟨rfl, _, fun _ _ => rfl, fun _ _ => rfl, by others, dec_fStr (fun _ => rfl)⟩ <|
      .cons ⟨rfl, _, fun _ _ => rfl, fun _ _ => rfl, by others, dec_fStr (fun _ => rfl)⟩ <|
      .cons ⟨rfl, fun s v => { s with width := v.1, height := v.2 }, fun _ _ => rfl, fun _ _ => rfl, by others, ?_⟩ <|
      .cons ⟨rfl, _, fun _ _ => rfl, fun _ _ => rfl, by others, dec_fStr (fun _ => rfl)⟩ .nil
    intro j s s'
    unfold fStruct decStruct PartStep
    cases j with
    | obj m =>
      dsimp only
      have hs := fun r => size_reads (m := m) (s := s) (r := r)
      constructor
      · intro h
        cases hd : decMembers imageConfigFields m s with
        | ok v =>
          rw [hd] at h
          cases h
          obtain ⟨h1, h2⟩ := (hs _).1 hd
          refine ⟨_, .inr ⟨m, rfl, h1⟩, ?_⟩
          cases s; cases s'
          simp_all
        | err e => rw [hd] at h; cases h
        | panic => rw [hd] at h; cases h
      · rintro ⟨v, (⟨h, _⟩ | ⟨m', h, h1⟩), rfl⟩
        · cases h
        · cases h
          rw [(hs { s with width := v.1, height := v.2 }).2 ⟨h1, rfl⟩]
    | null =>
      dsimp only
      constructor
      · intro h; cases h; exact ⟨_, .inl ⟨rfl, rfl⟩, rfl⟩
      · rintro ⟨v, (⟨_, rfl⟩ | ⟨m', h, _⟩), rfl⟩
        · rfl
        · cases h
    | _ => simp [typeErr]
  · intro s s' h hr
    simp only [List.forall_mem_cons] at h
    cases s; cases s'
    simp_all
  · simp only [List.forall_mem_cons, List.not_mem_nil, false_imp_iff, implies_true, true_and, and_true]

theorem user_reads : ReadsAs userFields User.Says := by
  intro m s r
  unfold userFields User.Says
  refine (decMembers_iff (ρ := Unit) (rest := fun _ => ()) (sls := [
      ⟨(gs! "id"), _, fun x => x.id, TextStep⟩,
      ⟨(gs! "enabled"), _, fun x => x.enabled, BoolStep⟩,
      ⟨(gs! "human"), _, fun x => x.human, BoolStep⟩,
      ⟨(gs! "username"), _, fun x => x.username, TextStep⟩,
      ⟨(gs! "title"), _, fun x => x.title, TextStep⟩,
      ⟨(gs! "name"), _, fun x => x.name, (OptStep Name.Says Name.zero)⟩,
      ⟨(gs! "organization"), _, fun x => x.organization, (OptStep Organization.Says Organization.zero)⟩,
      ⟨(gs! "names"), _, fun x => x.names, (ListStep Name.Says Name.zero)⟩,
      ⟨(gs! "organizations"), _, fun x => x.organizations, (ListStep Organization.Says Organization.zero)⟩,
      ⟨(gs! "street_address"), _, fun x => x.streetAddress, (ListStep Location.Says Location.zero)⟩,
      ⟨(gs! "email_address"), _, fun x => x.emailAddress, (OptStep EmailAddress.Says EmailAddress.zero)⟩,
      ⟨(gs! "email_addresses"), _, fun x => x.emailAddresses, (ListStep EmailAddress.Says EmailAddress.zero)⟩,
      ⟨(gs! "passwords"), _, fun x => x.passwords, (ListStep Password.Says Password.zero)⟩,
      ⟨(gs! "public_keys"), _, fun x => x.publicKeys, (ListStep PublicKey.Says PublicKey.zero)⟩,
      ⟨(gs! "api_keys"), _, fun x => x.apiKeys, (ListStep APIKey.Says APIKey.zero)⟩,
      ⟨(gs! "mfa_tokens"), _, fun x => x.mfaTokens, (ListStep MfaToken.Says MfaToken.zero)⟩,
      ⟨(gs! "lockout"), _, fun x => x.lockout, (OptStep LockoutState.Says LockoutState.zero)⟩,
      ⟨(gs! "avatar"), _, fun x => x.avatar, (OptStep Image.Says Image.zero)⟩,
      ⟨(gs! "created"), _, fun x => x.created, TimeStep⟩,
      ⟨(gs! "last_modified"), _, fun x => x.lastModified, TimeStep⟩,
      ⟨(gs! "revision"), _, fun x => x.revision, IntStep⟩,
      ⟨(gs! "roles"), _, fun x => x.roles, (ListStep Role.Says Role.zero)⟩]) ?_ ?_ (by decide) (by decide)).trans ?_
  · refine .cons ⟨rfl, _, fun _ _ => rfl, fun _ _ => rfl, by others, dec_fStr (fun _ => rfl)⟩ <|
      .cons ⟨rfl, _, fun _ _ => rfl, fun _ _ => rfl, by others, dec_fBool (fun _ => rfl)⟩ <|
      .cons ⟨rfl, _, fun _ _ => rfl, fun _ _ => rfl, by others, dec_fBool (fun _ => rfl)⟩ <|
      .cons ⟨rfl, _, fun _ _ => rfl, fun _ _ => rfl, by others, dec_fStr (fun _ => rfl)⟩ <|
      .cons ⟨rfl, _, fun _ _ => rfl, fun _ _ => rfl, by others, dec_fStr (fun _ => rfl)⟩ <|
      .cons ⟨rfl, _, fun _ _ => rfl, fun _ _ => rfl, by others, dec_fPtr name_reads⟩ <|
      .cons ⟨rfl, _, fun _ _ => rfl, fun _ _ => rfl, by others, dec_fPtr organization_reads⟩ <|
      .cons ⟨rfl, _, fun _ _ => rfl, fun _ _ => rfl, by others, dec_fList name_reads⟩ <|
      .cons ⟨rfl, _, fun _ _ => rfl, fun _ _ => rfl, by others, dec_fList organization_reads⟩ <|
      .cons ⟨rfl, _, fun _ _ => rfl, fun _ _ => rfl, by others, dec_fList location_reads⟩ <|
      .cons ⟨rfl, _, fun _ _ => rfl, fun _ _ => rfl, by others, dec_fPtr emailAddress_reads⟩ <|
      .cons ⟨rfl, _, fun _ _ => rfl, fun _ _ => rfl, by others, dec_fList emailAddress_reads⟩ <|
      .cons ⟨rfl, _, fun _ _ => rfl, fun _ _ => rfl, by others, dec_fList password_reads⟩ <|
      .cons ⟨rfl, _, fun _ _ => rfl, fun _ _ => rfl, by others, dec_fList publicKey_reads⟩ <|
      .cons ⟨rfl, _, fun _ _ => rfl, fun _ _ => rfl, by others, dec_fList aPIKey_reads⟩ <|
      .cons ⟨rfl, _, fun _ _ => rfl, fun _ _ => rfl, by others, dec_fList mfaToken_reads⟩ <|
      .cons ⟨rfl, _, fun _ _ => rfl, fun _ _ => rfl, by others, dec_fPtr lockoutState_reads⟩ <|
      .cons ⟨rfl, _, fun _ _ => rfl, fun _ _ => rfl, by others, dec_fPtr image_reads⟩ <|
      .cons ⟨rfl, _, fun _ _ => rfl, fun _ _ => rfl, by others, dec_fTime (fun _ => rfl)⟩ <|
      .cons ⟨rfl, _, fun _ _ => rfl, fun _ _ => rfl, by others, dec_fTime (fun _ => rfl)⟩ <|
      .cons ⟨rfl, _, fun _ _ => rfl, fun _ _ => rfl, by others, dec_fInt (fun _ => rfl)⟩ <|
      .cons ⟨rfl, _, fun _ _ => rfl, fun _ _ => rfl, by others, dec_fList role_reads⟩ <|
      .nil
  · intro s s' h hr
    simp only [List.forall_mem_cons] at h
    cases s; cases s'
    simp_all
  · simp only [List.forall_mem_cons, List.not_mem_nil, false_imp_iff, implies_true, true_and, and_true, and_assoc]

theorem passwordPolicy_reads : ReadsAs passwordPolicyFields PasswordPolicy.Says := by
  intro m s r
  unfold passwordPolicyFields PasswordPolicy.Says
  refine (decMembers_iff (ρ := Unit) (rest := fun _ => ()) (sls := [
      ⟨(gs! "keep_versions"), _, fun x => x.keepVersions, IntStep⟩,
      ⟨(gs! "min_length"), _, fun x => x.minLength, IntStep⟩,
      ⟨(gs! "max_length"), _, fun x => x.maxLength, IntStep⟩,
      ⟨(gs! "require_uppercase"), _, fun x => x.requireUppercase, BoolStep⟩,
      ⟨(gs! "require_lowercase"), _, fun x => x.requireLowercase, BoolStep⟩,
      ⟨(gs! "require_number"), _, fun x => x.requireNumber, BoolStep⟩,
      ⟨(gs! "require_non_alpha_numeric"), _, fun x => x.requireNonAlphaNumeric, BoolStep⟩,
      ⟨(gs! "block_reuse"), _, fun x => x.blockReuse, BoolStep⟩,
      ⟨(gs! "block_password_change"), _, fun x => x.blockPasswordChange, BoolStep⟩]) ?_ ?_ (by decide) (by decide)).trans ?_
  · refine .cons ⟨rfl, _, fun _ _ => rfl, fun _ _ => rfl, by others, dec_fIntAlways (fun _ => rfl)⟩ <|
      .cons ⟨rfl, _, fun _ _ => rfl, fun _ _ => rfl, by others, dec_fIntAlways (fun _ => rfl)⟩ <|
      .cons ⟨rfl, _, fun _ _ => rfl, fun _ _ => rfl, by others, dec_fIntAlways (fun _ => rfl)⟩ <|
      .cons ⟨rfl, _, fun _ _ => rfl, fun _ _ => rfl, by others, dec_fBoolAlways (fun _ => rfl)⟩ <|
      .cons ⟨rfl, _, fun _ _ => rfl, fun _ _ => rfl, by others, dec_fBoolAlways (fun _ => rfl)⟩ <|
      .cons ⟨rfl, _, fun _ _ => rfl, fun _ _ => rfl, by others, dec_fBoolAlways (fun _ => rfl)⟩ <|
      .cons ⟨rfl, _, fun _ _ => rfl, fun _ _ => rfl, by others, dec_fBoolAlways (fun _ => rfl)⟩ <|
      .cons ⟨rfl, _, fun _ _ => rfl, fun _ _ => rfl, by others, dec_fBoolAlways (fun _ => rfl)⟩ <|
      .cons ⟨rfl, _, fun _ _ => rfl, fun _ _ => rfl, by others, dec_fBoolAlways (fun _ => rfl)⟩ <|
      .nil
  · intro s s' h hr
    simp only [List.forall_mem_cons] at h
    cases s; cases s'
    simp_all
  · simp only [List.forall_mem_cons, List.not_mem_nil, false_imp_iff, implies_true, true_and, and_true, and_assoc]

theorem userPolicy_reads : ReadsAs userPolicyFields UserPolicy.Says := by
  intro m s r
  unfold userPolicyFields UserPolicy.Says
  refine (decMembers_iff (ρ := Unit) (rest := fun _ => ()) (sls := [
      ⟨(gs! "min_length"), _, fun x => x.minLength, IntStep⟩,
      ⟨(gs! "max_length"), _, fun x => x.maxLength, IntStep⟩,
      ⟨(gs! "allow_non_alpha_numeric"), _, fun x => x.allowNonAlphaNumeric, BoolStep⟩,
      ⟨(gs! "allow_uppercase"), _, fun x => x.allowUppercase, BoolStep⟩]) ?_ ?_ (by decide) (by decide)).trans ?_
  · refine .cons ⟨rfl, _, fun _ _ => rfl, fun _ _ => rfl, by others, dec_fIntAlways (fun _ => rfl)⟩ <|
      .cons ⟨rfl, _, fun _ _ => rfl, fun _ _ => rfl, by others, dec_fIntAlways (fun _ => rfl)⟩ <|
      .cons ⟨rfl, _, fun _ _ => rfl, fun _ _ => rfl, by others, dec_fBoolAlways (fun _ => rfl)⟩ <|
      .cons ⟨rfl, _, fun _ _ => rfl, fun _ _ => rfl, by others, dec_fBoolAlways (fun _ => rfl)⟩ <|
      .nil
  · intro s s' h hr
    simp only [List.forall_mem_cons] at h
    cases s; cases s'
    simp_all
  · simp only [List.forall_mem_cons, List.not_mem_nil, false_imp_iff, implies_true, true_and, and_true, and_assoc]

theorem policy_reads : ReadsAs policyFields Policy.Says := by
  intro m s r
  unfold policyFields Policy.Says
  refine (decMembers_iff (ρ := Unit) (rest := fun _ => ()) (sls := [
      ⟨(gs! "password"), _, fun x => x.password, (PartStep PasswordPolicy.Says)⟩,
      ⟨(gs! "user"), _, fun x => x.user, (PartStep UserPolicy.Says)⟩]) ?_ ?_ (by decide) (by decide)).trans ?_
  · refine .cons ⟨rfl, _, fun _ _ => rfl, fun _ _ => rfl, by others, dec_fStruct passwordPolicy_reads⟩ <|
      .cons ⟨rfl, _, fun _ _ => rfl, fun _ _ => rfl, by others, dec_fStruct userPolicy_reads⟩ <|
      .nil
  · intro s s' h hr
    simp only [List.forall_mem_cons] at h
    cases s; cases s'
    simp_all
  · simp only [List.forall_mem_cons, List.not_mem_nil, false_imp_iff, implies_true, true_and, and_true, and_assoc]

theorem dBData_reads : ReadsAs dbFields DBData.Says := by
  intro m s r
  unfold dbFields DBData.Says
  refine (decMembers_iff (ρ := Unit) (rest := fun _ => ()) (sls := [
      ⟨(gs! "version"), _, fun x => x.version, TextStep⟩,
      ⟨(gs! "policy"), _, fun x => x.policy, (PartStep Policy.Says)⟩,
      ⟨(gs! "revision"), _, fun x => x.revision, (NatStep (2 ^ 64))⟩,
      ⟨(gs! "last_modified"), _, fun x => x.lastModified, TimeStep⟩,
      ⟨(gs! "users"), _, fun x => x.users, (ListStep User.Says User.zero)⟩]) ?_ ?_ (by decide) (by decide)).trans ?_
  · refine .cons ⟨rfl, _, fun _ _ => rfl, fun _ _ => rfl, by others, dec_fStr (fun _ => rfl)⟩ <|
      .cons ⟨rfl, _, fun _ _ => rfl, fun _ _ => rfl, by others, dec_fStruct policy_reads⟩ <|
      .cons ⟨rfl, _, fun _ _ => rfl, fun _ _ => rfl, by others, dec_fUint (fun _ => rfl)⟩ <|
      .cons ⟨rfl, _, fun _ _ => rfl, fun _ _ => rfl, by others, dec_fTime (fun _ => rfl)⟩ <|
      .cons ⟨rfl, _, fun _ _ => rfl, fun _ _ => rfl, by others, dec_fList user_reads⟩ <|
      .nil
  · intro s s' h hr
    simp only [List.forall_mem_cons] at h
    cases s; cases s'
    simp_all
  · simp only [List.forall_mem_cons, List.not_mem_nil, false_imp_iff, implies_true, true_and, and_true, and_assoc]

theorem clientData_reads : ReadsAs clientDataFields ClientData.Says := by
  intro m s r
  unfold clientDataFields ClientData.Says
  refine (decMembers_iff (ρ := Unit) (rest := fun _ => ()) (sls := [
      ⟨(gs! "challenge"), _, fun x => x.challenge, TextStep⟩,
      ⟨(gs! "crossOrigin"), _, fun x => x.crossOrigin, BoolStep⟩,
      ⟨(gs! "origin"), _, fun x => x.origin, TextStep⟩,
      ⟨(gs! "type"), _, fun x => x.type, TextStep⟩]) ?_ ?_ (by decide) (by decide)).trans ?_
  · refine .cons ⟨rfl, _, fun _ _ => rfl, fun _ _ => rfl, by others, dec_fStr (fun _ => rfl)⟩ <|
      .cons ⟨rfl, _, fun _ _ => rfl, fun _ _ => rfl, by others, dec_fBool (fun _ => rfl)⟩ <|
      .cons ⟨rfl, _, fun _ _ => rfl, fun _ _ => rfl, by others, dec_fStr (fun _ => rfl)⟩ <|
      .cons ⟨rfl, _, fun _ _ => rfl, fun _ _ => rfl, by others, dec_fStr (fun _ => rfl)⟩ <|
      .nil
  · intro s s' h hr
    simp only [List.forall_mem_cons] at h
    cases s; cases s'
    simp_all
  · simp only [List.forall_mem_cons, List.not_mem_nil, false_imp_iff, implies_true, true_and, and_true, and_assoc]

theorem credentialData_reads : ReadsAs credentialDataFields CredentialData.Says := by
  intro m s r
  unfold credentialDataFields CredentialData.Says
  refine (decMembers_iff (ρ := Unit) (rest := fun _ => ()) (sls := [
      ⟨(gs! "aaguid"), _, fun x => x.aaguid, TextStep⟩,
      ⟨(gs! "credentialId"), _, fun x => x.credentialID, TextStep⟩,
      ⟨(gs! "publicKey"), _, fun x => x.publicKey, (OptMapStep AnyElem)⟩]) ?_ ?_ (by decide) (by decide)).trans ?_
  · refine .cons ⟨rfl, _, fun _ _ => rfl, fun _ _ => rfl, by others, dec_fStr (fun _ => rfl)⟩ <|
      .cons ⟨rfl, _, fun _ _ => rfl, fun _ _ => rfl, by others, dec_fStr (fun _ => rfl)⟩ <|
      .cons ⟨rfl, _, fun _ _ => rfl, fun _ _ => rfl, by others, dec_fOptMap elemAny_iff⟩ <|
      .nil
  · intro s s' h hr
    simp only [List.forall_mem_cons] at h
    cases s; cases s'
    simp_all
  · simp only [List.forall_mem_cons, List.not_mem_nil, false_imp_iff, implies_true, true_and, and_true, and_assoc]

theorem authData_reads : ReadsAs authDataFields AuthData.Says := by
  intro m s r
  unfold authDataFields AuthData.Says
  refine (decMembers_iff (ρ := Unit) (rest := fun _ => ()) (sls := [
      ⟨(gs! "rpIdHash"), _, fun x => x.relyingPartyID, TextStep⟩,
      ⟨(gs! "flags"), _, fun x => x.flags, (OptMapStep BoolElem)⟩,
      ⟨(gs! "signatureCounter"), _, fun x => x.signatureCounter, (NatStep (2 ^ 32))⟩,
      ⟨(gs! "extensions"), _, fun x => x.extensions, (fun j _ w => AnyElem j w)⟩,
      ⟨(gs! "credentialData"), _, fun x => x.credentialData, (OptStep CredentialData.Says CredentialData.zero)⟩]) ?_ ?_ (by decide) (by decide)).trans ?_
  · refine .cons ⟨rfl, _, fun _ _ => rfl, fun _ _ => rfl, by others, dec_fStr (fun _ => rfl)⟩ <|
      .cons ⟨rfl, _, fun _ _ => rfl, fun _ _ => rfl, by others, dec_fOptMap elemBool_iff⟩ <|
      .cons ⟨rfl, _, fun _ _ => rfl, fun _ _ => rfl, by others, dec_fUint (fun _ => rfl)⟩ <|
      .cons ⟨rfl, _, fun _ _ => rfl, fun _ _ => rfl, by others, dec_fAny⟩ <|
      .cons ⟨rfl, _, fun _ _ => rfl, fun _ _ => rfl, by others, dec_fPtr credentialData_reads⟩ <|
      .nil
  · intro s s' h hr
    simp only [List.forall_mem_cons] at h
    cases s; cases s'
    simp_all
  · simp only [List.forall_mem_cons, List.not_mem_nil, false_imp_iff, implies_true, true_and, and_true, and_assoc]

theorem attestationStatement_reads : ReadsAs attestationStatementFields AttestationStatement.Says := by
  intro m s r
  unfold attestationStatementFields AttestationStatement.Says
  refine (decMembers_iff (ρ := Unit) (rest := fun _ => ()) (sls := [
      ⟨(gs! "alg"), _, fun x => x.algorithm, IntStep⟩,
      ⟨(gs! "sig"), _, fun x => x.signature, TextStep⟩,
      ⟨(gs! "x5c"), _, fun x => x.certificates, TextsStep⟩]) ?_ ?_ (by decide) (by decide)).trans ?_
  · refine .cons ⟨rfl, _, fun _ _ => rfl, fun _ _ => rfl, by others, dec_fInt (fun _ => rfl)⟩ <|
      .cons ⟨rfl, _, fun _ _ => rfl, fun _ _ => rfl, by others, dec_fStr (fun _ => rfl)⟩ <|
      .cons ⟨rfl, _, fun _ _ => rfl, fun _ _ => rfl, by others, dec_fStrs⟩ <|
      .nil
  · intro s s' h hr
    simp only [List.forall_mem_cons] at h
    cases s; cases s'
    simp_all
  · simp only [List.forall_mem_cons, List.not_mem_nil, false_imp_iff, implies_true, true_and, and_true, and_assoc]

theorem attestationObject_reads : ReadsAs attestationObjectFields AttestationObject.Says := by
  intro m s r
  unfold attestationObjectFields AttestationObject.Says
  refine (decMembers_iff (ρ := Unit) (rest := fun _ => ()) (sls := [
      ⟨(gs! "attStmt"), _, fun x => x.attestationStatement, (OptStep AttestationStatement.Says AttestationStatement.zero)⟩,
      ⟨(gs! "authData"), _, fun x => x.authData, (OptStep AuthData.Says AuthData.zero)⟩,
      ⟨(gs! "fmt"), _, fun x => x.format, TextStep⟩]) ?_ ?_ (by decide) (by decide)).trans ?_
  · refine .cons ⟨rfl, _, fun _ _ => rfl, fun _ _ => rfl, by others, dec_fPtr attestationStatement_reads⟩ <|
      .cons ⟨rfl, _, fun _ _ => rfl, fun _ _ => rfl, by others, dec_fPtr authData_reads⟩ <|
      .cons ⟨rfl, _, fun _ _ => rfl, fun _ _ => rfl, by others, dec_fStr (fun _ => rfl)⟩ <|
      .nil
  · intro s s' h hr
    simp only [List.forall_mem_cons] at h
    cases s; cases s'
    simp_all
  · simp only [List.forall_mem_cons, List.not_mem_nil, false_imp_iff, implies_true, true_and, and_true, and_assoc]

theorem device_reads : ReadsAs deviceFields Device.Says := by
  intro m s r
  unfold deviceFields Device.Says
  refine (decMembers_iff (ρ := Unit) (rest := fun _ => ()) (sls := [
      ⟨(gs! "name"), _, fun x => x.name, TextStep⟩,
      ⟨(gs! "type"), _, fun x => x.type, TextStep⟩]) ?_ ?_ (by decide) (by decide)).trans ?_
  · refine .cons ⟨rfl, _, fun _ _ => rfl, fun _ _ => rfl, by others, dec_fStr (fun _ => rfl)⟩ <|
      .cons ⟨rfl, _, fun _ _ => rfl, fun _ _ => rfl, by others, dec_fStr (fun _ => rfl)⟩ <|
      .nil
  · intro s s' h hr
    simp only [List.forall_mem_cons] at h
    cases s; cases s'
    simp_all
  · simp only [List.forall_mem_cons, List.not_mem_nil, false_imp_iff, implies_true, true_and, and_true, and_assoc]

theorem registerRequest_reads : ReadsAs registerRequestFields RegisterRequest.Says := by
  intro m s r
  unfold registerRequestFields RegisterRequest.Says
  refine (decMembers_iff (ρ := Unit) (rest := fun _ => ()) (sls := [
      ⟨(gs! "id"), _, fun x => x.id, TextStep⟩,
      ⟨(gs! "type"), _, fun x => x.type, TextStep⟩,
      ⟨(gs! "transports"), _, fun x => x.transports, TextsStep⟩,
      ⟨(gs! "success"), _, fun x => x.success, BoolStep⟩,
      ⟨(gs! "attestationObject"), _, fun x => x.attestationObject, (OptStep AttestationObject.Says AttestationObject.zero)⟩,
      ⟨(gs! "clientData"), _, fun x => x.clientData, (OptStep ClientData.Says ClientData.zero)⟩,
      ⟨(gs! "device"), _, fun x => x.device, (OptStep Device.Says Device.zero)⟩]) ?_ ?_ (by decide) (by decide)).trans ?_
  · refine .cons ⟨rfl, _, fun _ _ => rfl, fun _ _ => rfl, by others, dec_fStr (fun _ => rfl)⟩ <|
      .cons ⟨rfl, _, fun _ _ => rfl, fun _ _ => rfl, by others, dec_fStr (fun _ => rfl)⟩ <|
      .cons ⟨rfl, _, fun _ _ => rfl, fun _ _ => rfl, by others, dec_fStrs⟩ <|
      .cons ⟨rfl, _, fun _ _ => rfl, fun _ _ => rfl, by others, dec_fBool (fun _ => rfl)⟩ <|
      .cons ⟨rfl, _, fun _ _ => rfl, fun _ _ => rfl, by others, dec_fPtr attestationObject_reads⟩ <|
      .cons ⟨rfl, _, fun _ _ => rfl, fun _ _ => rfl, by others, dec_fPtr clientData_reads⟩ <|
      .cons ⟨rfl, _, fun _ _ => rfl, fun _ _ => rfl, by others, dec_fPtr device_reads⟩ <|
      .nil
  · intro s s' h hr
    simp only [List.forall_mem_cons] at h
    cases s; cases s'
    simp_all
  · simp only [List.forall_mem_cons, List.not_mem_nil, false_imp_iff, implies_true, true_and, and_true, and_assoc]

theorem authenticateRequest_reads : ReadsAs authenticateRequestFields AuthenticateRequest.Says := by
  intro m s r
  unfold authenticateRequestFields AuthenticateRequest.Says
  refine (decMembers_iff (ρ := Unit) (rest := fun _ => ()) (sls := [
      ⟨(gs! "id"), _, fun x => x.id, TextStep⟩,
      ⟨(gs! "type"), _, fun x => x.type, TextStep⟩,
      ⟨(gs! "auth_data"), _, fun x => x.authData, (OptStep AuthData.Says AuthData.zero)⟩,
      ⟨(gs! "auth_data_encoded"), _, fun x => x.authDataEncoded, TextStep⟩,
      ⟨(gs! "client_data"), _, fun x => x.clientData, (OptStep ClientData.Says ClientData.zero)⟩,
      ⟨(gs! "client_data_encoded"), _, fun x => x.clientDataEncoded, TextStep⟩,
      ⟨(gs! "signature"), _, fun x => x.signature, TextStep⟩,
      ⟨(gs! "signature_encoded"), _, fun x => x.signatureEncoded, TextStep⟩]) ?_ ?_ (by decide) (by decide)).trans ?_
  · refine .cons ⟨rfl, _, fun _ _ => rfl, fun _ _ => rfl, by others, dec_fStr (fun _ => rfl)⟩ <|
      .cons ⟨rfl, _, fun _ _ => rfl, fun _ _ => rfl, by others, dec_fStr (fun _ => rfl)⟩ <|
      .cons ⟨rfl, _, fun _ _ => rfl, fun _ _ => rfl, by others, dec_fPtr authData_reads⟩ <|
      .cons ⟨rfl, _, fun _ _ => rfl, fun _ _ => rfl, by others, dec_fStr (fun _ => rfl)⟩ <|
      .cons ⟨rfl, _, fun _ _ => rfl, fun _ _ => rfl, by others, dec_fPtr clientData_reads⟩ <|
      .cons ⟨rfl, _, fun _ _ => rfl, fun _ _ => rfl, by others, dec_fStr (fun _ => rfl)⟩ <|
      .cons ⟨rfl, _, fun _ _ => rfl, fun _ _ => rfl, by others, dec_fStr (fun _ => rfl)⟩ <|
      .cons ⟨rfl, _, fun _ _ => rfl, fun _ _ => rfl, by others, dec_fStr (fun _ => rfl)⟩ <|
      .nil
  · intro s s' h hr
    simp only [List.forall_mem_cons] at h
    cases s; cases s'
    simp_all
  · simp only [List.forall_mem_cons, List.not_mem_nil, false_imp_iff, implies_true, true_and, and_true, and_assoc]

end GoIdentity
