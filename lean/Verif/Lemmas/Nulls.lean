import Verif.Spec.Nulls
import Verif.Lemmas.Loading
import Mathlib.Data.List.Forall2
/-!
# Documents with and without nulls
-/
set_option linter.unusedSectionVars false
namespace GoIdentity
variable [Ext]

def Res.mapTo {α β : Type} (g : α → β) : Res α → Res β
  | .ok a => .ok (g a)
  | .err e => .err e
  | .panic => .panic

/-! ## Loading -/

def Database.refs (db : Database) : Refs := ⟨db.refEmailAddress, db.refUsername, db.refID, db.refAPIKey⟩

theorem nullEmails_some (i : Nat) (es : List EmailAddress) (rest : List (Option EmailAddress)) (m : GoString → Option Nat) :
    nullEmails i (es.map some ++ rest) m =
      match Database.loadEmails i es m with
      | .ok m => nullEmails i rest m
      | .err e => .err e
      | .panic => .panic := by
  induction es generalizing m with
  | nil => rfl
  | cons e es ih =>
    rw [List.map_cons, List.cons_append, nullEmails, Database.loadEmails]
    cases hm : m (toLower e.address) with
    | some _ => rfl
    | none => exact ih _

theorem nullKeys_some (i : Nat) (es : List APIKey) (rest : List (Option APIKey)) (m : GoString → Option Nat) :
    nullKeys i (es.map some ++ rest) m =
      match Database.loadAPIKeys i es m with
      | .ok m => nullKeys i rest m
      | .err e => .err e
      | .panic => .panic := by
  induction es generalizing m with
  | nil => rfl
  | cons e es ih =>
    rw [List.map_cons, List.cons_append, nullKeys, Database.loadAPIKeys]
    cases hm : m e.pfx with
    | some _ => rfl
    | none => exact ih _

theorem nullPasswords_iff (ps : List (Option Password)) :
    (none ∉ ps → nullPasswords ps = .ok ()) ∧ (none ∈ ps → nullPasswords ps = .panic) := by
  induction ps with
  | nil => simp [nullPasswords]
  | cons p ps ih =>
    cases p with
    | none => simp [nullPasswords]
    | some p => simp only [nullPasswords, List.mem_cons, reduceCtorEq, false_or]; exact ih

theorem valid_same {u : NullUser} {p : User} (h1 : u.rest.id = p.id) (h2 : u.rest.username = p.username)
    (h3 : u.passwords.length = p.passwords.length) : u.valid = p.valid := by
  unfold NullUser.valid User.valid
  rw [h1, h2, h3]

theorem nullLoadUser_whole {u : NullUser} {p : User} (h : Whole u p) (i : Nat) (db : Database) :
    nullLoadUser i (some u) db.refs = (Database.loadUser i p db).mapTo Database.refs := by
  unfold nullLoadUser Database.loadUser
  dsimp only
  rw [valid_same h.id h.username (by rw [h.passwords]; simp), h.id, h.username]
  cases p.valid with
  | err e => rfl
  | panic => rfl
  | ok _ =>
    dsimp only [Database.refs]
    cases db.refUsername (toLower p.username) with
    | some _ => rfl
    | none =>
      cases db.refID p.id with
      | some _ => rfl
      | none =>
        dsimp only
        have e1 := nullEmails_some i p.emailAddresses [] db.refEmailAddress
        rw [List.append_nil] at e1
        rw [h.emails, e1]
        cases Database.loadEmails i p.emailAddresses db.refEmailAddress with
        | err e => rfl
        | panic => rfl
        | ok m =>
          dsimp only [nullEmails]
          rw [(nullPasswords_iff u.passwords).1 (by rw [h.passwords]; simp)]
          dsimp only
          have e2 := nullKeys_some i p.apiKeys [] db.refAPIKey
          rw [List.append_nil] at e2
          rw [h.keys, e2]
          cases Database.loadAPIKeys i p.apiKeys db.refAPIKey <;> rfl

theorem nullLoadUser_broken {u : NullUser} {p : User} (h : BrokenOff u p) (i : Nat) (db : Database) :
    nullLoadUser i (some u) db.refs =
      match Database.loadUser i p db with
      | .err e => .err e
      | _ => .panic := by
  obtain ⟨h1, h2, h3, h⟩ := h
  unfold nullLoadUser Database.loadUser
  dsimp only
  rw [valid_same h1 h2 h3, h1, h2]
  cases p.valid with
  | err e => rfl
  | panic => rfl
  | ok _ =>
    dsimp only [Database.refs]
    cases db.refUsername (toLower p.username) with
    | some _ => rfl
    | none =>
      cases db.refID p.id with
      | some _ => rfl
      | none =>
        dsimp only
        rcases h with ⟨⟨es, he⟩, hk⟩ | ⟨he, hp, hk⟩ | ⟨he, hp, ks, hk⟩
        · rw [he, nullEmails_some, hk]
          cases Database.loadEmails i p.emailAddresses db.refEmailAddress <;> rfl
        · have e1 := nullEmails_some i p.emailAddresses [] db.refEmailAddress
          rw [List.append_nil] at e1
          rw [he, e1, hk]
          cases Database.loadEmails i p.emailAddresses db.refEmailAddress with
          | err e => rfl
          | panic => rfl
          | ok m =>
            dsimp only [nullEmails]
            rw [(nullPasswords_iff u.passwords).2 hp]
            rfl
        · have e1 := nullEmails_some i p.emailAddresses [] db.refEmailAddress
          rw [List.append_nil] at e1
          rw [he, e1]
          cases Database.loadEmails i p.emailAddresses db.refEmailAddress with
          | err e => rfl
          | panic => rfl
          | ok m =>
            dsimp only [nullEmails]
            rw [(nullPasswords_iff u.passwords).1 hp]
            dsimp only
            rw [hk, nullKeys_some]
            cases Database.loadAPIKeys i p.apiKeys db.refAPIKey <;> rfl

theorem nullLoadUsers_whole {us : List (Option NullUser)} {ps : List User}
    (h : List.Forall₂ (fun s p => ∃ u, s = some u ∧ Whole u p) us ps) (i : Nat) (db : Database) :
    nullLoadUsers i us db.refs = (Database.loadUsers i ps db).mapTo Database.refs := by
  induction h generalizing i db with
  | nil => rfl
  | cons h _ ih =>
    obtain ⟨u, rfl, hu⟩ := h
    rw [nullLoadUsers, Database.loadUsers, nullLoadUser_whole hu]
    cases Database.loadUser i _ db with
    | ok db' => exact ih _ _
    | err e => rfl
    | panic => rfl

theorem nullLoadUsers_upTo {us : List (Option NullUser)} {ps : List User} (h : UpTo us ps) (i : Nat) (db : Database) :
    nullLoadUsers i us db.refs =
      match Database.loadUsers i ps db with
      | .err e => .err e
      | _ => .panic := by
  induction h generalizing i db with
  | user us => rfl
  | inside us hb =>
    rw [nullLoadUsers, Database.loadUsers, nullLoadUser_broken hb]
    cases Database.loadUser i _ db <;> rfl
  | next hw _ ih =>
    rw [nullLoadUsers, Database.loadUsers, nullLoadUser_whole hw]
    cases Database.loadUser i _ db with
    | ok db' => exact ih _ _
    | err e => rfl
    | panic => rfl

theorem loadUsers_no_panic {db : Database} {pre : List User} (h : Seen db pre) (i : Nat) (us : List User) :
    Database.loadUsers i us db ≠ .panic := by
  induction us generalizing i db pre with
  | nil => simp [Database.loadUsers]
  | cons u us ih =>
    unfold Database.loadUsers
    rcases loadUser_spec h i u with ⟨e, h1, _⟩ | ⟨db', h1, h2, _⟩
    · rw [h1]; simp
    · rw [h1]; exact ih h2 _

/-! ## Reading -/

/-- A field of a record and the field of another record in which it is contained. -/
structure Tracks {σ τ : Type} (g : τ → σ) (f' : Field σ) (f : Field τ) : Prop where
  name : f'.name = f.name
  enc : ∀ x, f'.enc (g x) = f.enc x
  dec : ∀ j x, f.dec j x ≠ .panic → f'.dec j (g x) = (f.dec j x).mapTo g

abbrev TracksAll {σ τ : Type} (g : τ → σ) (fs' : List (Field σ)) (fs : List (Field τ)) : Prop := List.Forall₂ (Tracks g) fs' fs

theorem tracks_find {σ τ : Type} {g : τ → σ} {fs' : List (Field σ)} {fs : List (Field τ)} (h : TracksAll g fs' fs) (q : GoString → Bool) :
    (fs'.find? (fun f => q f.name) = none ∧ fs.find? (fun f => q f.name) = none) ∨
    ∃ f' f, fs'.find? (fun f => q f.name) = some f' ∧ fs.find? (fun f => q f.name) = some f ∧ Tracks g f' f := by
  induction h with
  | nil => left; exact ⟨rfl, rfl⟩
  | @cons a b l1 l2 hab _ ih =>
    rw [List.find?_cons, List.find?_cons, hab.name]
    cases q b.name with
    | true => exact .inr ⟨_, _, rfl, rfl, hab⟩
    | false => exact ih

theorem tracks_findField {σ τ : Type} {g : τ → σ} {fs' : List (Field σ)} {fs : List (Field τ)} (h : TracksAll g fs' fs) (k : GoString) :
    (findField fs' k = none ∧ findField fs k = none) ∨
    ∃ f' f, findField fs' k = some f' ∧ findField fs k = some f ∧ Tracks g f' f := by
  unfold findField
  rcases tracks_find h (fun n => n == k) with ⟨h1, h2⟩ | ⟨f', f, h1, h2, h3⟩
  · rw [h1, h2]
    exact tracks_find h (fun n => foldKey n == foldKey k)
  · rw [h1, h2]
    exact .inr ⟨f', f, rfl, rfl, h3⟩

theorem tracks_decMembers {σ τ : Type} {g : τ → σ} {fs' : List (Field σ)} {fs : List (Field τ)} (h : TracksAll g fs' fs)
    (m : List (GoString × Json)) (x : τ) (hp : decMembers fs m x ≠ .panic) :
    decMembers fs' m (g x) = (decMembers fs m x).mapTo g := by
  induction m generalizing x with
  | nil => rfl
  | cons kv m ih =>
    obtain ⟨k, v⟩ := kv
    rw [decMembers] at hp ⊢
    rw [decMembers]
    rcases tracks_findField h k with ⟨h1, h2⟩ | ⟨f', f, h1, h2, h3⟩
    · rw [h1]
      rw [h2] at hp ⊢
      exact ih x hp
    · rw [h1]
      rw [h2] at hp ⊢
      dsimp only at hp ⊢
      have hd := h3.dec v x
      cases hv : f.dec v x with
      | panic => rw [hv] at hp; exact absurd rfl hp
      | err e => rw [hv] at hd; rw [hd (by simp)]; rfl
      | ok y =>
        rw [hv] at hd hp
        rw [hd (by simp)]
        exact ih y hp

theorem tracks_decStruct {σ τ : Type} {g : τ → σ} {fs' : List (Field σ)} {fs : List (Field τ)} (h : TracksAll g fs' fs)
    (j : Json) (x : τ) (hp : decStruct fs j x ≠ .panic) : decStruct fs' j (g x) = (decStruct fs j x).mapTo g := by
  cases j with
  | obj m => exact tracks_decMembers h m x hp
  | _ => rfl

theorem tracks_enc {σ τ : Type} {g : τ → σ} {fs' : List (Field σ)} {fs : List (Field τ)} (h : TracksAll g fs' fs) (x : τ) :
    encStruct fs' (g x) = encStruct fs x := by
  unfold encStruct encMembers
  congr 1
  induction h with
  | nil => rfl
  | @cons a b l1 l2 hab _ ih =>
    rw [List.filterMap_cons, List.filterMap_cons, hab.enc, hab.name, ih]

theorem tracks_refl {τ : Type} (fs : List (Field τ)) : TracksAll id fs fs := by
  induction fs with
  | nil => exact .nil
  | cons f fs ih => exact .cons ⟨rfl, fun _ => rfl, fun j x _ => by cases h : f.dec j x <;> simp [h, Res.mapTo]⟩ ih

theorem decSlots_elems {σ τ : Type} {g : τ → σ} {fs' : List (Field σ)} {fs : List (Field τ)} (h : TracksAll g fs' fs) (zero : τ)
    (js : List Json) (hp : decElems fs zero js ≠ .panic) :
    decSlots fs' (g zero) js = (decElems fs zero js).mapTo (List.map fun x => some (g x)) := by
  induction js with
  | nil => rfl
  | cons j js ih =>
    by_cases hj : j = .null
    · subst hj; exact absurd rfl hp
    · have e1 : decElems fs zero (j :: js) = (match decStruct fs j zero with
          | .ok x => (match decElems fs zero js with | .ok xs => .ok (x :: xs) | .err e => .err e | .panic => .panic)
          | .err e => .err e
          | .panic => .panic) := by cases j <;> first | rfl | exact absurd rfl hj
      have e2 : decSlots fs' (g zero) (j :: js) = (match decStruct fs' j (g zero) with
          | .ok x => (match decSlots fs' (g zero) js with | .ok xs => .ok (some x :: xs) | .err e => .err e | .panic => .panic)
          | .err e => .err e
          | .panic => .panic) := by cases j <;> first | rfl | exact absurd rfl hj
      rw [e1] at hp
      rw [e1, e2]
      have hs := tracks_decStruct h j zero
      cases hv : decStruct fs j zero with
      | panic => rw [hv] at hp; exact absurd rfl hp
      | err e => rw [hv] at hs; rw [hs (by simp)]; rfl
      | ok y =>
        rw [hv] at hs hp
        rw [hs (by simp)]
        dsimp only [Res.mapTo] at hp ⊢
        cases hw : decElems fs zero js with
        | panic => rw [hw] at hp; exact absurd rfl hp
        | err e => rw [ih (by rw [hw]; simp), hw]; rfl
        | ok ys => rw [ih (by rw [hw]; simp), hw]; rfl

section
variable {σ τ α : Type} {g : τ → σ} {name : GoString}

theorem tracks_fStr {get : τ → GoString} {set : τ → GoString → τ} {get' : σ → GoString} {set' : σ → GoString → σ}
    (hg : ∀ x, get' (g x) = get x) (hs : ∀ x v, set' (g x) v = g (set x v)) : Tracks g (fStr name get' set') (fStr name get set) :=
  ⟨rfl, fun x => by simp [fStr, hg], fun j x _ => by cases j <;> simp [fStr, hs, Res.mapTo, typeErr]⟩

theorem tracks_fBool {get : τ → Bool} {set : τ → Bool → τ} {get' : σ → Bool} {set' : σ → Bool → σ}
    (hg : ∀ x, get' (g x) = get x) (hs : ∀ x v, set' (g x) v = g (set x v)) : Tracks g (fBool name get' set') (fBool name get set) :=
  ⟨rfl, fun x => by simp [fBool, hg], fun j x _ => by cases j <;> simp [fBool, hs, Res.mapTo, typeErr]⟩

theorem tracks_fInt {get : τ → Int} {set : τ → Int → τ} {get' : σ → Int} {set' : σ → Int → σ}
    (hg : ∀ x, get' (g x) = get x) (hs : ∀ x v, set' (g x) v = g (set x v)) : Tracks g (fInt name get' set') (fInt name get set) :=
  ⟨rfl, fun x => by simp [fInt, hg], fun j x _ => by
    cases j with
    | num l => simp only [fInt, decInt]; cases parseIntLit l <;> simp [hs, Res.mapTo, typeErr]
    | _ => simp [fInt, decInt, Res.mapTo, typeErr]⟩

theorem tracks_fUint {n : Nat} {get : τ → Nat} {set : τ → Nat → τ} {get' : σ → Nat} {set' : σ → Nat → σ}
    (hg : ∀ x, get' (g x) = get x) (hs : ∀ x v, set' (g x) v = g (set x v)) : Tracks g (fUint n name get' set') (fUint n name get set) :=
  ⟨rfl, fun x => by simp [fUint, hg], fun j x _ => by
    cases j with
    | num l => simp only [fUint, decUint]; cases parseUintLit n l <;> simp [hs, Res.mapTo, typeErr]
    | _ => simp [fUint, decUint, Res.mapTo, typeErr]⟩

theorem tracks_fTime {get : τ → GoTime} {set : τ → GoTime → τ} {get' : σ → GoTime} {set' : σ → GoTime → σ}
    (hg : ∀ x, get' (g x) = get x) (hs : ∀ x v, set' (g x) v = g (set x v)) : Tracks g (fTime name get' set') (fTime name get set) :=
  ⟨rfl, fun x => by simp [fTime, hg], fun j x _ => by
    cases j with
    | str l => simp only [fTime]; cases parseTime l <;> simp [hs, Res.mapTo, typeErr]
    | _ => simp [fTime, Res.mapTo, typeErr]⟩

theorem tracks_fStruct {fs : List (Field α)} {get : τ → α} {set : τ → α → τ} {get' : σ → α} {set' : σ → α → σ}
    (hg : ∀ x, get' (g x) = get x) (hs : ∀ x v, set' (g x) v = g (set x v)) :
    Tracks g (fStruct name fs get' set') (fStruct name fs get set) :=
  ⟨rfl, fun x => by simp [fStruct, hg], fun j x _ => by
    simp only [fStruct, hg]; cases decStruct fs j (get x) <;> simp [hs, Res.mapTo]⟩

theorem tracks_fPtr {fs : List (Field α)} {zero : α} {get : τ → Option α} {set : τ → Option α → τ} {get' : σ → Option α}
    {set' : σ → Option α → σ} (hg : ∀ x, get' (g x) = get x) (hs : ∀ x v, set' (g x) v = g (set x v)) :
    Tracks g (fPtr name fs zero get' set') (fPtr name fs zero get set) :=
  ⟨rfl, fun x => by simp [fPtr, hg], fun j x _ => by
    cases j with
    | null => simp [fPtr, hs, Res.mapTo]
    | _ =>
      simp only [fPtr, hg]
      generalize decStruct fs _ _ = r
      cases r <;> simp [hs, Res.mapTo]⟩

theorem tracks_fSlots {β : Type} {e : α → β} {fs' : List (Field β)} {fs : List (Field α)} {zero : α} {zero' : β} {get : τ → List α}
    {set : τ → List α → τ} {get' : σ → List (Option β)} {set' : σ → List (Option β) → σ} (he : TracksAll e fs' fs) (hz : zero' = e zero)
    (hg : ∀ x, get' (g x) = (get x).map fun a => some (e a)) (hs : ∀ x v, set' (g x) (v.map fun a => some (e a)) = g (set x v)) :
    Tracks g (fSlots name fs' zero' get' set') (fList name fs zero get set) := by
  subst hz
  refine ⟨rfl, fun x => ?_, fun j x hp => ?_⟩
  · simp only [fSlots, fList, hg]
    by_cases hx : get x = []
    · simp [hx]
    · simp only [List.isEmpty_map, List.map_map]
      congr 3
      refine List.map_congr_left fun a _ => ?_
      exact tracks_enc he a
  · cases j with
    | null => simpa [fSlots, fList, Res.mapTo] using hs x []
    | arr js =>
      simp only [fSlots, fList] at hp ⊢
      have h1 := decSlots_elems he zero js
      cases hv : decElems fs zero js with
      | panic => rw [hv] at hp; exact absurd rfl hp
      | err e => rw [hv] at h1; rw [h1 (by simp)]; rfl
      | ok ys =>
        rw [hv] at h1
        rw [h1 (by simp)]
        simp [Res.mapTo, hs]
    | _ => rfl
end

theorem tracks_user : TracksAll NullUser.of nullUserFields userFields := by
  unfold nullUserFields userFields
  repeat' first
    | exact .nil
    | refine .cons ?_ ?_
    | exact tracks_fStr (fun _ => rfl) (fun _ _ => rfl)
    | exact tracks_fBool (fun _ => rfl) (fun _ _ => rfl)
    | exact tracks_fInt (fun _ => rfl) (fun _ _ => rfl)
    | exact tracks_fTime (fun _ => rfl) (fun _ _ => rfl)
    | exact tracks_fPtr (fun _ => rfl) (fun _ _ => rfl)
    | exact tracks_fSlots (e := id) (tracks_refl _) rfl (fun _ => rfl) (fun _ _ => rfl)

theorem tracks_data : TracksAll NullData.of nullFields dbFields := by
  unfold nullFields dbFields
  exact .cons (tracks_fStr (fun _ => rfl) (fun _ _ => rfl)) <| .cons (tracks_fStruct (fun _ => rfl) (fun _ _ => rfl)) <|
    .cons (tracks_fUint (fun _ => rfl) (fun _ _ => rfl)) <| .cons (tracks_fTime (fun _ => rfl) (fun _ _ => rfl)) <|
    .cons (tracks_fSlots tracks_user rfl (fun _ => rfl) (fun _ _ => rfl)) .nil

theorem unmarshalNull_of {b : GoString} (h : unmarshalDB b ≠ .panic) : unmarshalNull b = (unmarshalDB b).mapTo NullData.of := by
  unfold unmarshalDB at h ⊢
  unfold unmarshalNull unmarshal
  cases hj : parseDoc b with
  | none => rfl
  | some j =>
    rw [hj] at h
    exact tracks_decStruct tracks_data j DBData.zero h

theorem marshalNull_of (d : DBData) : marshalNull (NullData.of d) = marshalDB d := by
  unfold marshalNull marshalDB
  rw [tracks_enc tracks_data]

theorem whole_of (u : User) : Whole (NullUser.of u) u := ⟨rfl, rfl, rfl, rfl, rfl⟩

end GoIdentity
