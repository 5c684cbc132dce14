import Verif.Spec.Book
import Verif.Lemmas.ApiKeys
import Verif.Lemmas.Complete
import Verif.Lemmas.Frame
import Verif.Lemmas.Isolation
import Verif.Lemmas.Reopen
import Verif.Lemmas.WebAuthn
/-!
# The lookup maps answer as a search of the list of accounts does
-/
set_option linter.unusedSectionVars false
namespace GoIdentity
namespace Book
variable [Ext]

/-- The maps of the database are the index of its accounts. -/
structure Faithful (db : Database) : Prop where
  inv : Inv db
  ids : InvID db
  keys : ApiExact db

theorem hasName_iff {n : GoString} {u : User} : hasName n u = true ↔ NamesUser n u := by
  simp [hasName, NamesUser, alike]

theorem hasMail_iff {m : GoString} {u : User} : hasMail m u = true ↔ MailsUser m u := by
  simp [hasMail, MailsUser, alike]

/-- A search for something only one position has. -/
theorem find_unique {α : Type} {l : List α} {p : α → Bool} {i : Nat} {x : α} (hi : l[i]? = some x) (hp : p x = true)
    (hu : ∀ y ∈ l, p y = true → y = x) : l.find? p = some x := by
  cases h : l.find? p with
  | none =>
    rw [List.find?_eq_none] at h
    exact absurd hp (h x (List.mem_of_getElem? hi))
  | some y =>
    rw [hu y (List.mem_of_find?_eq_some h) (List.find?_some h)]

theorem same_of_id {db : Database} (h : InvID db) {i j : Nat} {u v : User} (hi : db.users[i]? = some u)
    (hj : db.users[j]? = some v) (he : u.id = v.id) : i = j ∧ u = v := by
  have h1 := h i u hi
  have h2 := h j v hj
  rw [he, h2] at h1
  cases h1
  rw [hi] at hj
  cases hj
  exact ⟨rfl, rfl⟩

theorem holder_eq {db : Database} (h : Faithful db) (s : GoString) :
    (∃ i u, db.getUser s = some (i, u) ∧ holder db.users s = some u) ∨
      (db.getUser s = none ∧ holder db.users s = none) := by
  have hd : ∀ u, (if (64 : UInt8) ∈ s then hasMail s u else hasName s u) = true ↔ Denotes s u := by
    intro u
    unfold Denotes
    split
    · exact hasMail_iff
    · exact hasName_iff
  cases hg : db.getUser s with
  | none =>
    refine .inr ⟨rfl, ?_⟩
    unfold holder
    rw [List.find?_eq_none]
    intro u hu hc
    exact (getUser_none_iff h.inv).1 hg u hu ((hd u).1 hc)
  | some x =>
    obtain ⟨i, u⟩ := x
    obtain ⟨h1, h2⟩ := (getUser_iff h.inv).1 hg
    refine .inl ⟨i, u, rfl, find_unique h1 ((hd u).2 h2) ?_⟩
    intro v hv hc
    obtain ⟨j, hj⟩ := List.getElem?_of_mem hv
    have := (getUser_iff h.inv).2 ⟨hj, (hd v).1 hc⟩
    rw [hg] at this
    simp at this
    exact this.2.symm

theorem subject_eq {db : Database} (h : Faithful db) (r : ReqUser) :
    (∃ i u, db.validateUserIdentity r.username r.email = .ok (i, u) ∧ db.users[i]? = some u ∧
      subject db.users r = some u) ∨
    (∃ e, db.validateUserIdentity r.username r.email = .error e ∧ subject db.users r = none) := by
  have hs : ∀ u ∈ db.users, ((hasName r.username u && hasMail r.email u) = true ↔
      ∃ i, db.validateUserIdentity r.username r.email = .ok (i, u)) := by
    intro u hu
    obtain ⟨i, hi⟩ := List.getElem?_of_mem hu
    rw [Bool.and_eq_true, hasName_iff, hasMail_iff]
    constructor
    · rintro ⟨h1, h2⟩
      exact ⟨i, (validate_iff h.inv).2 ⟨hi, h1, u, hu, h2, rfl⟩⟩
    · rintro ⟨j, hj⟩
      obtain ⟨h1, h2, v, hv, h3, h4⟩ := (validate_iff h.inv).1 hj
      obtain ⟨k, hk⟩ := List.getElem?_of_mem hv
      obtain ⟨_, rfl⟩ := same_of_id h.ids hi hk h4
      exact ⟨h2, h3⟩
  cases hv : db.validateUserIdentity r.username r.email with
  | error e =>
    refine .inr ⟨e, rfl, ?_⟩
    unfold subject
    rw [List.find?_eq_none]
    intro u hu hc
    obtain ⟨i, hi⟩ := (hs u hu).1 hc
    rw [hv] at hi
    cases hi
  | ok x =>
    obtain ⟨i, u⟩ := x
    have hi := ((validate_iff h.inv).1 hv).1
    have hu := List.mem_of_getElem? hi
    refine .inl ⟨i, u, rfl, hi, find_unique hi ((hs u hu).2 ⟨i, hv⟩) ?_⟩
    intro v hv' hc
    obtain ⟨j, hj⟩ := (hs v hv').1 hc
    rw [hv] at hj
    cases hj
    rfl

theorem replace_eq {db : Database} (h : InvID db) {i : Nat} {u : User} (hi : db.users[i]? = some u) (u' : User) :
    replace db.users u u' = db.users.set i u' := by
  apply List.ext_getElem?
  intro j
  unfold replace
  rw [List.getElem?_map, List.getElem?_set]
  cases hj : db.users[j]? with
  | none =>
    split
    · rename_i hij; subst hij; rw [hi] at hj; cases hj
    · rfl
  | some v =>
    rw [Option.map_some]
    by_cases hid : v.id = u.id
    · obtain ⟨rfl, rfl⟩ := same_of_id h hj hi hid
      rw [if_pos rfl, if_pos rfl, if_pos (List.getElem?_eq_some_iff.1 hi).1]
    · rw [if_neg hid, if_neg]
      rintro rfl
      rw [hi] at hj
      cases hj
      exact hid rfl

theorem findIdx_eq {db : Database} (h : InvID db) {i : Nat} {u : User} (hi : db.users[i]? = some u) :
    (db.users.findIdx fun x => x.id = u.id) = i := by
  obtain ⟨hlt, he⟩ := List.getElem?_eq_some_iff.1 hi
  rw [List.findIdx_eq hlt]
  refine ⟨by simp [he], ?_⟩
  intro j hj
  simp only [decide_eq_false_iff_not]
  intro hc
  have := same_of_id h (List.getElem?_eq_getElem (by omega : j < db.users.length)) hi hc
  omega

theorem keyHolder_eq {db : Database} (h : Faithful db) (p : GoString) :
    (∃ i u, db.refAPIKey p = some i ∧ db.users[i]? = some u ∧ keyHolder db.users p = some u) ∨
      (db.refAPIKey p = none ∧ keyHolder db.users p = none) := by
  cases hr : db.refAPIKey p with
  | none =>
    refine .inr ⟨rfl, ?_⟩
    unfold keyHolder
    rw [List.find?_eq_none]
    intro u hu hc
    obtain ⟨i, hi⟩ := List.getElem?_of_mem hu
    simp only [List.any_eq_true, decide_eq_true_eq] at hc
    obtain ⟨k, hk, rfl⟩ := hc
    rw [h.inv.api_ref i u k hi hk] at hr
    cases hr
  | some i =>
    obtain ⟨u, hu, k, hk, hp⟩ := h.keys p i hr
    refine .inl ⟨i, u, rfl, hu, find_unique hu (by simp only [List.any_eq_true, decide_eq_true_eq]; exact ⟨k, hk, hp⟩) ?_⟩
    intro v hv hc
    obtain ⟨j, hj⟩ := List.getElem?_of_mem hv
    simp only [List.any_eq_true, decide_eq_true_eq] at hc
    obtain ⟨k', hk', rfl⟩ := hc
    have := h.inv.api_ref j v k' hj hk'
    rw [hr] at this
    cases this
    rw [hu] at hj
    cases hj
    rfl

/-- The ending of a call that stores something. -/
theorem finish_eq {db : Database} {nd : Nondet} {fs : FS} {req : Request} {wrap : GoErr → GoErr} {written : Bool}
    (hw : written = true ↔ db.path ≠ [] ∧ fs db.path ≠ some .dir ∧ nd.io = .ok) :
    (db.finish nd fs req wrap).db.users = db.users ∧ (db.finish nd fs req wrap).req = req ∧
      (db.finish nd fs req wrap).out.verdict = if written then .ok else .refused := by
  have hn := writeFile_none_iff (fs := fs) (path := db.path) (io := nd.io)
    (data := marshalDB ({ db with revision := (db.revision + 1) % 2 ^ 64, lastModified := nd.commitTime } : Database).toDBData)
  unfold Database.finish Database.commit
  dsimp only
  rcases hwf : writeFile fs db.path
    (marshalDB ({ db with revision := (db.revision + 1) % 2 ^ 64, lastModified := nd.commitTime } : Database).toDBData)
    nd.io with ⟨fs', _ | e⟩
  · rw [hwf] at hn
    rw [if_pos (hw.2 (hn.1 rfl))]
    exact ⟨rfl, rfl, rfl⟩
  · rw [hwf] at hn
    rw [if_neg (fun hc => by have := hn.2 (hw.1 hc); cases this)]
    exact ⟨rfl, rfl, rfl⟩

/-- The two sides say the same. -/
structure Same (r : Result) (a : Answer) : Prop where
  accounts : r.db.users = a.accounts
  req : r.req = a.req
  verdict : r.out.verdict = a.verdict

theorem same_store {db : Database} {nd : Nondet} {fs : FS} {req : Request} {wrap : GoErr → GoErr} {written : Bool}
    {us : List User} (hw : written = true ↔ db.path ≠ [] ∧ fs db.path ≠ some .dir ∧ nd.io = .ok) (hu : db.users = us) :
    Same (db.finish nd fs req wrap) (store written us req) := by
  obtain ⟨h1, h2, h3⟩ := finish_eq (req := req) (wrap := wrap) hw
  exact ⟨h1.trans hu, h2, h3⟩

theorem loop_used {nd : Nondet} {db : Database} {s : GoString} {i : Nat} (hused : db.refAPIKey (s.take 24) = some i)
    (hne : trimSpace s ≠ []) (hsalts : ∀ n, (nd.salts n).isSome = true) (fuel a f : Nat) :
    db.keyLoop nd s fuel a f = .hang := by
  induction fuel generalizing a f with
  | zero => rfl
  | succ n ih =>
    obtain ⟨p, hp⟩ := newPassword_iff (now := nd.now) (salt := nd.salts a) (s := s).2 ⟨hne, hsalts a⟩
    rw [Database.keyLoop, hp]
    dsimp only
    rw [hused]
    exact ih _ _

theorem bundle_filter {α : Type} (p : α → Bool) (l : List α) (b : Bundle α) :
    l.foldl (fun b k => if p k then b else b.add k) b =
      ⟨b.items ++ l.filter (fun k => !p k), b.size + (l.filter (fun k => !p k)).length⟩ := by
  induction l generalizing b with
  | nil => simp
  | cons a l ih =>
    rw [List.foldl_cons, ih]
    by_cases hp : p a = true
    · simp [hp]
    · simp [hp, Bundle.add]; omega

theorem usage_filter {α : Type} (f : α → GoString) (d : α → Bool) (g : GoString) (l : List α) :
    l.foldl (fun b k => if f k ≠ g then b else if d k then b else b.add k) Bundle.new =
      bundle (l.filter fun k => f k = g ∧ !d k) := by
  have h := bundle_filter (fun k => !(decide (f k = g ∧ (!d k) = true))) l Bundle.new
  have he : (fun (b : Bundle α) (k : α) => if (!(decide (f k = g ∧ (!d k) = true))) = true then b else b.add k) =
      fun b k => if f k ≠ g then b else if d k then b else b.add k := by
    funext b k
    by_cases h1 : f k = g <;> cases h2 : d k <;> simp [h1]
  rw [he] at h
  rw [h]
  simp [bundle, Bundle.new]

theorem map_bundle {α β : Type} (f : α → β) (l : List α) : ∀ b : Bundle β,
    l.foldl (fun b u => b.add (f u)) b = ⟨b.items ++ l.map f, b.size + (l.map f).length⟩ := by
  induction l with
  | nil => intro b; simp
  | cons a l ih => intro b; rw [List.foldl_cons, ih]; simp [Bundle.add]; omega

theorem pickID_eq {db : Database} (h : Faithful db) (ids : List GoString) (old : GoString) :
    db.pickID ids old = freshID db.users ids old := by
  have hp : (fun id => (db.refID id).isNone) = fun id => db.users.all fun u => u.id ≠ id := by
    funext id
    rw [Bool.eq_iff_iff]
    simp only [Option.isNone_iff_eq_none, List.all_eq_true, decide_eq_true_eq]
    constructor
    · intro hn u hu he
      obtain ⟨i, hi⟩ := List.getElem?_of_mem hu
      have := h.ids i u hi
      rw [he, hn] at this
      cases this
    · intro hall
      cases hr : db.refID id with
      | none => rfl
      | some i =>
        obtain ⟨u, hu, he⟩ := h.inv.id_src id i hr
        exact absurd he (hall u (List.mem_of_getElem? hu))
  unfold Database.pickID freshID
  rw [hp]
  cases (ids.take 10).find? fun id => db.users.all fun u => u.id ≠ id <;> rfl

theorem name_taken {db : Database} (h : Inv db) (n : GoString) :
    (db.refUsername (toLower n)).isSome = db.users.any fun v => alike v.username n := by
  rw [Bool.eq_iff_iff]
  simp only [List.any_eq_true, alike, decide_eq_true_eq]
  constructor
  · intro hs
    obtain ⟨i, hi⟩ := Option.isSome_iff_exists.1 hs
    obtain ⟨u, hu, he⟩ := h.name_src _ _ hi
    exact ⟨u, List.mem_of_getElem? hu, he⟩
  · rintro ⟨u, hu, he⟩
    obtain ⟨i, hi⟩ := List.getElem?_of_mem hu
    rw [← he, h.name_ref i u hi]
    rfl

theorem mails_taken {db : Database} (h : Inv db) (es : List EmailAddress) :
    (∃ e, db.checkEmails es = .error e) ↔
      (db.users.any fun v => v.emailAddresses.any fun e => es.any fun e' => alike e.address e'.address) = true := by
  have key : ∀ a : GoString, (db.refEmailAddress (toLower a)).isSome = true ↔
      ∃ v ∈ db.users, ∃ e ∈ v.emailAddresses, toLower e.address = toLower a := by
    intro a
    constructor
    · intro hs
      obtain ⟨i, hi⟩ := Option.isSome_iff_exists.1 hs
      obtain ⟨u, hu, e, he, hea⟩ := h.email_src _ _ hi
      exact ⟨u, List.mem_of_getElem? hu, e, he, hea⟩
    · rintro ⟨u, hu, e, he, hea⟩
      obtain ⟨i, hi⟩ := List.getElem?_of_mem hu
      rw [← hea, h.email_ref i u e hi he]
      rfl
  have hr : (∃ e, db.checkEmails es = .error e) ↔ ∃ e ∈ es, (db.refEmailAddress (toLower e.address)).isSome = true := by
    induction es with
    | nil => simp [Database.checkEmails]
    | cons e es ih =>
      rw [Database.checkEmails]
      cases hm : db.refEmailAddress (toLower e.address) with
      | some i => simp [hm]
      | none =>
        dsimp only
        simp only [List.mem_cons, exists_eq_or_imp, hm, Option.isSome_none, Bool.false_eq_true, false_or, ← ih]
        cases db.checkEmails es with
        | error e => simp
        | ok as => simp
  rw [hr]
  simp only [List.any_eq_true, alike, decide_eq_true_eq, key]
  constructor
  · rintro ⟨e', he', v, hv, e, he, heq⟩
    exact ⟨v, hv, e, he, e', he', heq⟩
  · rintro ⟨v, hv, e, he, e', he', heq⟩
    exact ⟨e', he', v, hv, e, he, heq⟩

/-- One call on the database is one call on the list of its accounts. -/
theorem step_same {db : Database} (h : Faithful db) (c : Call) (nd : Nondet) (fs : FS) (req : Request) {written : Bool}
    (hw : written = true ↔ c.target db ≠ [] ∧ fs (c.target db) ≠ some .dir ∧ nd.io = .ok)
    (hsalts : ∀ n, (nd.salts n).isSome = true) (hfuel : 0 < nd.fuel) :
    Same (exec c nd db fs req) (step c nd db.policy written db.users req) := by
  have chg : ∀ (i : Nat) (u : User) (r : Res User) (req' : Request) (w : GoErr → GoErr), db.users[i]? = some u →
      (db.path ≠ [] ∧ fs db.path ≠ some .dir ∧ nd.io = .ok ↔ written = true) →
      Same (match r with
        | .err e => db.failWith fs req' e
        | .panic => ⟨db, fs, req', .panic⟩
        | .ok user => (db.setUser i user).finish nd fs req' w) (change written db.users req' u r) := by
    intro i u r req' w hi hw
    cases r with
    | err e => exact ⟨rfl, rfl, rfl⟩
    | panic => exact ⟨rfl, rfl, rfl⟩
    | ok u' => exact same_store hw.symm (replace_eq h.ids hi u').symm
  have hwp : (∀ fp, c ≠ .copy fp) → (db.path ≠ [] ∧ fs db.path ≠ some .dir ∧ nd.io = .ok ↔ written = true) := by
    intro hc
    have : c.target db = db.path := by
      unfold Call.target
      split
      · rename_i fp; exact absurd rfl (hc fp)
      · rfl
    rw [hw, this]
  have hsub := subject_eq h req.user
  have hold := holder_eq h req.user.username
  have quiet : ∀ (u : User) (f : User → Answer), subject db.users req.user = some u → asked db.users req f = f u := by
    intro u f hu
    unfold asked
    rw [hu]
  have deny : ∀ (f : User → Answer), subject db.users req.user = none → asked db.users req f = refuse db.users req := by
    intro f hu
    unfold asked
    rw [hu]
  cases c with
  | addUser =>
    simp only [exec, step, Database.addUser, register]
    cases hp : checkPolicy db.policy req.user.username req.user.password with
    | some e => exact ⟨rfl, rfl, rfl⟩
    | none =>
      simp only [Option.isSome_none, Bool.false_eq_true, if_false]
      cases hn : User.newWithRoles nd req.user.username req.user.password req.user.email req.user.fullName req.user.roles with
      | err e => exact ⟨rfl, rfl, rfl⟩
      | panic => exact ⟨rfl, rfl, rfl⟩
      | ok u =>
        dsimp only
        have hname := name_taken h.inv u.username
        have hmail := mails_taken h.inv u.emailAddresses
        rw [← hname]
        cases hr : db.refUsername (toLower u.username) with
        | some i => exact ⟨rfl, rfl, rfl⟩
        | none =>
          simp only [Option.isSome_none, Bool.false_eq_true, if_false]
          cases hce : db.checkEmails u.emailAddresses with
          | error e =>
            rw [hce] at hmail
            rw [if_pos (hmail.1 ⟨e, rfl⟩)]
            exact ⟨rfl, rfl, rfl⟩
          | ok as =>
            rw [hce] at hmail
            rw [if_neg (fun hc => by obtain ⟨e, he⟩ := hmail.2 hc; cases he), ← pickID_eq h]
            exact same_store (hwp (by simp)).symm rfl
  | getUsers =>
    simp only [exec, step, Database.getUsers]
    rcases hsub with ⟨i, u, h1, h2, h3⟩ | ⟨e, h1, h3⟩
    · rw [h1, quiet u _ h3]
      refine ⟨rfl, ?_, rfl⟩
      simp only [reply, bundle, map_bundle]
      simp [Bundle.new]
    · rw [h1, deny _ h3]
      exact ⟨rfl, rfl, rfl⟩
  | getUser =>
    simp only [exec, step, Database.getUserCall]
    rcases hsub with ⟨i, u, h1, h2, h3⟩ | ⟨e, h1, h3⟩
    · rw [h1, quiet u _ h3]
      refine ⟨rfl, ?_, rfl⟩
      simp only [reply, findIdx_eq h.ids h2]
    · rw [h1, deny _ h3]
      exact ⟨rfl, rfl, rfl⟩
  | deleteUser =>
    simp only [exec, step, Database.deleteUser]
    rcases hsub with ⟨i, u, h1, h2, h3⟩ | ⟨e, h1, h3⟩ <;> rw [h1] <;> exact ⟨rfl, rfl, rfl⟩
  | authenticateUser =>
    simp only [exec, step, Database.authenticateUser, login]
    rcases hold with ⟨i, u, h1, h2⟩ | ⟨h1, h2⟩
    · rw [h1, h2]
      dsimp only
      by_cases hp : req.user.password ≠ []
      · rw [if_pos hp, if_pos hp]
        have hv := verifyPassword_iff (s := req.user.password) (u := u)
        cases hvp : u.verifyPassword req.user.password with
        | some e =>
          rw [if_neg]
          · exact ⟨rfl, rfl, rfl⟩
          · intro hc
            simp only [List.any_eq_true, Bool.and_eq_true, Bool.not_eq_true'] at hc
            obtain ⟨p, hp, ⟨a, b⟩, c⟩ := hc
            rw [hv.2 ⟨p, hp, a, b, c⟩] at hvp
            cases hvp
        | none =>
          rw [if_pos]
          · exact ⟨rfl, rfl, rfl⟩
          · obtain ⟨p, hp, a, b, c⟩ := hv.1 hvp
            simp only [List.any_eq_true, Bool.and_eq_true, Bool.not_eq_true']
            exact ⟨p, hp, ⟨a, b⟩, c⟩
      · rw [if_neg hp, if_neg hp]
        by_cases hq : req.webAuthn.request ≠ []
        · rw [if_pos hq, if_pos hq]
          cases hv : u.verifyWebAuthnRequest req.webAuthn with
          | err e => exact ⟨rfl, rfl, rfl⟩
          | panic => exact absurd hv (verifyWebAuthnRequest_ne_panic _ _)
          | ok x => exact ⟨rfl, rfl, rfl⟩
        · rw [if_neg hq, if_neg hq]
          exact ⟨rfl, rfl, rfl⟩
    · rw [h1, h2]
      exact ⟨rfl, rfl, rfl⟩
  | save =>
    simp only [exec, step, Database.save]
    exact same_store (hwp (by simp)).symm rfl
  | copy fp =>
    obtain ⟨a, b, c⟩ := finish_eq (db := { db with path := fp }) (req := req) (wrap := id) (nd := nd) (fs := fs) hw
    simp only [exec, step, Database.copy]
    unfold Database.finish at a b c
    rcases hc : ({ db with path := fp } : Database).commit nd fs with ⟨d, fs', _ | e⟩ <;> rw [hc] at a b c <;>
      exact ⟨a, b, c⟩
  | addPublicKey =>
    simp only [exec, step, Database.addPublicKey]
    rcases hsub with ⟨i, u, h1, h2, h3⟩ | ⟨e, h1, h3⟩
    · rw [h1, quiet u _ h3]
      exact chg i u _ _ _ h2 (hwp (by simp))
    · rw [h1, deny _ h3]
      exact ⟨rfl, rfl, rfl⟩
  | getPublicKeys =>
    simp only [exec, step, Database.getPublicKeys]
    rcases hsub with ⟨i, u, h1, h2, h3⟩ | ⟨e, h1, h3⟩
    · rw [h1, quiet u _ h3]
      refine ⟨rfl, ?_, rfl⟩
      simp only [reply]
      rw [usage_filter (fun k : PublicKey => k.usage) (fun k : PublicKey => k.disabled)]
    · rw [h1, deny _ h3]
      exact ⟨rfl, rfl, rfl⟩
  | deletePublicKey =>
    simp only [exec, step, Database.deletePublicKey]
    rcases hsub with ⟨i, u, h1, h2, h3⟩ | ⟨e, h1, h3⟩
    · rw [h1, quiet u _ h3]
      exact chg i u _ _ _ h2 (hwp (by simp))
    · rw [h1, deny _ h3]
      exact ⟨rfl, rfl, rfl⟩
  | addAPIKey =>
    simp only [exec, step, Database.addAPIKey]
    rcases hsub with ⟨i, u, h1, h2, h3⟩ | ⟨e, h1, h3⟩
    · rw [h1, quiet u _ h3]
      simp only [issueKey]
      obtain ⟨s, hs⟩ := secret_exists nd.globalRand nd.seedRand
      have hne : trimSpace s ≠ [] := by
        obtain ⟨a1, _, _, a2⟩ := secret_shape hs
        rw [a2]; intro hc; rw [hc] at a1; simp at a1
      rw [hs]
      dsimp only
      rcases keyHolder_eq h (s.take 24) with ⟨j, v, k1, k2, k3⟩ | ⟨k1, k3⟩
      · rw [loop_used k1 hne hsalts, k3]
        exact ⟨rfl, rfl, rfl⟩
      · obtain ⟨p, hp⟩ := newPassword_iff (now := nd.now) (salt := nd.salts 0) (s := s).2 ⟨hne, hsalts 0⟩
        have hloop : db.keyLoop nd s nd.fuel 0 0 = .found p.hash := by
          obtain ⟨f, hf⟩ : ∃ f, nd.fuel = f + 1 := ⟨nd.fuel - 1, by omega⟩
          rw [hf, Database.keyLoop, hp]
          dsimp only
          rw [k1]
        rw [hloop, k3, hp]
        simp only [Option.isSome_none, Bool.false_eq_true, if_false]
        generalize u.addAPIKey nd.now _ _ = r
        cases r with
        | err e => exact ⟨rfl, rfl, rfl⟩
        | panic => exact ⟨rfl, rfl, rfl⟩
        | ok u' => exact same_store (hwp (by simp)).symm (replace_eq h.ids h2 u').symm
    · rw [h1, deny _ h3]
      exact ⟨rfl, rfl, rfl⟩
  | deleteAPIKey =>
    simp only [exec, step, Database.deleteAPIKey]
    rcases hsub with ⟨i, u, h1, h2, h3⟩ | ⟨e, h1, h3⟩
    · rw [h1, quiet u _ h3]
      dsimp only
      cases u.deleteAPIKey nd.now req.key with
      | err e => exact ⟨rfl, rfl, rfl⟩
      | panic => exact ⟨rfl, rfl, rfl⟩
      | ok x =>
        obtain ⟨u', k⟩ := x
        exact same_store (hwp (by simp)).symm (replace_eq h.ids h2 u').symm
    · rw [h1, deny _ h3]
      exact ⟨rfl, rfl, rfl⟩
  | getAPIKeys =>
    simp only [exec, step, Database.getAPIKeys]
    rcases hsub with ⟨i, u, h1, h2, h3⟩ | ⟨e, h1, h3⟩
    · rw [h1, quiet u _ h3]
      refine ⟨rfl, ?_, rfl⟩
      simp only [reply]
      rw [usage_filter (fun k : APIKey => k.usage) (fun k : APIKey => k.disabled)]
    · rw [h1, deny _ h3]
      exact ⟨rfl, rfl, rfl⟩
  | changeUserPassword =>
    simp only [exec, step, Database.changeUserPassword]
    rcases hsub with ⟨i, u, h1, h2, h3⟩ | ⟨e, h1, h3⟩
    · rw [h1, quiet u _ h3]
      cases checkPasswordPolicy db.policy req.user.password with
      | some e => exact ⟨rfl, rfl, rfl⟩
      | none => exact chg i u _ _ _ h2 (hwp (by simp))
    · rw [h1, deny _ h3]
      exact ⟨rfl, rfl, rfl⟩
  | identifyUser =>
    simp only [exec, step, Database.identifyUser, identify]
    rcases hold with ⟨i, u, h1, h2⟩ | ⟨h1, h2⟩ <;> rw [h1, h2] <;> exact ⟨rfl, rfl, rfl⟩
  | lookupAPIKey =>
    simp only [exec, step, Database.lookupAPIKey, checkKey]
    by_cases hz : req.key.payload = []
    · rw [if_pos hz, if_pos (by rw [hz]; decide)]
      exact ⟨rfl, rfl, rfl⟩
    · rw [if_neg hz]
      by_cases hl : req.key.payload.length < 72
      · rw [if_pos hl, if_pos hl]
        exact ⟨rfl, rfl, rfl⟩
      · rw [if_neg hl, if_neg hl]
        have none_of : (∀ (i : Nat) (u : User), db.users[i]? = some u → ∀ k ∈ u.apiKeys, k.pfx = req.key.payload.take 24 →
            k.accepts req.key.payload ≠ true) →
            (db.users.find? fun u => u.apiKeys.any fun k =>
              k.pfx = req.key.payload.take 24 ∧ k.accepts req.key.payload) = none := by
          intro hall
          rw [List.find?_eq_none]
          intro u hu hc
          obtain ⟨i, hi⟩ := List.getElem?_of_mem hu
          simp only [List.any_eq_true, decide_eq_true_eq] at hc
          obtain ⟨k, hk, hkp, hka⟩ := hc
          exact hall i u hi k hk hkp hka
        cases hr : db.refAPIKey (req.key.payload.take 24) with
        | none =>
          rw [none_of]
          · exact ⟨rfl, rfl, rfl⟩
          · intro i u hi k hk hkp _
            rw [← hkp, h.inv.api_ref i u k hi hk] at hr
            cases hr
        | some i =>
          obtain ⟨u, hu, _⟩ := h.keys _ _ hr
          have hd : db.deref (some i) = some (i, u) := deref_eq_some.2 ⟨rfl, hu⟩
          rw [hd]
          dsimp only
          have only : ∀ (j : Nat) (v : User), db.users[j]? = some v → ∀ k ∈ v.apiKeys, k.pfx = req.key.payload.take 24 → v = u := by
            intro j v hj k hk hkp
            have := h.inv.api_ref j v k hj hk
            rw [hkp, hr] at this
            cases this
            rw [hu] at hj
            cases hj
            rfl
          have hiff := lookupKeys_none_iff (pfx := req.key.payload.take 24) (payload := req.key.payload) (ks := u.apiKeys)
            (h.inv.api_nodup u (List.mem_of_getElem? hu))
          cases hq : User.lookupAPIKey (req.key.payload.take 24) req.key.payload u.apiKeys with
          | some e =>
            rw [none_of]
            · exact ⟨rfl, rfl, rfl⟩
            · intro j v hj k hk hkp hka
              have hvu := only j v hj k hk hkp
              subst hvu
              rw [hiff.2 ⟨k, hk, hkp, hka⟩] at hq
              cases hq
          | none =>
            obtain ⟨k, hk, hkp, hka⟩ := hiff.1 hq
            rw [find_unique (x := u) hu]
            · exact ⟨rfl, rfl, rfl⟩
            · simp only [List.any_eq_true, decide_eq_true_eq]
              exact ⟨k, hk, hkp, hka⟩
            · intro v hv hc
              obtain ⟨j, hj⟩ := List.getElem?_of_mem hv
              simp only [List.any_eq_true, decide_eq_true_eq] at hc
              obtain ⟨k', hk', hkp', _⟩ := hc
              exact only j v hj k' hk' hkp'
  | addMfaToken =>
    simp only [exec, step, Database.addMfaToken]
    rcases hsub with ⟨i, u, h1, h2, h3⟩ | ⟨e, h1, h3⟩
    · rw [h1, quiet u _ h3]
      dsimp only
      rcases u.addMfaToken nd req with ⟨r, req'⟩
      cases r with
      | err e => exact ⟨rfl, rfl, rfl⟩
      | panic => exact ⟨rfl, rfl, rfl⟩
      | ok u' => exact same_store (hwp (by simp)).symm (replace_eq h.ids h2 u').symm
    · rw [h1, deny _ h3]
      exact ⟨rfl, rfl, rfl⟩
  | getMfaTokens =>
    simp only [exec, step, Database.getMfaTokens]
    rcases hsub with ⟨i, u, h1, h2, h3⟩ | ⟨e, h1, h3⟩
    · rw [h1, quiet u _ h3]
      refine ⟨rfl, ?_, rfl⟩
      simp only [reply, bundle, bundle_filter (fun k : MfaToken => k.disabled)]
      simp [Bundle.new]
    · rw [h1, deny _ h3]
      exact ⟨rfl, rfl, rfl⟩
  | deleteMfaToken =>
    simp only [exec, step, Database.deleteMfaToken]
    rcases hsub with ⟨i, u, h1, h2, h3⟩ | ⟨e, h1, h3⟩
    · rw [h1, quiet u _ h3]
      exact chg i u _ _ _ h2 (hwp (by simp))
    · rw [h1, deny _ h3]
      exact ⟨rfl, rfl, rfl⟩

theorem opened_faithful {db : Database} (h : Opened db) : Faithful db :=
  ⟨reach_inv (.init h), fresh_invID (.init h), opened_apiExact h⟩

theorem exec_faithful {db : Database} (h : Faithful db) (hids : KeyIDsDistinct db) (c : Call) (nd : Nondet) (fs : FS)
    (req : Request) (hfresh : c = .addUser → ∃ id ∈ nd.ids.take 10, ∀ u ∈ db.users, u.id ≠ id) :
    Faithful (exec c nd db fs req).db := by
  refine ⟨exec_inv h.inv, exec_invID h.ids ?_, ?_⟩
  · intro hc
    obtain ⟨id, hid, hall⟩ := hfresh hc
    refine ⟨id, hid, ?_⟩
    cases hr : db.refID id with
    | none => rfl
    | some i =>
      obtain ⟨u, hu, he⟩ := h.inv.id_src id i hr
      exact absurd he (hall u (List.mem_of_getElem? hu))
  · rcases exec_spec c nd db fs req with h1 | ⟨db', m, hc⟩
    · rw [h1.db_eq]; exact h.keys
    · rw [hc.db_eq]; exact m.apiExact h.keys hids

theorem canWrite_iff {dirs : GoString → Bool} {db : Database} {fs : FS} (hd : ∀ p, fs p = some .dir ↔ dirs p = true) (o : Op) :
    canWrite dirs db.path o = true ↔
      o.call.target db ≠ [] ∧ fs (o.call.target db) ≠ some .dir ∧ o.nd.io = .ok := by
  have ht : target db.path o.call = o.call.target db := by cases o.call <;> rfl
  unfold canWrite
  simp only [ht, decide_eq_true_eq, Bool.not_eq_true', ne_eq, hd]
  constructor
  · rintro ⟨a, b, c⟩; exact ⟨b, by simp [c], a⟩
  · rintro ⟨a, b, c⟩; exact ⟨c, a, by simpa using b⟩

theorem verdict_stuck {o : Outcome} : o.verdict = .stuck ↔ o = .hang := by
  unfold Outcome.verdict
  split <;> simp

/-- A history on the database is the same history on the list of its accounts. -/
theorem play_same {dirs : GoString → Bool} (ops : List Op) : ∀ {db : Database} {fs : FS}, Faithful db → KeyIDsDistinct db →
    (∀ p, fs p = some .dir ↔ dirs p = true) → Behaved dirs db.path db.policy db.users ops →
    (run db fs ops).1.users = (play dirs db.path db.policy db.users ops).1 ∧
      transcript db fs ops = (play dirs db.path db.policy db.users ops).2 := by
  induction ops with
  | nil => intro db fs _ _ _ _; exact ⟨rfl, rfl⟩
  | cons o ops ih =>
    intro db fs h hids hd hb
    rw [Behaved] at hb
    obtain ⟨b1, b2, b3, b4, b5⟩ := hb
    have hs := step_same h o.call o.nd fs o.req (canWrite_iff hd o) b3 b4
    obtain ⟨p1, p2, _⟩ := exec_path o.call o.nd db fs o.req
    have hf := exec_faithful h hids o.call o.nd fs o.req b1
    have hdir : ∀ p, (exec o.call o.nd db fs o.req).fs p = some .dir ↔ dirs p = true := fun p =>
      (exec_dir o.call o.nd db fs o.req p).symm.trans (hd p)
    rw [run, transcript, play]
    dsimp only
    generalize exec o.call o.nd db fs o.req = r at *
    generalize step o.call o.nd db.policy (canWrite dirs db.path o) db.users o.req = a at *
    obtain ⟨s1, s2, s3⟩ := hs
    by_cases hst : a.verdict = .stuck
    · rw [if_pos hst]
      have hh : r.out = .hang := verdict_stuck.1 (s3.trans hst)
      rw [hh]
      exact ⟨s1, by rw [← s2, ← s3, hh]⟩
    · rw [if_neg hst]
      have hh : r.out ≠ .hang := fun hc => hst (s3.symm.trans (verdict_stuck.2 hc))
      have hb' := b5 hst
      rw [← s1, ← p1, ← p2] at hb'
      obtain ⟨i1, i2⟩ := ih hf (by unfold KeyIDsDistinct; rw [s1]; exact b2) hdir hb'
      rw [p1, p2, s1] at i1 i2
      have e1 : (match r.out with
          | .hang => (r.db, r.fs)
          | _ => run r.db r.fs ops) = run r.db r.fs ops := by
        cases ho : r.out <;> first | rfl | exact absurd ho hh
      have e2 : (match r.out with
          | .hang => [(r.req, r.out.verdict)]
          | _ => (r.req, r.out.verdict) :: transcript r.db r.fs ops) = (r.req, r.out.verdict) :: transcript r.db r.fs ops := by
        cases ho : r.out <;> first | rfl | exact absurd ho hh
      refine ⟨?_, ?_⟩
      · rw [← i1]
        exact congrArg (fun x => x.1.users) e1
      · rw [← i2, ← s2, ← s3]
        exact e2

end Book
end GoIdentity
