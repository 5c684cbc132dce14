import Verif.Lemmas.Kept
import Verif.Lemmas.Passwords
import Verif.Lemmas.ApiKeys
import Verif.Lemmas.UserSteps
/-!
# What the journal says about the accounts

The accounts of a database that was created empty are determined by the journal of the calls made since.
-/
set_option linter.unusedSectionVars false
namespace GoIdentity
variable [Ext]

theorem snoc_split {α : Type} {j before after : List α} {x e : α} (h : j ++ [x] = before ++ e :: after) :
    (after = [] ∧ e = x ∧ before = j) ∨ ∃ after', after = after' ++ [x] ∧ j = before ++ e :: after' := by
  rcases List.eq_nil_or_concat after with rfl | ⟨as, y, rfl⟩
  · obtain ⟨h1, h2⟩ := List.append_inj' h rfl
    simp at h2
    exact .inl ⟨rfl, h2.symm, h1.symm⟩
  · right
    rw [List.concat_eq_append] at h ⊢
    have h' : j ++ [x] = (before ++ e :: as) ++ [y] := by simpa using h
    obtain ⟨h1, h2⟩ := List.append_inj' h' rfl
    simp at h2
    exact ⟨as, by rw [h2], h1⟩

theorem last_snoc {P : Line → Prop} {j : List Line} {x e : Line} :
    LastOf P (j ++ [x]) e ↔ (P x ∧ e = x) ∨ (¬ P x ∧ LastOf P j e) := by
  constructor
  · rintro ⟨b, a, h, hp, ha⟩
    rcases snoc_split h with ⟨rfl, rfl, rfl⟩ | ⟨a', rfl, rfl⟩
    · exact .inl ⟨hp, rfl⟩
    · exact .inr ⟨ha x (by simp), b, a', rfl, hp, fun y hy => ha y (by simp [hy])⟩
  · rintro (⟨hp, rfl⟩ | ⟨hn, b, a, rfl, hp, ha⟩)
    · exact ⟨j, [], rfl, hp, by simp⟩
    · refine ⟨b, a ++ [x], by simp, hp, fun y hy => ?_⟩
      rcases List.mem_append.1 hy with hy | hy
      · exact ha y hy
      · simp at hy; rw [hy]; exact hn

theorem live_snoc {j : List Line} {x e : Line} {s : GoString} :
    LiveKey (j ++ [x]) e s ↔ (LiveKey j e s ∧ ¬ x.Withdraws e.name (e.keyID s)) ∨ (e = x ∧ x.Issues s) := by
  constructor
  · rintro ⟨b, a, h, hp, ha⟩
    rcases snoc_split h with ⟨rfl, rfl, rfl⟩ | ⟨a', rfl, rfl⟩
    · exact .inr ⟨rfl, hp⟩
    · exact .inl ⟨⟨b, a', rfl, hp, fun y hy => ha y (by simp [hy])⟩, ha x (by simp)⟩
  · rintro (⟨⟨b, a, rfl, hp, ha⟩, hn⟩ | ⟨rfl, hp⟩)
    · refine ⟨b, a ++ [x], by simp, hp, fun y hy => ?_⟩
      rcases List.mem_append.1 hy with hy | hy
      · exact ha y hy
      · simp at hy; rw [hy]; exact hn
    · exact ⟨j, [], rfl, hp, by simp⟩

theorem last_unique {P : Line → Prop} {j : List Line} {e e' : Line} (h : LastOf P j e) (h' : LastOf P j e') : e = e' := by
  obtain ⟨b, a, rfl, hp, ha⟩ := h
  obtain ⟨b', a', h', hp', ha'⟩ := h'
  rcases List.append_eq_append_iff.1 h' with ⟨c, h1, h2⟩ | ⟨c, h1, h2⟩
  · cases c with
    | nil => simp at h2; exact h2.1
    | cons x c => simp at h2; exact absurd hp' (ha _ (by rw [h2.2]; simp))
  · cases c with
    | nil => simp at h2; exact h2.1.symm
    | cons x c => simp at h2; exact absurd hp (ha' _ (by rw [h2.2]; simp))

theorem firstSalt_unique {nd : Nondet} {s s' : GoString} (h : FirstSalt nd s) (h' : FirstSalt nd s') : s = s' := by
  obtain ⟨n, h1, h2⟩ := h
  obtain ⟨m, h3, h4⟩ := h'
  rcases Nat.lt_trichotomy n m with hh | hh | hh
  · have := h4 n hh; rw [h1] at this; cases this
  · subst hh; rw [h1] at h3; exact Option.some.inj h3
  · have := h2 m hh; rw [h3] at this; cases this

/-- The stored key is the one issued by `e` with the secret `s`. -/
structure KeyOf (e : Line) (s : GoString) (k : APIKey) : Prop where
  id : k.id = e.keyID s
  pfx : k.pfx = s.take 24
  accepts : ∃ salt, FirstSalt e.op.nd salt ∧ ∀ q, k.accepts q = true ↔ SameDigest salt s q

/-- What the journal says about an account. -/
structure Account (j : List Line) (u : User) : Prop where
  reg : ∃ r ∈ j, r.Registers ∧ r.name = u.username ∧ ∃ a, u.emailAddresses = [a] ∧ u.emailAddress = some a ∧
    a.address = r.op.req.user.email
  pw : ∃ e salt, LastOf (Line.SetsPassword u.username) j e ∧ e.op.nd.salts 0 = some salt ∧
    ∀ q, (∃ p ∈ u.passwords, p.disabled = false ∧ p.expired = false ∧ p.accepts q = true) ↔
      SameDigest salt (trimSpace e.op.req.user.password) q
  keys : ∀ k ∈ u.apiKeys, ∃ e s, LiveKey j e s ∧ toLower e.name = toLower u.username ∧ KeyOf e s k
  live : ∀ e s, LiveKey j e s → toLower e.name = toLower u.username → ∃ k ∈ u.apiKeys, KeyOf e s k

structure Chronicle (j : List Line) (db : Database) : Prop where
  acc : ∀ u ∈ db.users, Account j u
  known : ∀ e ∈ j, e.Kept → e.op.call = .addUser ∨ e.op.call = .addAPIKey →
    ∃ u ∈ db.users, toLower u.username = toLower e.name
  reg : ∀ e ∈ j, e.Registers → ∃ u ∈ db.users, u.username = e.name ∧ ∃ a, u.emailAddresses = [a] ∧
    a.address = e.op.req.user.email

theorem withdraws_congr {n m id : GoString} {x : Line} (h : toLower n = toLower m) : x.Withdraws n id ↔ x.Withdraws m id := by
  unfold Line.Withdraws; rw [h]

/-- Lines that do not concern the account. -/
theorem Account.other {j : List Line} {u u' : User} {x : Line} (h : Account j u) (h1 : u'.username = u.username)
    (h2 : u'.emailAddresses = u.emailAddresses) (h2' : u'.emailAddress = u.emailAddress)
    (h3 : u'.passwords = u.passwords) (h4 : u'.apiKeys = u.apiKeys)
    (hs : ¬ x.SetsPassword u.username) (hi : ∀ s, x.Issues s → toLower x.name ≠ toLower u.username)
    (hw : ∀ id, ¬ x.Withdraws u.username id) : Account (j ++ [x]) u' := by
  obtain ⟨⟨r, hr, hr'⟩, ⟨e, salt, he, he'⟩, hk, hl⟩ := h
  refine ⟨⟨r, by simp [hr], by rw [h1, h2, h2']; exact hr'⟩, ⟨e, salt, by rw [h1]; exact last_snoc.2 (.inr ⟨hs, he⟩), by rw [h3]; exact he'⟩,
    fun k hk' => ?_, fun e s hl' hn => ?_⟩
  · rw [h4] at hk'
    obtain ⟨e, s, a, b, c⟩ := hk k hk'
    exact ⟨e, s, live_snoc.2 (.inl ⟨a, fun w => hw _ ((withdraws_congr b).1 w)⟩), by rw [h1]; exact b, c⟩
  · rw [h1] at hn
    rw [h4]
    rcases live_snoc.1 hl' with ⟨a, _⟩ | ⟨rfl, a⟩
    · exact hl e s a hn
    · exact absurd hn (hi s a)

theorem keyLoop_first {nd : Nondet} {db : Database} {s hash : GoString} {fuel a f : Nat} (hb : ∀ m < a, nd.salts m = none)
    (h : db.keyLoop nd s fuel a f = .found hash) :
    ∃ n hk, (∀ m < n, nd.salts m = none) ∧ newPassword nd.now (nd.salts n) s = .ok hk ∧ hk.hash = hash := by
  by_cases hr : db.refAPIKey (s.take 24) = none
  · induction fuel generalizing a f with
    | zero => simp [Database.keyLoop] at h
    | succ n ih =>
      unfold Database.keyLoop at h
      split at h
      · rename_i e he
        split at h
        · simp at h
        · refine ih (fun m hm => ?_) h
          rcases Nat.lt_or_ge m a with h1 | h1
          · exact hb m h1
          · have : m = a := by omega
            subst this
            cases hn : nd.salts m with
            | none => rfl
            | some salt =>
              exfalso
              rw [hn] at he
              have hne : trimSpace s = [] := by
                unfold newPassword newPasswordWithOptions bcryptGenerate at he
                rcases Decidable.em (trimSpace s = []) with hc | hc
                · exact hc
                · simp [hc] at he
              have : ∀ fuel a f, db.keyLoop nd s fuel a f ≠ .found hash := by
                intro fuel
                induction fuel with
                | zero => simp [Database.keyLoop]
                | succ n ih2 =>
                  intro a f
                  unfold Database.keyLoop
                  have : ∃ e, newPassword nd.now (nd.salts a) s = .err e := by
                    unfold newPassword newPasswordWithOptions
                    simp [hne]
                  obtain ⟨e, he⟩ := this
                  rw [he]
                  dsimp only
                  split
                  · simp
                  · exact ih2 _ _
              exact this _ _ _ h
      · simp at h
      · rename_i hk hhk
        rw [hr] at h
        simp at h
        exact ⟨a, hk, hb, hhk, h⟩
  · exact absurd (keyLoop_found h).1 hr

theorem newEmailAddress_keeps {s : GoString} {e : EmailAddress} (h : newEmailAddress s = .ok e) : e.address = s := by
  unfold newEmailAddress at h
  repeat' split at h
  all_goals first | (simp at h; done) | (simp at h; rw [← h])

/-- Everything about an accepted `AddAPIKey`. -/
theorem addAPIKey_kept {nd : Nondet} {db : Database} {fs : FS} {req : Request} (hs : (exec .addAPIKey nd db fs req).Kept) :
    ∃ (i : Nat) (u : User) (s : GoString) (n : Nat) (hk : Password) (key : APIKey),
      db.validateUserIdentity req.user.username req.user.email = .ok (i, u) ∧
      getRandomStringFromRange nd.globalRand nd.seedRand 72 96 = .ok s ∧ (∀ m < n, nd.salts m = none) ∧
      newPassword nd.now (nd.salts n) s = .ok hk ∧
      newAPIKey nd.now (getRandomString nd.seedRand s.length 40)
        { req.key with payload := hk.hash, pfx := s.take 24 } = .ok key ∧
      (exec .addAPIKey nd db fs req).db.users =
        db.users.set i (User.revise (nd.now.skip 2) { u with apiKeys := u.apiKeys ++ [key] }) ∧
      (exec .addAPIKey nd db fs req).req.response.payload = .secret s ∧
      (exec .addAPIKey nd db fs req).req.key = { req.key with payload := hk.hash, pfx := s.take 24 } := by
  obtain ⟨db', m, hc⟩ := kept_mutation rfl hs
  cases m with
  | addAPIKey i u u' s hash hv hs hl h1 =>
    obtain ⟨key, hk, rfl⟩ := User.addAPIKey_ok h1
    obtain ⟨n, p, hn, hp, rfl⟩ := keyLoop_first (by omega) hl
    refine ⟨i, u, s, n, p, key, hv, hs, hn, hp, hk, ?_, ?_, ?_⟩
    · rw [hc.db_eq]; rfl
    · simp only [exec, Database.addAPIKey, hv, hs, hl, h1]
      rw [(finish_req ..).1]
    · simp only [exec, Database.addAPIKey, hv, hs, hl, h1]
      rw [(finish_req ..).1]

theorem account_key {x : Line} {s : GoString} {n : Nat} {hk : Password} {k : ReqKey} {key : APIKey}
    (hs : getRandomStringFromRange x.op.nd.globalRand x.op.nd.seedRand 72 96 = .ok s)
    (hn : ∀ m < n, x.op.nd.salts m = none) (hp : newPassword x.op.nd.now (x.op.nd.salts n) s = .ok hk)
    (hkey : newAPIKey x.op.nd.now (getRandomString x.op.nd.seedRand s.length 40) { k with payload := hk.hash, pfx := s.take 24 } = .ok key) :
    KeyOf x s key := by
  obtain ⟨_, _, rfl⟩ := newAPIKey_ok hkey
  obtain ⟨_, salt, hsalt, _⟩ := newPassword_ok hp
  refine ⟨rfl, rfl, salt, ⟨n, hsalt, hn⟩, fun q => ?_⟩
  rw [hsalt] at hp
  have := newPassword_accepts_iff (q := q) hp
  rw [(secret_shape hs).2.2.2] at this
  exact this

theorem Chronicle.set {j : List Line} {x : Line} {db db' : Database} {i : Nat} {u u' : User} (hinv : Inv db) (h : Chronicle j db)
    (hu : db.users[i]? = some u) (hdb : db'.users = db.users.set i u') (hn : toLower x.name = toLower u.username)
    (h1 : u'.username = u.username) (h2 : u'.emailAddresses = u.emailAddresses) (hc : x.op.call ≠ .addUser)
    (ha : Account (j ++ [x]) u') : Chronicle (j ++ [x]) db' := by
  have hlt : i < db.users.length := (List.getElem?_eq_some_iff.1 hu).1
  have hmem : u' ∈ db'.users := by rw [hdb]; exact List.mem_set hlt _
  have hkeep : ∀ v ∈ db.users, v = u ∨ v ∈ db'.users := by
    intro v hv
    obtain ⟨k, hk⟩ := List.getElem?_of_mem hv
    by_cases hik : i = k
    · subst hik; rw [hu] at hk; exact .inl (Option.some.inj hk).symm
    · right; rw [hdb]; exact List.mem_of_getElem? (by rw [List.getElem?_set_ne hik]; exact hk)
  refine ⟨fun v hv => ?_, fun e he hk hc' => ?_, fun e he hr => ?_⟩
  · rw [hdb] at hv
    obtain ⟨k, hk⟩ := List.getElem?_of_mem hv
    by_cases hik : i = k
    · subst hik
      rw [List.getElem?_set_self hlt] at hk
      cases hk
      exact ha
    · rw [List.getElem?_set_ne hik] at hk
      have hne : toLower x.name ≠ toLower v.username := by
        intro he
        have a := hinv.name_ref i u hu
        have b := hinv.name_ref k v hk
        rw [← hn, he, b] at a
        exact hik (Option.some.inj a).symm
      exact (h.acc v (List.mem_of_getElem? hk)).other rfl rfl rfl rfl rfl (fun w => hne w.2.2) (fun _ _ => hne) (fun _ w => hne w.2.2.1)
  · rcases List.mem_append.1 he with he | he
    · obtain ⟨v, hv, hv'⟩ := h.known e he hk hc'
      rcases hkeep v hv with rfl | hv2
      · exact ⟨u', hmem, by rw [h1]; exact hv'⟩
      · exact ⟨v, hv2, hv'⟩
    · simp at he
      rw [he]
      exact ⟨u', hmem, by rw [h1]; exact hn.symm⟩
  · rcases List.mem_append.1 he with he | he
    · obtain ⟨v, hv, hv'⟩ := h.reg e he hr
      rcases hkeep v hv with rfl | hv2
      · exact ⟨u', hmem, by rw [h1, h2]; exact hv'⟩
      · exact ⟨v, hv2, hv'⟩
    · simp at he
      rw [he] at hr
      exact absurd hr.2 hc

theorem chronicle_step {j : List Line} {db : Database} (fs : FS) (o : Op) (hinv : Inv db) (h : Chronicle j db) :
    Chronicle (j ++ [⟨o, (exec o.call o.nd db fs o.req).out, (exec o.call o.nd db fs o.req).req⟩])
      (exec o.call o.nd db fs o.req).db := by
  obtain ⟨c, req, nd⟩ := o
  dsimp only
  generalize hx : (⟨⟨c, req, nd⟩, (exec c nd db fs req).out, (exec c nd db fs req).req⟩ : Line) = x
  have xop : x.op = ⟨c, req, nd⟩ := by rw [← hx]
  have xname : x.name = req.user.username := by rw [← hx]; rfl
  have xkept : x.Kept ↔ (exec c nd db fs req).Kept := by rw [← hx]; exact Iff.rfl
  have same : (exec c nd db fs req).db.users = db.users → ¬ (x.Kept ∧ c ≠ .save ∧ ∀ fp, c ≠ .copy fp) ∨ c.mutates = false →
      Chronicle (j ++ [x]) (exec c nd db fs req).db := by
    intro hd hk
    have hno : ∀ c', x.Kept → x.op.call = c' → c' = .addUser ∨ c' = .addAPIKey ∨ c' = .deleteAPIKey ∨ c' = .changeUserPassword → False := by
      intro c' hk' hc' h'
      rw [xop] at hc'
      simp only at hc'
      subst hc'
      rcases hk with hk | hk
      · refine hk ⟨hk', ?_, ?_⟩ <;> rcases h' with h' | h' | h' | h' <;> rw [h'] <;> simp
      · rcases h' with h' | h' | h' | h' <;> rw [h'] at hk <;> simp [Call.mutates] at hk
    refine ⟨fun u hu => ?_, fun e he hk hc => ?_, fun e he hr => ?_⟩
    · rw [hd] at hu
      exact (h.acc u hu).other rfl rfl rfl rfl rfl (fun w => hno _ w.1 rfl (w.2.1.elim .inl fun h => .inr (.inr (.inr h))))
        (fun s w => (hno _ w.1 rfl (.inr (.inl w.2.1))).elim) (fun id w => hno _ w.1 rfl (.inr (.inr (.inl w.2.1))))
    · rw [hd]
      rcases List.mem_append.1 he with he | he
      · exact h.known e he hk hc
      · simp at he; rw [he] at hk hc; exact (hno _ hk rfl (hc.elim .inl fun h => .inr (.inl h))).elim
    · rw [hd]
      rcases List.mem_append.1 he with he | he
      · exact h.reg e he hr
      · simp at he; rw [he] at hr; exact (hno _ hr.1 rfl (.inl hr.2)).elim
  rcases exec_kept c nd db fs req with ⟨hne, hnk⟩ | ⟨hk, hm, db', m, hc⟩
  · refine same (by rw [hne.db_eq]) ?_
    by_cases hm : c.mutates = true
    · exact .inl fun hh => hnk ⟨hm, xkept.1 hh.1⟩
    · exact .inr (by simpa using hm)
  · have hk' := xkept.2 hk
    by_cases hapi : c = .addAPIKey
    · subst hapi
      obtain ⟨i, u, s, n, p, key, hv, hs, hn, hp, hkey, hus, hpay, _⟩ := addAPIKey_kept hk
      have hu := validate_users hv
      have hname := ((validate_iff hinv).1 hv).2.1.2
      have hpx : x.reply.response.payload = .secret s := by rw [← hx]; exact hpay
      have hko : KeyOf x s key := by
        refine account_key (k := req.key) (n := n) (hk := p) ?_ ?_ ?_ ?_ <;> rw [xop]
        · exact hs
        · exact hn
        · exact hp
        · exact hkey
      have hiss : x.Issues s := ⟨hk', by rw [xop], hpx⟩
      have hnot : ∀ n id, ¬ x.Withdraws n id := fun n id w => by have := w.2.1; rw [xop] at this; cases this
      obtain ⟨⟨r, hr, hr'⟩, ⟨e, salt, he, he'⟩, hk1, hl1⟩ := h.acc u (List.mem_of_getElem? hu)
      refine h.set hinv hu hus (by rw [xname, hname]) rfl rfl (by rw [xop]; simp) ⟨⟨r, by simp [hr], hr'⟩, ⟨e, salt, ?_, he'⟩, ?_, ?_⟩
      · refine last_snoc.2 (.inr ⟨fun w => ?_, he⟩)
        have := w.2.1; rw [xop] at this; simp at this
      · intro k hk2
        rcases List.mem_append.1 hk2 with hk2 | hk2
        · obtain ⟨e, s, a, b, c⟩ := hk1 k hk2
          exact ⟨e, s, live_snoc.2 (.inl ⟨a, hnot _ _⟩), b, c⟩
        · simp at hk2
          rw [hk2]
          exact ⟨x, s, live_snoc.2 (.inr ⟨rfl, hiss⟩), by rw [xname, ← hname]; rfl, hko⟩
      · intro e s' hl hn'
        rcases live_snoc.1 hl with ⟨a, _⟩ | ⟨rfl, a⟩
        · obtain ⟨k, hk2, hk3⟩ := hl1 e s' a hn'
          exact ⟨k, List.mem_append.2 (.inl hk2), hk3⟩
        · have := a.2.2
          rw [hpx] at this
          cases this
          exact ⟨key, by simp [User.revise], hko⟩
    · have hus := m.users'
      have hd : (exec c nd db fs req).db.users = db'.users := by rw [hc.db_eq]; rfl
      rw [← hd] at hus
      revert hus hd
      generalize hgd : (exec c nd db fs req).db = dd at *
      generalize husr : dd.users = us
      intro hus hd
      cases hus with
      | save => exact same husr (.inl (by simp))
      | copy fp => exact same husr (.inl (by simp))
      | appended p e roles name hpol hp he hun hid hfree hefree =>
        obtain ⟨_, salt, hsalt, _⟩ := newPassword_ok hp
        have hea := newEmailAddress_keeps he
        have hreg : x.Registers := ⟨hk', by rw [xop]⟩
        have hnI : ∀ s, ¬ x.Issues s := fun s w => by have := w.2.1; rw [xop] at this; cases this
        have hnW : ∀ n id, ¬ x.Withdraws n id := fun n id w => by have := w.2.1; rw [xop] at this; cases this
        have hfresh : ∀ u ∈ db.users, toLower u.username ≠ toLower x.name := by
          intro u hu he
          obtain ⟨k, hk⟩ := List.getElem?_of_mem hu
          have := hinv.name_ref k u hk
          rw [he, xname, hfree] at this
          cases this
        refine ⟨fun u hu => ?_, fun e' he' hk2 hc2 => ?_, fun e' he' hr => ?_⟩
        · rw [husr] at hu
          rcases List.mem_append.1 hu with hu | hu
          · exact (h.acc u hu).other rfl rfl rfl rfl rfl (fun w => hfresh u hu w.2.2.symm) (fun s w => absurd w (hnI s)) (fun id => hnW _ _)
          · simp at hu
            subst hu
            refine ⟨⟨x, by simp, hreg, xname, e, rfl, rfl, by rw [xop]; exact hea⟩, ⟨x, salt, last_snoc.2 (.inl ⟨⟨hk', .inl (by rw [xop]), by rw [xname]; rfl⟩, rfl⟩), by rw [xop]; exact hsalt, fun q => ?_⟩, ?_, ?_⟩
            · rw [hsalt] at hp
              rw [xop, ← newPassword_accepts_iff (q := q) hp]
              obtain ⟨_, _, _, rfl⟩ := newPassword_ok hp
              simp [newUserOf]
            · intro k hk; simp [newUserOf, User.zero] at hk
            · intro e' s' hl hn'
              exfalso
              rcases live_snoc.1 hl with ⟨⟨b, a, hj, hi, _⟩, _⟩ | ⟨rfl, a⟩
              · obtain ⟨v, hv, hv'⟩ := h.known e' (by rw [hj]; simp) hi.1 (.inr hi.2.1)
                exact hfresh v hv (by rw [hv', hn', xname]; rfl)
              · exact hnI _ a
        · rw [husr]
          rcases List.mem_append.1 he' with he' | he'
          · obtain ⟨v, hv, hv'⟩ := h.known e' he' hk2 hc2
            exact ⟨v, by simp [hv], hv'⟩
          · simp at he'
            rw [he']
            exact ⟨_, by simp; exact .inr rfl, by rw [xname]; rfl⟩
        · rw [husr]
          rcases List.mem_append.1 he' with he' | he'
          · obtain ⟨v, hv, hv'⟩ := h.reg e' he' hr
            exact ⟨v, by simp [hv], hv'⟩
          · simp at he'
            rw [he']
            exact ⟨_, by simp; exact .inr rfl, xname.symm, e, rfl, by rw [xop]; exact hea⟩
      | modified _ i u u' hv hop =>
        have hu := validate_users hv
        have hname := ((validate_iff hinv).1 hv).2.1.2
        have hac := h.acc u (List.mem_of_getElem? hu)
        have hxn : toLower x.name = toLower u.username := by rw [xname, hname]
        have hnI : ∀ s, ¬ x.Issues s := fun s w => by have := w.2.1; rw [xop] at this; exact hapi this
        cases hop with
        | addAPIKey => exact absurd rfl hapi
        | addPublicKey =>
          exact h.set hinv hu husr hxn rfl rfl (by rw [xop]; simp) (hac.other rfl rfl rfl rfl rfl
            (fun w => by have := w.2.1; rw [xop] at this; simp at this) (fun s w => absurd w (hnI s))
            (fun id w => by have := w.2.1; rw [xop] at this; cases this))
        | deletePublicKey =>
          exact h.set hinv hu husr hxn rfl rfl (by rw [xop]; simp) (hac.other rfl rfl rfl rfl rfl
            (fun w => by have := w.2.1; rw [xop] at this; simp at this) (fun s w => absurd w (hnI s))
            (fun id w => by have := w.2.1; rw [xop] at this; cases this))
        | addMfaToken =>
          exact h.set hinv hu husr hxn rfl rfl (by rw [xop]; simp) (hac.other rfl rfl rfl rfl rfl
            (fun w => by have := w.2.1; rw [xop] at this; simp at this) (fun s w => absurd w (hnI s))
            (fun id w => by have := w.2.1; rw [xop] at this; cases this))
        | deleteMfaToken =>
          exact h.set hinv hu husr hxn rfl rfl (by rw [xop]; simp) (hac.other rfl rfl rfl rfl rfl
            (fun w => by have := w.2.1; rw [xop] at this; simp at this) (fun s w => absurd w (hnI s))
            (fun id w => by have := w.2.1; rw [xop] at this; cases this))
        | deleteAPIKey hex =>
          obtain ⟨⟨r, hr, hr'⟩, ⟨e, salt, he, he'⟩, hk1, hl1⟩ := hac
          have hW : ∀ n id, toLower n = toLower u.username → (x.Withdraws n id ↔ req.key.id = id) := by
            intro n id hn
            refine ⟨fun w => by have := w.2.2.2; rw [xop] at this; exact this, fun w => ⟨hk', by rw [xop], by rw [hxn, hn], by rw [xop]; exact w⟩⟩
          refine h.set hinv hu husr hxn rfl rfl (by rw [xop]; simp) ⟨⟨r, by simp [hr], hr'⟩, ⟨e, salt, ?_, he'⟩, ?_, ?_⟩
          · refine last_snoc.2 (.inr ⟨fun w => ?_, he⟩)
            have := w.2.1; rw [xop] at this; simp at this
          · intro k hk2
            obtain ⟨hk2, hk3⟩ := List.mem_filter.1 hk2
            obtain ⟨e, s, a, b, c⟩ := hk1 k hk2
            refine ⟨e, s, live_snoc.2 (.inl ⟨a, fun w => ?_⟩), b, c⟩
            have := (hW _ _ b).1 w
            rw [← c.id] at this
            simp [this] at hk3
          · intro e s' hl hn'
            rcases live_snoc.1 hl with ⟨a, ha⟩ | ⟨rfl, a⟩
            · obtain ⟨k, hk2, hk3⟩ := hl1 e s' a hn'
              refine ⟨k, List.mem_filter.2 ⟨hk2, ?_⟩, hk3⟩
              have := mt (hW _ _ hn').2 ha
              rw [← hk3.id] at this
              simp
              exact fun h => this h.symm
            · exact absurd a (hnI _)
        | changeUserPassword p hpol hold hp =>
          obtain ⟨⟨r, hr, hr'⟩, ⟨e, salt0, he, he'⟩, hk1, hl1⟩ := hac
          obtain ⟨_, salt, hsalt, _⟩ := newPassword_ok hp
          have hnW : ∀ n id, ¬ x.Withdraws n id := fun n id w => by have := w.2.1; rw [xop] at this; cases this
          refine h.set hinv hu husr hxn rfl rfl (by rw [xop]; simp) ⟨⟨r, by simp [hr], hr'⟩, ⟨x, salt, ?_, by rw [xop]; exact hsalt, fun q => ?_⟩, ?_, ?_⟩
          · exact last_snoc.2 (.inl ⟨⟨hk', .inr (by rw [xop]), hxn⟩, rfl⟩)
          · rw [hsalt] at hp
            rw [xop, ← newPassword_accepts_iff (q := q) hp]
            obtain ⟨_, _, _, hpe⟩ := newPassword_ok hp
            constructor
            · rintro ⟨p', hp', h1, h2, h3⟩
              simp only [User.revise, List.mem_cons] at hp'
              rcases hp' with rfl | hp'
              · exact h3
              · have hk := keepOf_pos db.policy.password.keepVersions
                unfold keepOf at hk
                rw [keepLoop_eq _ _ hk 0 (by omega)] at hp'
                obtain ⟨q', _, jj, rfl⟩ := mem_off (f := fun jj => (nd.now.skip 1).skip (2 * (0 + jj))) hp'
                rw [off_disabled] at h1
                cases h1
            · intro h3
              exact ⟨p, by simp [User.revise], by rw [hpe], by rw [hpe], h3⟩
          · intro k hk2
            obtain ⟨e, s, a, b, c⟩ := hk1 k hk2
            exact ⟨e, s, live_snoc.2 (.inl ⟨a, hnW _ _⟩), b, c⟩
          · intro e s' hl hn'
            rcases live_snoc.1 hl with ⟨a, ha⟩ | ⟨rfl, a⟩
            · exact hl1 e s' a hn'
            · exact absurd a (hnI _)

theorem journal_hang {db : Database} {fs : FS} {o : Op} {os : List Op} (h : (exec o.call o.nd db fs o.req).out = .hang) :
    journal db fs (o :: os) = [⟨o, (exec o.call o.nd db fs o.req).out, (exec o.call o.nd db fs o.req).req⟩] := by
  unfold journal; dsimp only; split
  · rfl
  · contradiction

theorem run_hang {db : Database} {fs : FS} {o : Op} {os : List Op} (h : (exec o.call o.nd db fs o.req).out = .hang) :
    run db fs (o :: os) = ((exec o.call o.nd db fs o.req).db, (exec o.call o.nd db fs o.req).fs) := by
  unfold run; dsimp only; split
  · rfl
  · contradiction

theorem journal_cons {db : Database} {fs : FS} {o : Op} {os : List Op} (h : (exec o.call o.nd db fs o.req).out ≠ .hang) :
    journal db fs (o :: os) = ⟨o, (exec o.call o.nd db fs o.req).out, (exec o.call o.nd db fs o.req).req⟩ ::
      journal (exec o.call o.nd db fs o.req).db (exec o.call o.nd db fs o.req).fs os := by
  rw [journal.eq_def]; dsimp only; split
  · contradiction
  · rfl

theorem run_goes {db : Database} {fs : FS} {o : Op} {os : List Op} (h : (exec o.call o.nd db fs o.req).out ≠ .hang) :
    run db fs (o :: os) = run (exec o.call o.nd db fs o.req).db (exec o.call o.nd db fs o.req).fs os := by
  rw [run.eq_def]; dsimp only; split
  · contradiction
  · rfl

theorem chronicle_run {j : List Line} {db : Database} (fs : FS) (ops : List Op) (hinv : Inv db) (h : Chronicle j db) :
    Chronicle (j ++ journal db fs ops) (run db fs ops).1 := by
  induction ops generalizing j db fs with
  | nil => simpa [journal, run] using h
  | cons o os ih =>
    have hstep := chronicle_step fs o hinv h
    by_cases ho : (exec o.call o.nd db fs o.req).out = .hang
    · rw [journal_hang ho, run_hang ho]
      exact hstep
    · rw [journal_cons ho, run_goes ho, show ∀ (a : List Line) (b : Line) c, a ++ b :: c = (a ++ [b]) ++ c by simp]
      exact ih _ (exec_inv hinv) hstep

/-- The accounts of a database that was created and then used. -/
theorem chronicle {db : Database} (h : Created db) (fs : FS) (ops : List Op) : Chronicle (journal db fs ops) (run db fs ops).1 := by
  have := chronicle_run (j := []) fs ops (reach_inv (.init h.opened))
    ⟨fun u hu => by rw [created_users h] at hu; simp at hu, by simp, by simp⟩
  simpa using this

end GoIdentity
