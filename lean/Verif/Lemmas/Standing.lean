import Verif.Spec.Standing
import Verif.Lemmas.Journal
/-!
# The contents of the accounts follow from the journal
-/
set_option linter.unusedSectionVars false
namespace GoIdentity
variable [Ext]

open Classical in
theorem standing_snoc {α : Type} (made : Line → Option α) (drops : Line → α → Prop) (j : List Line) (x : Line) :
    standing made drops (j ++ [x]) = (standing made drops j).filter (fun a => ¬ drops x a) ++ (made x).toList := by
  induction j with
  | nil =>
    simp only [List.nil_append, standing, List.filter_nil]
    cases made x <;> simp
  | cons y j ih =>
    rw [List.cons_append, standing, standing]
    cases made y with
    | none => exact ih
    | some a =>
      dsimp only
      by_cases h : ∃ z ∈ j, drops z a
      · rw [if_pos h, if_pos (by obtain ⟨z, hz, hd⟩ := h; exact ⟨z, by simp [hz], hd⟩)]
        exact ih
      · rw [if_neg h]
        by_cases hx : drops x a
        · rw [if_pos ⟨x, by simp, hx⟩, List.filter_cons_of_neg (by simpa using hx)]
          exact ih
        · rw [if_neg, List.filter_cons_of_pos (by simpa using hx), ih]
          · rfl
          · rintro ⟨z, hz, hd⟩
            rcases List.mem_append.1 hz with hz | hz
            · exact h ⟨z, hz, hd⟩
            · simp at hz; rw [hz] at hd; exact hx hd

/-- A line that neither made nor dropped anything. -/
theorem standing_quiet {α : Type} {made : Line → Option α} {drops : Line → α → Prop} {j : List Line} {x : Line}
    (h1 : made x = none) (h2 : ∀ a, ¬ drops x a) : standing made drops (j ++ [x]) = standing made drops j := by
  rw [standing_snoc, h1, List.filter_eq_self.2 (fun a _ => by simpa using h2 a)]
  simp

/-- A line that only made something. -/
theorem standing_made {α : Type} {made : Line → Option α} {drops : Line → α → Prop} {j : List Line} {x : Line} {a : α}
    (h1 : made x = some a) (h2 : ∀ a, ¬ drops x a) : standing made drops (j ++ [x]) = standing made drops j ++ [a] := by
  rw [standing_snoc, h1, List.filter_eq_self.2 (fun a _ => by simpa using h2 a)]
  rfl

theorem standing_dropped {α : Type} {made : Line → Option α} {drops : Line → α → Prop} {j : List Line} {x : Line} {f : α → Bool}
    (h1 : made x = none) (h2 : ∀ a, drops x a ↔ f a = false) : standing made drops (j ++ [x]) = (standing made drops j).filter f := by
  rw [standing_snoc, h1, Option.toList_none, List.append_nil]
  refine List.filter_congr fun a _ => ?_
  have := h2 a
  cases hf : f a <;> simp [this, hf]

theorem standing_nothing {α : Type} {made : Line → Option α} {drops : Line → α → Prop} {j : List Line} (h : ∀ x ∈ j, made x = none) :
    standing made drops j = [] := by
  induction j with
  | nil => rfl
  | cons y j ih => rw [standing, h y (by simp)]; exact ih fun x hx => h x (by simp [hx])

theorem standing_congr {α : Type} {made made' : Line → Option α} {drops drops' : Line → α → Prop} {j : List Line}
    (h1 : made = made') (h2 : drops = drops') : standing made drops j = standing made' drops' j := by rw [h1, h2]

theorem Line.accepted_congr {x : Line} {c : Call} {n m : GoString} (h : toLower n = toLower m) : x.Accepted c n = x.Accepted c m := by
  unfold Line.Accepted; rw [h]

theorem publicKeysOf_congr {j : List Line} {n m : GoString} (h : toLower n = toLower m) : publicKeysOf j n = publicKeysOf j m := by
  refine standing_congr (funext fun x => ?_) (funext fun x => funext fun k => ?_)
  · unfold Line.publicKey; rw [Line.accepted_congr h]
  · unfold Line.DropsPublicKey; rw [Line.accepted_congr h]

theorem apiKeysOf_congr {j : List Line} {n m : GoString} (h : toLower n = toLower m) : apiKeysOf j n = apiKeysOf j m := by
  refine standing_congr (funext fun x => ?_) (funext fun x => funext fun k => ?_)
  · unfold Line.apiKey; rw [Line.accepted_congr h]
  · unfold Line.DropsAPIKey; rw [Line.accepted_congr h]

theorem mfaTokensOf_congr {j : List Line} {n m : GoString} (h : toLower n = toLower m) : mfaTokensOf j n = mfaTokensOf j m := by
  refine standing_congr (funext fun x => ?_) (funext fun x => funext fun k => ?_)
  · unfold Line.mfaToken; rw [Line.accepted_congr h]
  · unfold Line.DropsMfaToken; rw [Line.accepted_congr h]

/-- The contents of an account are those the journal gives. -/
structure Contents (j : List Line) (u : User) : Prop where
  pk : u.publicKeys = publicKeysOf j u.username
  ak : u.apiKeys = apiKeysOf j u.username
  mt : u.mfaTokens = mfaTokensOf j u.username

/-- The calls that add something to an account. -/
def addingCalls : List Call := [.addPublicKey, .addAPIKey, .addMfaToken]

structure Ledger (j : List Line) (db : Database) : Prop where
  cont : ∀ u ∈ db.users, Contents j u
  known : ∀ e ∈ j, e.Kept → e.op.call ∈ addingCalls → ∃ u ∈ db.users, toLower u.username = toLower e.name
  names : db.users.map (fun u => (u.username, u.mailClaim)) = accountsOf j

theorem Contents.quiet {j : List Line} {u : User} {x : Line} (h : Contents j u)
    (hx : ∀ c ∈ [Call.addPublicKey, .addAPIKey, .addMfaToken, .deletePublicKey, .deleteAPIKey, .deleteMfaToken], ¬ x.Accepted c u.username) :
    Contents (j ++ [x]) u := by
  refine ⟨h.pk.trans (standing_quiet ?_ ?_).symm, h.ak.trans (standing_quiet ?_ ?_).symm, h.mt.trans (standing_quiet ?_ ?_).symm⟩
  · exact if_neg (hx _ (by simp))
  · exact fun a w => hx _ (by simp) w.1
  · exact if_neg (hx _ (by simp))
  · exact fun a w => hx _ (by simp) w.1
  · exact if_neg (hx _ (by simp))
  · exact fun a w => hx _ (by simp) w.1

theorem names_quiet {j : List Line} {x : Line} (h : ¬ x.Registers) : accountsOf (j ++ [x]) = accountsOf j :=
  standing_quiet (if_neg h) (fun _ => id)

/-- The list of users with one of them changed, as seen by the journal. -/
theorem Ledger.set {j : List Line} {x : Line} {db db' : Database} {i : Nat} {u u' : User} (hinv : Inv db) (h : Ledger j db)
    (hu : db.users[i]? = some u) (hdb : db'.users = db.users.set i u') (hn : toLower x.name = toLower u.username)
    (h1 : u'.username = u.username) (h2 : u'.emailAddresses = u.emailAddresses) (hc : x.op.call ≠ .addUser)
    (ha : Contents (j ++ [x]) u') : Ledger (j ++ [x]) db' := by
  have hlt : i < db.users.length := (List.getElem?_eq_some_iff.1 hu).1
  have hmem : u' ∈ db'.users := by rw [hdb]; exact List.mem_set hlt _
  have hkeep : ∀ v ∈ db.users, v = u ∨ v ∈ db'.users := by
    intro v hv
    obtain ⟨k, hk⟩ := List.getElem?_of_mem hv
    by_cases hik : i = k
    · subst hik; rw [hu] at hk; exact .inl (Option.some.inj hk).symm
    · right; rw [hdb]; exact List.mem_of_getElem? (by rw [List.getElem?_set_ne hik]; exact hk)
  refine ⟨fun v hv => ?_, fun e he hk hc' => ?_, ?_⟩
  · rw [hdb] at hv
    obtain ⟨k, hk⟩ := List.getElem?_of_mem hv
    by_cases hik : i = k
    · subst hik
      rw [List.getElem?_set_self hlt] at hk
      cases hk
      exact ha
    · rw [List.getElem?_set_ne hik] at hk
      have hne : toLower x.name ≠ toLower v.username := by
        intro he
        have a := hinv.name_ref i u hu
        have b := hinv.name_ref k v hk
        rw [← hn, he, b] at a
        exact hik (Option.some.inj a).symm
      exact (h.cont v (List.mem_of_getElem? hk)).quiet fun c _ w => hne w.2.2
  · rcases List.mem_append.1 he with he | he
    · obtain ⟨v, hv, hv'⟩ := h.known e he hk hc'
      rcases hkeep v hv with rfl | hv2
      · exact ⟨u', hmem, by rw [h1]; exact hv'⟩
      · exact ⟨v, hv2, hv'⟩
    · simp at he
      rw [he]
      exact ⟨u', hmem, by rw [h1]; exact hn.symm⟩
  · rw [names_quiet (fun w => hc w.2), ← h.names, hdb, List.map_set]
    refine List.ext_getElem? fun k => ?_
    by_cases hik : i = k
    · subst hik
      rw [List.getElem?_set_self (by simpa using hlt), List.getElem?_map, hu]
      simp only [Option.map_some, User.mailClaim, h1, h2]
    · rw [List.getElem?_set_ne hik]

theorem ledger_step {j : List Line} {db : Database} (fs : FS) (o : Op) (hinv : Inv db) (h : Ledger j db) :
    Ledger (j ++ [⟨o, (exec o.call o.nd db fs o.req).out, (exec o.call o.nd db fs o.req).req⟩])
      (exec o.call o.nd db fs o.req).db := by
  obtain ⟨c, req, nd⟩ := o
  dsimp only
  generalize hx : (⟨⟨c, req, nd⟩, (exec c nd db fs req).out, (exec c nd db fs req).req⟩ : Line) = x
  have xop : x.op = ⟨c, req, nd⟩ := by rw [← hx]
  have xname : x.name = req.user.username := by rw [← hx]; rfl
  have xkept : x.Kept ↔ (exec c nd db fs req).Kept := by rw [← hx]; exact Iff.rfl
  have same : (exec c nd db fs req).db.users = db.users →
      (∀ c' ∈ [Call.addPublicKey, .addAPIKey, .addMfaToken, .deletePublicKey, .deleteAPIKey, .deleteMfaToken, .addUser], x.Kept → c ≠ c') →
      Ledger (j ++ [x]) (exec c nd db fs req).db := by
    intro hd hno
    refine ⟨fun u hu => ?_, fun e he hk hc => ?_, ?_⟩
    · rw [hd] at hu
      refine (h.cont u hu).quiet fun c' hc' w => hno c' ?_ w.1 (by have := w.2.1; rw [xop] at this; exact this)
      simp only [List.mem_cons, List.not_mem_nil, or_false] at hc' ⊢
      rcases hc' with h | h | h | h | h | h <;> simp [h]
    · rw [hd]
      rcases List.mem_append.1 he with he | he
      · exact h.known e he hk hc
      · simp at he
        rw [he] at hk hc
        rw [xop] at hc
        refine (hno c ?_ hk rfl).elim
        simp only [addingCalls, List.mem_cons, List.not_mem_nil, or_false] at hc ⊢
        rcases hc with h | h | h <;> simp [h]
    · rw [hd, h.names, names_quiet]
      exact fun w => hno .addUser (by simp) w.1 (by have := w.2; rw [xop] at this; exact this)
  rcases exec_kept c nd db fs req with ⟨hne, hnk⟩ | ⟨hk, hm, db', m, hc⟩
  · refine same (by rw [hne.db_eq]) fun c' hc' hk' he => hnk ⟨?_, xkept.1 hk'⟩
    rw [he]
    simp only [List.mem_cons, List.not_mem_nil, or_false] at hc'
    rcases hc' with h | h | h | h | h | h | h <;> rw [h] <;> rfl
  · have hk' := xkept.2 hk
    have hacc : ∀ {c'} {n : GoString}, c = c' → toLower req.user.username = toLower n → x.Accepted c' n :=
      fun h1 h2 => ⟨hk', by rw [xop]; exact h1, by rw [xname]; exact h2⟩
    have hnacc : ∀ {c'} {n : GoString}, c ≠ c' → ¬ x.Accepted c' n := fun h1 w => by
      have := w.2.1; rw [xop] at this; exact h1 this
    by_cases hapi : c = .addAPIKey
    · subst hapi
      obtain ⟨i, u, s, n, p, key, hv, hs, hn, hp, hkey, hus, hpay, hrk⟩ := addAPIKey_kept hk
      have hu := validate_users hv
      have hname := ((validate_iff hinv).1 hv).2.1.2
      have hpx : x.reply.response.payload = .secret s := by rw [← hx]; exact hpay
      have hrx : x.reply.key = { req.key with payload := p.hash, pfx := s.take 24 } := by rw [← hx]; exact hrk
      have hmade : Line.apiKey u.username x = some key := by
        unfold Line.apiKey
        rw [if_pos (hacc rfl hname.symm), hpx]
        dsimp only
        rw [hrx]
        unfold Line.keyID
        rw [xop]
        dsimp only
        rw [hkey]
        rfl
      have hc0 := h.cont u (List.mem_of_getElem? hu)
      refine h.set hinv hu hus (by rw [xname, hname]) rfl rfl (by rw [xop]; simp) ⟨?_, ?_, ?_⟩
      · exact hc0.pk.trans (standing_quiet (if_neg (hnacc (by simp))) fun a w => hnacc (by simp) w.1).symm
      · refine Eq.trans ?_ (standing_made hmade fun a w => hnacc (by simp) w.1).symm
        show u.apiKeys ++ [key] = _
        rw [hc0.ak]; rfl
      · exact hc0.mt.trans (standing_quiet (if_neg (hnacc (by simp))) fun a w => hnacc (by simp) w.1).symm
    · have hus := m.users'
      have hd : (exec c nd db fs req).db.users = db'.users := by rw [hc.db_eq]; rfl
      rw [← hd] at hus
      revert hus hd
      generalize hgd : (exec c nd db fs req).db = dd at *
      generalize husr : dd.users = us
      intro hus hd
      cases hus with
      | save => exact same husr (by simp)
      | copy fp => exact same husr (by simp)
      | appended p e roles name hpol hp he hun hid hfree hefree =>
        have hea := newEmailAddress_keeps he
        have hreg : x.Registers := ⟨hk', by rw [xop]⟩
        have hfresh : ∀ u ∈ db.users, toLower u.username ≠ toLower req.user.username := by
          intro u hu he
          obtain ⟨k, hk⟩ := List.getElem?_of_mem hu
          have := hinv.name_ref k u hk
          rw [he, hfree] at this
          cases this
        refine ⟨fun u hu => ?_, fun e' he' hk2 hc2 => ?_, ?_⟩
        · rw [husr] at hu
          rcases List.mem_append.1 hu with hu | hu
          · exact (h.cont u hu).quiet fun c' _ w => hfresh u hu (by rw [← xname]; exact w.2.2.symm)
          · simp at hu
            subst hu
            have hno : ∀ c' ∈ addingCalls, ∀ y ∈ j ++ [x], ¬ y.Accepted c' req.user.username := by
              intro c' hc' y hy w
              rcases List.mem_append.1 hy with hy | hy
              · obtain ⟨v, hv, hv'⟩ := h.known y hy w.1 (by rw [w.2.1]; exact hc')
                exact hfresh v hv (by rw [hv', w.2.2])
              · simp at hy; rw [hy] at w
                refine hnacc ?_ w
                rintro rfl
                simp [addingCalls] at hc'
            refine ⟨?_, ?_, ?_⟩
            · exact (standing_nothing fun y hy => if_neg (hno _ (by simp [addingCalls]) y hy)).symm
            · exact (standing_nothing fun y hy => if_neg (hno _ (by simp [addingCalls]) y hy)).symm
            · exact (standing_nothing fun y hy => if_neg (hno _ (by simp [addingCalls]) y hy)).symm
        · rw [husr]
          rcases List.mem_append.1 he' with he' | he'
          · obtain ⟨v, hv, hv'⟩ := h.known e' he' hk2 hc2
            exact ⟨v, by simp [hv], hv'⟩
          · simp at he'
            rw [he', xop] at hc2
            simp [addingCalls] at hc2
        · rw [husr, List.map_append, h.names]
          have hmade : Line.account x = some (req.user.username, req.user.email) := by
            unfold Line.account
            rw [if_pos hreg, xop]
          unfold accountsOf
          rw [standing_made (drops := fun _ _ => False) hmade (fun _ h => h)]
          congr 1
          simp only [List.map_cons, List.map_nil, newUserOf, User.mailClaim, List.find?]
          cases e.primary <;> simp [hea]
      | modified _ i u u' hv hop =>
        have hu := validate_users hv
        have hname := ((validate_iff hinv).1 hv).2.1.2
        have hc0 := h.cont u (List.mem_of_getElem? hu)
        have hxn : toLower x.name = toLower u.username := by rw [xname, hname]
        have qpk : c ≠ .addPublicKey → c ≠ .deletePublicKey → u.publicKeys = publicKeysOf (j ++ [x]) u.username := fun h1 h2 =>
          hc0.pk.trans (standing_quiet (if_neg (hnacc h1)) fun a w => hnacc h2 w.1).symm
        have qak : c ≠ .deleteAPIKey → u.apiKeys = apiKeysOf (j ++ [x]) u.username := fun h2 =>
          hc0.ak.trans (standing_quiet (if_neg (hnacc hapi)) fun a w => hnacc h2 w.1).symm
        have qmt : c ≠ .addMfaToken → c ≠ .deleteMfaToken → u.mfaTokens = mfaTokensOf (j ++ [x]) u.username := fun h1 h2 =>
          hc0.mt.trans (standing_quiet (if_neg (hnacc h1)) fun a w => hnacc h2 w.1).symm
        have drop : ∀ {c'} {id id' : GoString}, c = c' → (x.Accepted c' u.username ∧ id = id' ↔ (!(id == id')) = false) := by
          intro c' id id' hcc
          have := hacc (n := u.username) hcc hname.symm
          simp [this]
        cases hop with
        | addAPIKey => exact absurd rfl hapi
        | addPublicKey key hkey =>
          refine h.set hinv hu husr hxn rfl rfl (by rw [xop]; simp) ⟨?_, qak (by simp), qmt (by simp) (by simp)⟩
          have hmade : Line.publicKey u.username x = some key := by
            unfold Line.publicKey
            rw [if_pos (hacc rfl hname.symm), xop]
            dsimp only
            rw [hkey]; rfl
          refine Eq.trans ?_ (standing_made hmade fun a w => hnacc (by simp) w.1).symm
          show u.publicKeys ++ [key] = _
          rw [hc0.pk]; rfl
        | deletePublicKey =>
          refine h.set hinv hu husr hxn rfl rfl (by rw [xop]; simp) ⟨?_, qak (by simp), qmt (by simp) (by simp)⟩
          refine Eq.trans ?_ (standing_dropped (if_neg (hnacc (by simp))) (f := fun k => !(k.id == req.key.id)) fun a => ?_).symm
          · show List.filter _ _ = _
            rw [hc0.pk]; rfl
          · unfold Line.DropsPublicKey; rw [xop]; exact drop rfl
        | addMfaToken t req' ht =>
          refine h.set hinv hu husr hxn rfl rfl (by rw [xop]; simp) ⟨qpk (by simp) (by simp), qak (by simp), ?_⟩
          have hmade : Line.mfaToken u.username x = some t := by
            unfold Line.mfaToken
            rw [if_pos (hacc rfl hname.symm), xop]
            dsimp only
            rw [ht]; rfl
          refine Eq.trans ?_ (standing_made hmade fun a w => hnacc (by simp) w.1).symm
          show u.mfaTokens ++ [t] = _
          rw [hc0.mt]; rfl
        | deleteMfaToken =>
          refine h.set hinv hu husr hxn rfl rfl (by rw [xop]; simp) ⟨qpk (by simp) (by simp), qak (by simp), ?_⟩
          refine Eq.trans ?_ (standing_dropped (if_neg (hnacc (by simp))) (f := fun k => !(k.id == req.mfaToken.id)) fun a => ?_).symm
          · show List.filter _ _ = _
            rw [hc0.mt]; rfl
          · unfold Line.DropsMfaToken; rw [xop]; exact drop rfl
        | deleteAPIKey hex =>
          refine h.set hinv hu husr hxn rfl rfl (by rw [xop]; simp) ⟨qpk (by simp) (by simp), ?_, qmt (by simp) (by simp)⟩
          refine Eq.trans ?_ (standing_dropped (if_neg (hnacc (by simp))) (f := fun k => !(k.id == req.key.id)) fun a => ?_).symm
          · show List.filter _ _ = _
            rw [hc0.ak]; rfl
          · unfold Line.DropsAPIKey; rw [xop]; exact drop rfl
        | changeUserPassword p hpol hold hp =>
          exact h.set hinv hu husr hxn rfl rfl (by rw [xop]; simp) ⟨qpk (by simp) (by simp), qak (by simp), qmt (by simp) (by simp)⟩

theorem ledger_run {j : List Line} {db : Database} (fs : FS) (ops : List Op) (hinv : Inv db) (h : Ledger j db) :
    Ledger (j ++ journal db fs ops) (run db fs ops).1 := by
  induction ops generalizing j db fs with
  | nil => simpa [journal, run] using h
  | cons o os ih =>
    have hstep := ledger_step fs o hinv h
    by_cases ho : (exec o.call o.nd db fs o.req).out = .hang
    · rw [journal_hang ho, run_hang ho]
      exact hstep
    · rw [journal_cons ho, run_goes ho, show ∀ (a : List Line) (b : Line) c, a ++ b :: c = (a ++ [b]) ++ c by simp]
      exact ih _ (exec_inv hinv) hstep

theorem ledger {db : Database} (h : Created db) (fs : FS) (ops : List Op) : Ledger (journal db fs ops) (run db fs ops).1 := by
  have := ledger_run (j := []) fs ops (reach_inv (.init h.opened))
    ⟨fun u hu => by rw [created_users h] at hu; simp at hu, by simp, by rw [created_users h]; rfl⟩
  simpa using this

end GoIdentity
