import Verif.Props.Rand
import Verif.Props.Storage
import Verif.Props.Success
import Verif.Props.Text
/-!
# A restarted process that meets its own keys: C101
-/
set_option linter.unusedSectionVars false
namespace GoIdentity
open Toy

/-! ## C101 -/

/-- The key issued by the call is stored in `db'`: some key there has the first 24 characters of the secret as its prefix. -/
def StillStored (r : Result) (db' : Database) : Prop :=
  ∀ s, r.req.response.payload = .secret s → ∃ u ∈ db'.users, ∃ key ∈ u.apiKeys, key.pfx = s.take 24

/-- C101: a process issues an API key.  A process started a multiple of 2.147483647 seconds earlier or later, which has made as
many draws, works on a database in which that key is stored.  Then `AddAPIKey` does not return there, for whichever user. -/
theorem C101_freezes [Ext] {t k : Int} {pos : Nat} {db db' : Database} {nd nd' : Nondet} {fs : FS} (fs' : FS) {req req' : Request}
    (h' : Reach Opened db') (hd : SeededAt t pos nd) (hd' : SeededAt (t + k * 2147483647) pos nd')
    (hs : (exec .addAPIKey nd db fs req).Succeeded) (hstill : StillStored (exec .addAPIKey nd db fs req) db')
    (hsalts : ∀ n, (nd'.salts n).isSome = true) (hreq : ∃ u, Addressed db' req' u) (fuel : Nat) :
    (exec .addAPIKey { nd' with fuel := fuel } db' fs' req').out = .hang := by
  obtain ⟨i, u, s, n, hk, key, hv, hsec, hnone, hpw, hkey, husers, hpay⟩ := addAPIKey_success hs
  obtain ⟨s', hsec'⟩ := secret_exists nd'.globalRand nd'.seedRand
  have hseed : nd'.seedRand = nd.seedRand := by
    funext i
    have h1 := hd i
    have h2 := hd' i
    rw [C99_few_generators (C91_seed_period t k), h1, Option.some.injEq] at h2
    exact h2.symm
  have hpre : s'.take 24 = s.take 24 := by
    obtain ⟨_, h2, _⟩ := secret_shape hsec
    obtain ⟨_, h2', _⟩ := secret_shape hsec'
    unfold getRandomStringFromRange at hsec hsec'
    rw [if_neg (by omega), if_neg (by omega), Res.ok.injEq] at hsec hsec'
    rw [hseed] at hsec'
    rw [← hsec, ← hsec']
    unfold gen
    rw [← List.map_take, ← List.map_take, List.take_range, List.take_range, Nat.min_eq_left (by omega), Nat.min_eq_left (by omega)]
  obtain ⟨w, hw, key', hk', hp⟩ := hstill s hpay
  obtain ⟨j, hj⟩ := List.getElem?_of_mem hw
  have hr := (reach_inv h').api_ref j w key' hj hk'
  rw [hp, ← hpre] at hr
  have hne : trimSpace s' ≠ [] := by
    obtain ⟨h1, _, _, h2⟩ := secret_shape hsec'
    rw [h2]; intro hc; rw [hc] at h1; simp at h1
  obtain ⟨⟨i', v⟩, hv'⟩ : ∃ x, db'.validateUserIdentity req'.user.username req'.user.email = .ok x := by
    obtain ⟨v, hv'⟩ := hreq
    obtain ⟨i', hi'⟩ := (addressed_iff (reach_inv h')).2 hv'
    exact ⟨_, hi'⟩
  simp only [exec, Database.addAPIKey, hv', hsec', keyLoop_hangs (nd := { nd' with fuel := fuel }) hr hne hsalts]

/-- C101: in particular if the process is started again on the file it has just written, a multiple of 2.147483647 seconds
after it was first started, and makes as many draws as before: `AddAPIKey` does not return for any user of the database. -/
theorem C101_restart_freezes [Ext] {t k : Int} {pos : Nat} {db : Database} {nd nd' nd'' : Nondet} {fs : FS} {req : Request}
    (h : ReachProper db) (hnd : nd.Proper) (hp : db.path.head? ≠ some 126) (hd : SeededAt t pos nd)
    (hd' : SeededAt (t + k * 2147483647) pos nd') (hs : (exec .addAPIKey nd db fs req).Succeeded)
    (hstr : (exec .addAPIKey nd db fs req).db.toDBData.Strings)
    (hst : nd''.statErr = false) (hrd : nd''.readErr = false) (hsalts : ∀ n, (nd'.salts n).isSome = true) :
    ∃ db', newDatabase nd'' (exec .addAPIKey nd db fs req).fs db.path = (.ok db', (exec .addAPIKey nd db fs req).fs) ∧
      ∀ (fs' : FS) (req' : Request) (fuel : Nat), (∃ u, Addressed db' req' u) →
        (exec .addAPIKey { nd' with fuel := fuel } db' fs' req').out = .hang := by
  obtain ⟨db', h1, h2, _, _⟩ := C45_reopen (c := .addAPIKey) h hnd (by intro hc; cases hc) rfl hs hp hstr hst hrd
  have hopen : Reach Opened db' := .init ⟨_, _, _, _, h1⟩
  refine ⟨db', h1, fun fs' req' fuel hreq => ?_⟩
  refine C101_freezes fs' hopen hd hd' hs ?_ hsalts hreq fuel
  intro s hpay
  obtain ⟨i, u, s', n, hk, key, hv, hsec, hnone, hpw, hkey, husers, hpay'⟩ := addAPIKey_success hs
  rw [hpay', Payload.secret.injEq] at hpay
  subst hpay
  have hu : db'.users = (exec .addAPIKey nd db fs req).db.users := congrArg DBData.users h2
  rw [hu, husers]
  obtain ⟨hi, _⟩ := (validate_iff (reach_inv (fresh_reach h.fresh))).1 hv
  have hlt := (List.getElem?_eq_some_iff.1 hi).1
  exact ⟨_, List.mem_set hlt _, key, by simp [User.revise], newAPIKey_pfx hkey⟩

/-- The draws of a process started at `t` that has made `pos` draws before. -/
theorem seededAt_exists (t : Int) (pos : Nat) : ∃ d : Nat → Nat, ∀ nd : Nondet, nd.seedRand = d → SeededAt t pos nd := by
  obtain ⟨d, _, h⟩ := C99_draws t
  refine ⟨fun i => d (pos + i), fun nd hn i => ?_⟩
  rw [hn]
  exact h _ (Nat.le_refl _) _

theorem db2_reachKeys : ReachKeys db2 := by
  refine .step (.step (.init db0_opened ?_) .addUser nd fs1 reqJoe ?_) .addUser nd2 fs2 reqAnn ?_ <;>
    (unfold KeyIDsDistinct; decide +kernel)

theorem joe_gets_key {nd1 : Nondet} (h1 : nd1.fuel = nd.fuel) (h2 : nd1.salts = nd.salts) (h3 : nd1.io = nd.io) :
    (exec .addAPIKey nd1 db2 fs3 reqApi).Succeeded := by
  have hf : 12 ≤ nd1.fuel := by rw [h1]; decide
  have ha : ∃ u, Addressed db2 reqApi u := by
    refine ⟨db2.users.head (by decide +kernel), ?_⟩
    unfold Addressed NamesUser MailsUser
    decide +kernel
  have hw : CanWrite nd1 fs3 db2.path := by
    refine ⟨by decide +kernel, by decide +kernel, ?_⟩
    rw [h3]; rfl
  have hk : ∀ u ∈ db2.users, u.apiKeys = [] := by decide +kernel
  have hs : ∃ n, n < 12 ∧ (nd1.salts n).isSome = true := ⟨0, by decide, by rw [h2]; rfl⟩
  refine (C68_add_api_key db2_reachKeys nd1 fs3 reqApi hf).2 ⟨ha, by decide +kernel, by decide +kernel, ?_, hs, hw⟩
  intro s _ u hu k hk'
  rw [hk u hu] at hk'
  cases hk'

theorem db2_strings : db2.toDBData.Strings := by
  have t1 : nd.Text := ⟨by decide +kernel, by decide +kernel⟩
  have t2 : nd2.Text := ⟨by decide +kernel, by decide +kernel⟩
  have r1 : reqJoe.Text := ⟨by decide +kernel, by decide +kernel, by decide +kernel, by decide +kernel, by decide +kernel,
    by decide +kernel, by decide +kernel, by decide +kernel⟩
  have r2 : reqAnn.Text := ⟨by decide +kernel, by decide +kernel, by decide +kernel, by decide +kernel, by decide +kernel,
    by decide +kernel, by decide +kernel, by decide +kernel⟩
  have h0 : db0.toDBData.Strings := opened_text toy_text (nd := nd) (fs := fs0) (fs' := fs1) (fp := path) (by rfl)
  exact exec_text (c := .addUser) (fs := fs2) toy_text t2 r2 (exec_text (c := .addUser) (fs := fs1) toy_text t1 r1 h0)

/-- Joe's first key, whenever the process was started: all hypotheses of both theorems hold. -/
example (t k : Int) (pos : Nat) : ReachProper db2 ∧ ∃ nd1 : Nondet, nd1.Proper ∧ SeededAt t pos nd1 ∧ SeededAt (t + k * 2147483647) pos nd1 ∧
    (∀ n, (nd1.salts n).isSome = true) ∧ nd1.statErr = false ∧ nd1.readErr = false ∧ db2.path.head? ≠ some 126 ∧
    (exec .addAPIKey nd1 db2 fs3 reqApi).Succeeded ∧ (exec .addAPIKey nd1 db2 fs3 reqApi).db.toDBData.Strings := by
  obtain ⟨d, hd⟩ := seededAt_exists t pos
  have hsame : ∀ {x : Nondet}, SeededAt t pos x → SeededAt (t + k * 2147483647) pos x := fun h i => by
    rw [C99_few_generators (C91_seed_period t k)]; exact h i
  have ht : Nondet.Text { nd with seedRand := d } :=
    ⟨show Utf8 nd.userID by decide +kernel, show ∀ id ∈ nd.ids, Utf8 id by decide +kernel⟩
  have hr : reqApi.Text := ⟨by decide +kernel, by decide +kernel, by decide +kernel, by decide +kernel, by decide +kernel,
    by decide +kernel, by decide +kernel, by decide +kernel⟩
  refine ⟨.step db1_proper .addUser nd2 fs2 reqAnn ⟨nd_proper.1, nd_proper.2, by decide⟩ fun _ => ?_, { nd with seedRand := d }, ⟨nd_proper.1, nd_proper.2, nd_proper.3⟩, hd _ rfl, hsame (hd _ rfl), fun _ => rfl, rfl, rfl,
    by decide +kernel, joe_gets_key rfl rfl rfl, exec_text toy_text ht hr db2_strings⟩
  exact ⟨List.replicate 36 99, by decide, by decide +kernel⟩

end GoIdentity
