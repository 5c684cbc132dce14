import Verif.Lemmas.UserSteps
import Verif.Lemmas.Trim
import Verif.Lemmas.Pem
import Verif.Props.Identity
/-!
# Listings, public keys and token lists: C25–C28
-/
namespace GoIdentity
open Toy

/-- In a reachable database the user an account call acts for is the one its username denotes. -/
theorem addressed_user [Ext] {db : Database} (h : Reach Opened db) {req : Request} {i j : Nat} {u v : User}
    (hi : db.users[i]? = some u) (hn : NamesUser req.user.username u)
    (hv : db.validateUserIdentity req.user.username req.user.email = .ok (j, v)) : j = i ∧ v = u := by
  obtain ⟨h1, h2, _⟩ := (validate_iff (reach_inv h)).1 hv
  have hij : j = i := C01_usernames_unique h h1 hi (by rw [h2.2, hn.2])
  subst hij
  rw [hi] at h1
  exact ⟨rfl, (Option.some.inj h1).symm⟩

/-! ## C25 -/

theorem foldl_bundle_filter {α : Type} (p : α → Bool) (f : Bundle α → α → Bundle α)
    (hf : ∀ b k, f b k = if p k then b.add k else b) (l : List α) (b : Bundle α) :
    l.foldl f b = ⟨b.items ++ l.filter p, b.size + (l.filter p).length⟩ := by
  induction l generalizing b with
  | nil => simp
  | cons x l ih =>
    rw [List.foldl_cons, ih, hf]
    cases h : p x
    · simp [h]
    · simp [h, Bundle.add]; omega

/-- C25: `GetPublicKeys` returns, in stored order, exactly the addressed user's keys that have the requested usage and are not
disabled, and reports how many they are. -/
theorem C25_public_keys [Ext] {db : Database} (h : Reach Opened db) {nd : Nondet} {fs : FS} {req : Request} {i : Nat}
    {u : User} (hi : db.users[i]? = some u) (hn : NamesUser req.user.username u)
    (hs : (exec .getPublicKeys nd db fs req).Succeeded) :
    ∃ b, (exec .getPublicKeys nd db fs req).req.response.payload = .publicKeys b ∧
      b.items = u.publicKeys.filter (fun k => k.usage = req.key.usage ∧ k.disabled = false) ∧
      b.size = b.items.length := by
  revert hs
  simp only [exec, Database.getPublicKeys]
  split
  · intro hs; simp [Result.Succeeded, Database.failWith] at hs
  · rename_i j v hv
    obtain ⟨rfl, rfl⟩ := addressed_user h hi hn hv
    intro _
    refine ⟨_, rfl, ?_⟩
    rw [foldl_bundle_filter (fun k : PublicKey => decide (k.usage = req.key.usage ∧ k.disabled = false))]
    · simp [Bundle.new]
    · intro b k
      by_cases h1 : k.usage = req.key.usage <;> cases h2 : k.disabled <;> simp [h1]

/-- C25: `GetAPIKeys` likewise. -/
theorem C25_api_keys [Ext] {db : Database} (h : Reach Opened db) {nd : Nondet} {fs : FS} {req : Request} {i : Nat}
    {u : User} (hi : db.users[i]? = some u) (hn : NamesUser req.user.username u)
    (hs : (exec .getAPIKeys nd db fs req).Succeeded) :
    ∃ b, (exec .getAPIKeys nd db fs req).req.response.payload = .apiKeys b ∧
      b.items = u.apiKeys.filter (fun k => k.usage = req.key.usage ∧ k.disabled = false) ∧
      b.size = b.items.length := by
  revert hs
  simp only [exec, Database.getAPIKeys]
  split
  · intro hs; simp [Result.Succeeded, Database.failWith] at hs
  · rename_i j v hv
    obtain ⟨rfl, rfl⟩ := addressed_user h hi hn hv
    intro _
    refine ⟨_, rfl, ?_⟩
    rw [foldl_bundle_filter (fun k : APIKey => decide (k.usage = req.key.usage ∧ k.disabled = false))]
    · simp [Bundle.new]
    · intro b k
      by_cases h1 : k.usage = req.key.usage <;> cases h2 : k.disabled <;> simp [h1]

/-- C25: `GetMfaTokens` returns, in stored order, exactly the addressed user's tokens that are not disabled. -/
theorem C25_mfa_tokens [Ext] {db : Database} (h : Reach Opened db) {nd : Nondet} {fs : FS} {req : Request} {i : Nat}
    {u : User} (hi : db.users[i]? = some u) (hn : NamesUser req.user.username u)
    (hs : (exec .getMfaTokens nd db fs req).Succeeded) :
    ∃ b, (exec .getMfaTokens nd db fs req).req.response.payload = .mfaTokens b ∧
      b.items = u.mfaTokens.filter (fun k => k.disabled = false) ∧ b.size = b.items.length := by
  revert hs
  simp only [exec, Database.getMfaTokens]
  split
  · intro hs; simp [Result.Succeeded, Database.failWith] at hs
  · rename_i j v hv
    obtain ⟨rfl, rfl⟩ := addressed_user h hi hn hv
    intro _
    refine ⟨_, rfl, ?_⟩
    rw [foldl_bundle_filter (fun k : MfaToken => decide (k.disabled = false))]
    · simp [Bundle.new]
    · intro b k
      cases h2 : k.disabled <;> simp

/-- C25: the three listings succeed exactly when username and email address belong to one user. -/
theorem C25_listing_succeeds [Ext] {db : Database} (h : Reach Opened db) {c : Call}
    (hc : c ∈ [Call.getPublicKeys, .getAPIKeys, .getMfaTokens]) (nd : Nondet) (fs : FS) (req : Request) :
    (exec c nd db fs req).Succeeded ↔ ∃ (i : Nat) (u v : User), db.users[i]? = some u ∧ NamesUser req.user.username u ∧ v ∈ db.users ∧
      MailsUser req.user.email v ∧ u.id = v.id := by
  have hval : (∃ x, db.validateUserIdentity req.user.username req.user.email = .ok x) ↔
      ∃ (i : Nat) (u v : User), db.users[i]? = some u ∧ NamesUser req.user.username u ∧ v ∈ db.users ∧
      MailsUser req.user.email v ∧ u.id = v.id := by
    constructor
    · rintro ⟨⟨i, u⟩, hx⟩
      obtain ⟨h1, h2, v, h3, h4, h5⟩ := (validate_iff (reach_inv h)).1 hx
      exact ⟨i, u, v, h1, h2, h3, h4, h5⟩
    · rintro ⟨i, u, v, h1, h2, h3, h4, h5⟩
      exact ⟨(i, u), (validate_iff (reach_inv h)).2 ⟨h1, h2, v, h3, h4, h5⟩⟩
  rw [← hval]
  simp only [List.mem_cons, List.not_mem_nil, or_false] at hc
  rcases hc with rfl | rfl | rfl
  all_goals
    simp only [exec, Database.getPublicKeys, Database.getAPIKeys, Database.getMfaTokens]
    split
    · rename_i he; simp [he, Result.Succeeded, Database.failWith]
    · rename_i he; simp [he, Result.Succeeded]

/-! ## C26 -/

/-- No two public keys of the user have the same type and fingerprint. -/
def PublicKeysDistinct (u : User) : Prop :=
  ∀ (i j : Nat) (x y : PublicKey), u.publicKeys[i]? = some x → u.publicKeys[j]? = some y → x.type = y.type →
    x.fingerprint = y.fingerprint → i = j

theorem pairwise_index {α : Type} {R : α → α → Prop} {l : List α} :
    l.Pairwise (fun x y => ¬ R x y) → (∀ x y, R x y → R y x) →
      ∀ (i j : Nat) (x y : α), l[i]? = some x → l[j]? = some y → R x y → i = j := by
  intro h hsymm i j x y hi hj hr
  obtain ⟨hil, rfl⟩ := List.getElem?_eq_some_iff.1 hi
  obtain ⟨hjl, rfl⟩ := List.getElem?_eq_some_iff.1 hj
  rw [List.pairwise_iff_getElem] at h
  rcases Nat.lt_trichotomy i j with hlt | heq | hgt
  · exact absurd hr (h i j hil hjl hlt)
  · exact heq
  · exact absurd (hsymm _ _ hr) (h j i hjl hil hgt)

theorem pairwise_of_index {α : Type} {R : α → α → Prop} {l : List α}
    (h : ∀ (i j : Nat) (x y : α), l[i]? = some x → l[j]? = some y → R x y → i = j) :
    l.Pairwise (fun x y => ¬ R x y) := by
  rw [List.pairwise_iff_getElem]
  intro i j hi hj hlt hr
  have := h i j _ _ (List.getElem?_eq_getElem hi) (List.getElem?_eq_getElem hj) hr
  omega

/-- Same type and fingerprint. -/
def SameKey (x y : PublicKey) : Prop := x.type = y.type ∧ x.fingerprint = y.fingerprint

theorem publicKeysDistinct_iff {u : User} :
    PublicKeysDistinct u ↔ u.publicKeys.Pairwise (fun x y => ¬ SameKey x y) := by
  constructor
  · intro h
    exact pairwise_of_index fun i j x y hi hj hr => h i j x y hi hj hr.1 hr.2
  · intro h i j x y hi hj h1 h2
    exact pairwise_index h (fun x y hxy => ⟨hxy.1.symm, hxy.2.symm⟩) i j x y hi hj ⟨h1, h2⟩

/-- C26: from databases whose users have distinct public keys, every history keeps them distinct. -/
theorem C26_public_keys_distinct [Ext] {db : Database}
    (h : Reach (fun d => Opened d ∧ ∀ u ∈ d.users, PublicKeysDistinct u) db) :
    ∀ u ∈ db.users, PublicKeysDistinct u := by
  refine reach_forall_users (P := fun u => PublicKeysDistinct u) (fun _ h => h.2) ?_ ?_ h
  · intro nd req db p e roles name _ _
    rw [publicKeysDistinct_iff]
    simp [newUserOf, User.zero]
  · intro nd req db c u u' _ hu hop
    rw [publicKeysDistinct_iff] at hu ⊢
    cases hop with
    | addPublicKey key hk hnew =>
      simp only [User.revise, List.pairwise_append, List.pairwise_cons, List.not_mem_nil, false_implies, implies_true,
        List.Pairwise.nil, and_true, List.mem_cons, or_false, forall_eq]
      exact ⟨hu, trivial, fun x hx hxy => hnew x hx ⟨hxy.1, hxy.2⟩⟩
    | deletePublicKey => exact hu.filter _
    | _ => exact hu

/-- C26: `AddPublicKey` that returns nil appends exactly one key, new in type and fingerprint, to the addressed user and
changes nobody else. -/
theorem C26_add_appends_one [Ext] {db : Database} (h : Reach Opened db) {nd : Nondet} {fs : FS} {req : Request}
    (hs : (exec .addPublicKey nd db fs req).Succeeded) :
    ∃ (i : Nat) (u u' : User) (key : PublicKey), db.users[i]? = some u ∧ NamesUser req.user.username u ∧
      (exec .addPublicKey nd db fs req).db.users = db.users.set i u' ∧ u'.publicKeys = u.publicKeys ++ [key] ∧
      (∀ x ∈ u.publicKeys, x.type ≠ key.type ∨ x.fingerprint ≠ key.fingerprint) ∧
      u'.passwords = u.passwords ∧ u'.apiKeys = u.apiKeys ∧ u'.mfaTokens = u.mfaTokens := by
  obtain ⟨db', m, hc⟩ := exec_success rfl hs
  have hu : (exec .addPublicKey nd db fs req).db.users = db'.users := by rw [hc.db_eq]; rfl
  rw [hu]
  have := m.users'
  revert this
  generalize db'.users = us
  intro this
  cases this with
  | modified _ i u u' hv hop =>
    obtain ⟨h1, h2, _⟩ := (validate_iff (reach_inv h)).1 hv
    cases hop with
    | addPublicKey key hk hnew =>
      refine ⟨i, u, _, key, h1, h2, rfl, rfl, ?_, rfl, rfl, rfl⟩
      intro x hx
      by_cases hxt : x.type = key.type
      · exact .inr fun hf => hnew x hx ⟨hxt, hf⟩
      · exact .inl hxt

/-- C26: a key whose type and fingerprint the user already holds is rejected without effect. -/
theorem C26_add_duplicate_rejected [Ext] {db : Database} (h : Reach Opened db) {nd : Nondet} {fs : FS} {req : Request}
    {i : Nat} {u : User} (hi : db.users[i]? = some u) (hn : NamesUser req.user.username u) {key x : PublicKey}
    (hk : newPublicKey nd.now (getRandomString nd.seedRand 0 40) req.key = .ok key) (hx : x ∈ u.publicKeys)
    (ht : x.type = key.type) (hf : x.fingerprint = key.fingerprint) :
    (exec .addPublicKey nd db fs req).Failed ∧ (exec .addPublicKey nd db fs req).Unchanged db fs := by
  simp only [exec, Database.addPublicKey]
  split
  · exact ⟨⟨_, rfl⟩, rfl, rfl⟩
  · rename_i j v hv
    obtain ⟨rfl, rfl⟩ := addressed_user h hi hn hv
    have : v.publicKeys.any (fun x => x.type == key.type && x.fingerprint == key.fingerprint) = true :=
      List.any_eq_true.2 ⟨x, hx, by simp [ht, hf]⟩
    simp only [User.addPublicKey, hk, this, if_true]
    exact ⟨⟨_, rfl⟩, rfl, rfl⟩

/-- C26: `DeletePublicKey` that returns nil removes exactly the addressed user's keys with the given ID, of which there was at
least one; without such a key the call fails and has no effect. -/
theorem C26_delete_exact [Ext] {db : Database} (h : Reach Opened db) (nd : Nondet) (fs : FS) {req : Request}
    {i : Nat} {u : User} (hi : db.users[i]? = some u) (hn : NamesUser req.user.username u) :
    ((exec .deletePublicKey nd db fs req).Succeeded →
      (∃ x ∈ u.publicKeys, x.id = req.key.id) ∧
      ∃ u', (exec .deletePublicKey nd db fs req).db.users = db.users.set i u' ∧
        u'.publicKeys = u.publicKeys.filter (fun x => x.id ≠ req.key.id) ∧
        u'.passwords = u.passwords ∧ u'.apiKeys = u.apiKeys ∧ u'.mfaTokens = u.mfaTokens) ∧
    ((∀ x ∈ u.publicKeys, x.id ≠ req.key.id) →
      (exec .deletePublicKey nd db fs req).Failed ∧ (exec .deletePublicKey nd db fs req).Unchanged db fs) := by
  constructor
  · intro hs
    obtain ⟨db', m, hc⟩ := exec_success rfl hs
    have hu : (exec .deletePublicKey nd db fs req).db.users = db'.users := by rw [hc.db_eq]; rfl
    rw [hu]
    have := m.users'
    revert this
    generalize db'.users = us
    intro this
    cases this with
    | modified _ j v u' hv hop =>
      obtain ⟨rfl, rfl⟩ := addressed_user h hi hn hv
      cases hop with
      | deletePublicKey hex =>
        refine ⟨hex, _, rfl, ?_, rfl, rfl, rfl⟩
        simp only [User.revise]
        apply List.filter_congr
        intro x _
        by_cases hx : x.id = req.key.id <;> simp [hx]
  · intro hno
    simp only [exec, Database.deletePublicKey]
    split
    · exact ⟨⟨_, rfl⟩, rfl, rfl⟩
    · rename_i j v hv
      obtain ⟨rfl, rfl⟩ := addressed_user h hi hn hv
      have : v.publicKeys.any (fun x => x.id == req.key.id) = false := by
        rw [List.any_eq_false]
        intro x hx
        simpa using hno x hx
      simp only [User.deletePublicKey, this, Bool.false_eq_true, if_false]
      exact ⟨⟨_, rfl⟩, rfl, rfl⟩

/-! ## C27 -/

/-- The payload contains the given text. -/
def Contains (sub s : GoString) : Prop := ∃ a b, s = a ++ sub ++ b

theorem containsSub_iff {sub s : GoString} : containsSub sub s = true ↔ Contains sub s := by
  induction s with
  | nil =>
    simp only [containsSub, List.isPrefixOf_iff_prefix, List.prefix_nil]
    constructor
    · rintro rfl; exact ⟨[], [], rfl⟩
    · rintro ⟨a, b, h⟩
      have := congrArg List.length h
      simp at this
      exact List.length_eq_zero_iff.1 (by omega)
  | cons x t ih =>
    simp only [containsSub, Bool.or_eq_true, List.isPrefixOf_iff_prefix, ih]
    constructor
    · rintro (⟨b, h⟩ | ⟨a, b, h⟩)
      · exact ⟨[], b, by simpa using h.symm⟩
      · exact ⟨x :: a, b, by simp [h]⟩
    · rintro ⟨a, b, h⟩
      cases a with
      | nil => exact .inl ⟨b, by simpa using h.symm⟩
      | cons y a =>
        simp only [List.cons_append, List.cons.injEq] at h
        exact .inr ⟨a, b, h.2⟩

/-- C27: `NewPublicKey` accepts only the usages `ssh` and `gpg` and a non-empty payload in one of three forms; a PEM RSA
payload is accepted only with usage `ssh`.  The key keeps the given usage and is disabled exactly if asked for. -/
theorem C27_acceptance [Ext] {now : Clock} {id : GoString} {k : ReqKey} {p : PublicKey}
    (h : newPublicKey now id k = .ok p) :
    (k.usage = gs! "ssh" ∨ k.usage = gs! "gpg") ∧ k.payload ≠ [] ∧
    (Contains (gs! "RSA PUBLIC KEY") k.payload ∨ gs! "ssh-rsa " <+: k.payload ∨
      Contains (gs! "BEGIN PGP PUBLIC KEY BLOCK") k.payload) ∧
    (Contains (gs! "RSA PUBLIC KEY") k.payload → k.usage = gs! "ssh") ∧
    p.usage = k.usage ∧ p.createdAt = now 0 ∧ p.disabled = k.disabled ∧ p.expired = false := by
  unfold newPublicKey at h
  split at h
  case h_2 => simp at h
  case h_3 => simp at h
  rename_i q hq
  have hrsa : ∀ {a b : PublicKey}, parsePublicKeyRSA a = .ok b →
      a.usage = gs! "ssh" ∧ b.usage = a.usage ∧ b.createdAt = a.createdAt ∧ b.disabled = a.disabled ∧
        b.expired = a.expired := by
    intro a b hab
    unfold parsePublicKeyRSA at hab
    split at hab
    · simp at hab
    · rename_i hus
      repeat' split at hab
      all_goals simp at hab
      subst hab
      exact ⟨by simpa using hus, rfl, rfl, rfl, rfl⟩
  have hssh : ∀ {a b : PublicKey}, parsePublicKeyOpenSSH a = .ok b →
      b.usage = a.usage ∧ b.createdAt = a.createdAt ∧ b.disabled = a.disabled ∧ b.expired = a.expired := by
    intro a b hab
    unfold parsePublicKeyOpenSSH at hab
    dsimp only at hab
    repeat' split at hab
    all_goals simp at hab
    all_goals
      subst hab
      exact ⟨rfl, rfl, rfl, rfl⟩
  have hpgp : ∀ {a b : PublicKey}, parsePublicKeyPGP a = .ok b →
      b.usage = a.usage ∧ b.createdAt = a.createdAt ∧ b.disabled = a.disabled ∧ b.expired = a.expired := by
    intro a b hab
    unfold parsePublicKeyPGP at hab
    dsimp only at hab
    repeat' split at hab
    all_goals simp at hab
    all_goals
      subst hab
      exact ⟨rfl, rfl, rfl, rfl⟩
  have hdis : p.usage = q.usage ∧ p.createdAt = q.createdAt ∧ p.expired = q.expired ∧
      p.disabled = (k.disabled || q.disabled) := by
    simp only [Res.ok.injEq] at h
    subst h
    cases hd : k.disabled <;> simp
  obtain ⟨hd1, hd2, hd3, hd4⟩ := hdis
  unfold parsePublicKey at hq
  split at hq
  · simp at hq
  · rename_i hus
    split at hq
    · simp at hq
    · rename_i hpl
      refine ⟨Classical.not_not.1 hus, hpl, ?_⟩
      split at hq
      · rename_i hc
        obtain ⟨h1, h2, h3, h4, h5⟩ := hrsa hq
        refine ⟨.inl (containsSub_iff.1 hc), fun _ => h1, ?_, ?_, ?_, ?_⟩
        · rw [hd1, h2]
        · rw [hd2, h3]
        · rw [hd4, h4]; simp
        · rw [hd3, h5]
      · rename_i hc
        have hnc : ¬ Contains (gs! "RSA PUBLIC KEY") k.payload := fun hx => hc (containsSub_iff.2 hx)
        split at hq
        · rename_i hpre
          obtain ⟨h2, h3, h4, h5⟩ := hssh hq
          refine ⟨.inr (.inl ?_), fun hx => absurd hx hnc, ?_, ?_, ?_, ?_⟩
          · simpa [hasPrefix] using hpre
          · rw [hd1, h2]
          · rw [hd2, h3]
          · rw [hd4, h4]; simp
          · rw [hd3, h5]
        · split at hq
          · rename_i hg
            obtain ⟨h2, h3, h4, h5⟩ := hpgp hq
            refine ⟨.inr (.inr (containsSub_iff.1 hg)), fun hx => absurd hx hnc, ?_, ?_, ?_, ?_⟩
            · rw [hd1, h2]
            · rw [hd2, h3]
            · rw [hd4, h4]; simp
            · rw [hd3, h5]
          · simp at hq

theorem indexBlank_none {s : GoString} (h : ∀ b ∈ s, 33 ≤ b.toNat ∧ b.toNat < 128) : indexBlank s = none := by
  unfold indexBlank
  rw [List.findIdx?_eq_none_iff]
  intro b hb
  have := h b hb
  have h1 : b ≠ 32 := by rintro rfl; simp at this
  have h2 : b ≠ 9 := by rintro rfl; simp at this
  simp [h1, h2]

/-- An authorized_keys line `ssh-rsa <base64>` splits as expected. -/
theorem splitOpenSSH_line {b64 : GoString} (hne : b64 ≠ []) (h : ∀ b ∈ b64, 33 ≤ b.toNat ∧ b.toNat < 128) :
    splitOpenSSH (gs! "ssh-rsa " ++ b64) = (b64, [], b64) := by
  have htrim : trimSpace (gs! "ssh-rsa " ++ b64) = gs! "ssh-rsa " ++ b64 := by
    rw [trimSpace_eq_self_iff]
    constructor
    · show ClearStart (115 :: _)
      exact clearStart_cons (by decide)
    · have h1 := (trimSpace_eq_self_iff.1 (trimSpace_of_graph h)).2
      obtain ⟨t, b, rfl⟩ : ∃ t b, b64 = t ++ [b] := ⟨_, _, (List.dropLast_concat_getLast hne).symm⟩
      rw [← List.append_assoc]
      apply clearEnd_concat
      intro p hp hl
      have hb := h b (by simp)
      have : ∀ p ∈ spaceRunes, ∀ b, p.getLast? = some b → ¬ (33 ≤ b.toNat ∧ b.toNat < 128) := by
        intro p hp b hb
        have : ∀ p ∈ spaceRunes, ¬ (33 ≤ (p.getLastD 0).toNat ∧ (p.getLastD 0).toNat < 128) := by decide
        have := this p hp
        rw [List.getLastD_eq_getLast?, hb] at this
        simpa using this
      exact this p hp b hl hb
  have hidx : indexBlank (gs! "ssh-rsa " ++ b64) = some 7 := by
    simp only [indexBlank]
    rfl
  have hdrop : trimSpace ((gs! "ssh-rsa " ++ b64).drop 7) = b64 := by
    have : (gs! "ssh-rsa " ++ b64).drop 7 = 32 :: b64 := rfl
    rw [this]
    have h2 : trimLeft (32 :: b64) = b64 := by
      have hc : ClearStart b64 := (trimSpace_eq_self_iff.1 (trimSpace_of_graph h)).1
      unfold trimLeft
      show dropPats spaceRunes (b64.length + 1) (32 :: b64) = b64
      have hl : leadLen spaceRunes (32 :: b64) = 1 := by
        unfold leadLen
        have : spaceRunes.find? (fun p => p.isPrefixOf (32 :: b64)) = some [32] := by
          rfl
        simp [this]
      unfold dropPats
      rw [hl]
      exact dropPats_of_clear spaceRunes_ne hc _
    unfold trimSpace
    rw [h2]
    exact trimRight_of_clear (trimSpace_eq_self_iff.1 (trimSpace_of_graph h)).2
  unfold splitOpenSSH
  simp only [htrim, hidx, Option.getD_some, hdrop, indexBlank_none h]
  rfl

/-- C27: an RSA key given once as PEM and once as an authorized_keys line
is accepted both times, with the same type and MD5 fingerprint but different `Fingerprint` fields, so the second is not
seen as a duplicate of the first. -/
theorem C27_pem_and_openssh_differ [Ext] {now : Clock} {id1 id2 : GoString} {k1 k2 : ReqKey} {key : SshPub}
    {b64 raw der : GoString} (hu1 : k1.usage = gs! "ssh") (hu2 : k2.usage = gs! "ssh") (hty : key.type = gs! "ssh-rsa")
    (hp1 : Contains (gs! "RSA PUBLIC KEY") k1.payload)
    (hpem : pemDecode (trimSpace k1.payload) = some (gs! "RSA PUBLIC KEY", der))
    (hder : pkixToSsh der = some (some key))
    (hp2 : k2.payload = gs! "ssh-rsa " ++ b64) (hne : b64 ≠ []) (hgr : ∀ b ∈ b64, 33 ≤ b.toNat ∧ b.toNat < 128)
    (hraw : b64Decode b64 = some raw) (hkey : sshParse raw = some key) :
    ∃ p1 p2, newPublicKey now id1 k1 = .ok p1 ∧ newPublicKey now id2 k2 = .ok p2 ∧ p1.type = p2.type ∧
      p1.fingerprintMD5 = p2.fingerprintMD5 ∧ p2.fingerprint = gs! "SHA256:" ++ p1.fingerprint ∧
      p1.fingerprint ≠ p2.fingerprint := by
  have hne1 : k1.payload ≠ [] := by
    rintro h
    obtain ⟨a, b, hab⟩ := hp1
    rw [h] at hab
    have := congrArg List.length hab
    simp only [List.length_nil, List.length_append, List.length_cons] at this
    omega
  have hc1 : containsSub (gs! "RSA PUBLIC KEY") k1.payload = true := containsSub_iff.2 hp1
  have hnsp : ∀ b ∈ b64, b ≠ 32 := by
    intro b hb
    have := hgr b hb
    rintro rfl
    simp at this
  have hc2 : containsSub (gs! "RSA PUBLIC KEY") k2.payload = false := by
    rw [← Bool.not_eq_true, containsSub_iff]
    rintro ⟨a, b, hab⟩
    rw [hp2] at hab
    -- the first `R` of the pattern cannot lie in the prefix, so the pattern's space lies in `b64`
    have hcount := congrArg (List.count (32 : UInt8)) hab
    simp only [List.count_append] at hcount
    have h0 : List.count (32 : UInt8) b64 = 0 := List.count_eq_zero.2 fun hm => hnsp 32 hm rfl
    have h1 : List.count (32 : UInt8) (gs! "ssh-rsa ") = 1 := by decide
    have h2 : List.count (32 : UInt8) (gs! "RSA PUBLIC KEY") = 2 := by decide
    omega
  have hpre : hasPrefix k2.payload (gs! "ssh-rsa ") = true := by
    rw [hp2]; simp [hasPrefix]
  have hne2 : k2.payload ≠ [] := by rw [hp2]; simp
  have hsp : splitOpenSSH k2.payload = (b64, [], b64) := by rw [hp2]; exact splitOpenSSH_line hne hgr
  have e1 : ∃ p1, newPublicKey now id1 k1 = .ok p1 ∧ p1.type = key.type ∧ p1.fingerprintMD5 = key.md5 ∧
      p1.fingerprint = key.sha256 := by
    simp only [newPublicKey, parsePublicKey, hu1, hne1, hc1, parsePublicKeyRSA_eq, hpem, hder]
    refine ⟨_, rfl, ?_⟩
    cases k1.disabled <;> exact ⟨rfl, rfl, rfl⟩
  have e2 : ∃ p2, newPublicKey now id2 k2 = .ok p2 ∧ p2.type = key.type ∧ p2.fingerprintMD5 = key.md5 ∧
      p2.fingerprint = gs! "SHA256:" ++ key.sha256 := by
    obtain ⟨e, n, rfl⟩ : ∃ e n, key = .rsa e n := by
      rcases sshParse_type hkey with h | h
      · exact h.2
      · exact absurd hty h.2
    simp only [newPublicKey, parsePublicKey, hu2, hne2, hc2, hpre, parsePublicKeyOpenSSH_eq, hsp, hraw, hkey]
    refine ⟨_, rfl, ?_⟩
    cases k2.disabled <;> exact ⟨rfl, rfl, rfl⟩
  obtain ⟨p1, a1, a2, a3, a4⟩ := e1
  obtain ⟨p2, b1, b2, b3, b4⟩ := e2
  refine ⟨p1, p2, a1, b1, by rw [a2, b2], by rw [a3, b3], by rw [b4, a4], ?_⟩
  rw [a4, b4]
  intro h
  have := congrArg List.length h
  simp at this
  omega

/-! ## C28 -/

/-- Any two MFA tokens of the user differ in secret and in comment. -/
def MfaDistinct (u : User) : Prop :=
  ∀ (i j : Nat) (x y : MfaToken), u.mfaTokens[i]? = some x → u.mfaTokens[j]? = some y →
    x.secret = y.secret ∨ x.comment = y.comment → i = j

/-- Two tokens clash. -/
def Clash (x y : MfaToken) : Prop := x.secret = y.secret ∨ x.comment = y.comment

theorem mfaDistinct_iff {u : User} : MfaDistinct u ↔ u.mfaTokens.Pairwise (fun x y => ¬ Clash x y) := by
  constructor
  · intro h
    exact pairwise_of_index fun i j x y hi hj hr => h i j x y hi hj hr
  · intro h i j x y hi hj hr
    exact pairwise_index h (fun x y hxy => hxy.imp Eq.symm Eq.symm) i j x y hi hj hr

/-- C28: in every history of a database created empty (or opened with the property) no user has two tokens with the same
secret or the same comment. -/
theorem C28_tokens_distinct [Ext] {db : Database}
    (h : Reach (fun d => Created d ∨ Opened d ∧ ∀ u ∈ d.users, MfaDistinct u) db) :
    ∀ u ∈ db.users, MfaDistinct u := by
  refine reach_forall_users (P := fun u => MfaDistinct u) ?_ ?_ ?_ h
  · rintro d (hd | hd)
    · rw [created_users hd]; simp
    · exact hd.2
  · intro nd req db p e roles name _ _
    rw [mfaDistinct_iff]
    simp [newUserOf, User.zero]
  · intro nd req db c u u' _ hu hop
    rw [mfaDistinct_iff] at hu ⊢
    cases hop with
    | addMfaToken t req' ht hnew =>
      simp only [User.revise, List.pairwise_append, List.pairwise_cons, List.not_mem_nil, false_implies, implies_true,
        List.Pairwise.nil, and_true, List.mem_cons, or_false, forall_eq]
      exact ⟨hu, trivial, fun x hx hxy => hxy.elim (hnew x hx).1 (hnew x hx).2⟩
    | deleteMfaToken => exact hu.filter _
    | _ => exact hu

/-- C28: `AddMfaToken` that returns nil appends exactly one token, differing in secret and comment from all the user had. -/
theorem C28_add_appends_one [Ext] {db : Database} (h : Reach Opened db) {nd : Nondet} {fs : FS} {req : Request}
    (hs : (exec .addMfaToken nd db fs req).Succeeded) :
    ∃ (i : Nat) (u u' : User) (t : MfaToken), db.users[i]? = some u ∧ NamesUser req.user.username u ∧
      (exec .addMfaToken nd db fs req).db.users = db.users.set i u' ∧ u'.mfaTokens = u.mfaTokens ++ [t] ∧
      (newMfaToken nd req).1 = .ok t ∧ (∀ x ∈ u.mfaTokens, x.secret ≠ t.secret ∧ x.comment ≠ t.comment) ∧
      u'.passwords = u.passwords ∧ u'.apiKeys = u.apiKeys ∧ u'.publicKeys = u.publicKeys := by
  obtain ⟨db', m, hc⟩ := exec_success rfl hs
  have hu : (exec .addMfaToken nd db fs req).db.users = db'.users := by rw [hc.db_eq]; rfl
  rw [hu]
  have := m.users'
  revert this
  generalize db'.users = us
  intro this
  cases this with
  | modified _ i u u' hv hop =>
    obtain ⟨h1, h2, _⟩ := (validate_iff (reach_inv h)).1 hv
    cases hop with
    | addMfaToken t req' ht hnew =>
      exact ⟨i, u, _, t, h1, h2, rfl, rfl, by rw [ht], hnew, rfl, rfl, rfl⟩

/-- C28: a token whose secret or comment the user already has is rejected without effect. -/
theorem C28_add_duplicate_rejected [Ext] {db : Database} (h : Reach Opened db) {nd : Nondet} {fs : FS} {req : Request}
    {i : Nat} {u : User} (hi : db.users[i]? = some u) (hn : NamesUser req.user.username u) {t x : MfaToken}
    (ht : (newMfaToken nd req).1 = .ok t) (hx : x ∈ u.mfaTokens) (hd : x.secret = t.secret ∨ x.comment = t.comment) :
    (exec .addMfaToken nd db fs req).Failed ∧ (exec .addMfaToken nd db fs req).Unchanged db fs := by
  simp only [exec, Database.addMfaToken]
  split
  · exact ⟨⟨_, rfl⟩, rfl, rfl⟩
  · rename_i j v hv
    obtain ⟨rfl, rfl⟩ := addressed_user h hi hn hv
    have hpair : newMfaToken nd req = (.ok t, (newMfaToken nd req).2) := by rw [← ht]
    have hdup : User.checkMfaDup t v.mfaTokens ≠ none := by
      intro hc
      have := User.checkMfaDup_none.1 hc x hx
      exact hd.elim this.1 this.2
    obtain ⟨e, he⟩ := Option.ne_none_iff_exists'.1 hdup
    simp only [User.addMfaToken]
    rw [hpair]
    simp only [he]
    exact ⟨⟨_, rfl⟩, rfl, rfl⟩

/-- C28: `DeleteMfaToken` that returns nil removes exactly the addressed user's tokens with the given ID, of which there was
at least one; without such a token the call fails and has no effect. -/
theorem C28_delete_exact [Ext] {db : Database} (h : Reach Opened db) (nd : Nondet) (fs : FS) {req : Request}
    {i : Nat} {u : User} (hi : db.users[i]? = some u) (hn : NamesUser req.user.username u) :
    ((exec .deleteMfaToken nd db fs req).Succeeded →
      (∃ x ∈ u.mfaTokens, x.id = req.mfaToken.id) ∧
      ∃ u', (exec .deleteMfaToken nd db fs req).db.users = db.users.set i u' ∧
        u'.mfaTokens = u.mfaTokens.filter (fun x => x.id ≠ req.mfaToken.id) ∧
        u'.passwords = u.passwords ∧ u'.apiKeys = u.apiKeys ∧ u'.publicKeys = u.publicKeys) ∧
    ((∀ x ∈ u.mfaTokens, x.id ≠ req.mfaToken.id) →
      (exec .deleteMfaToken nd db fs req).Failed ∧ (exec .deleteMfaToken nd db fs req).Unchanged db fs) := by
  constructor
  · intro hs
    obtain ⟨db', m, hc⟩ := exec_success rfl hs
    have hu : (exec .deleteMfaToken nd db fs req).db.users = db'.users := by rw [hc.db_eq]; rfl
    rw [hu]
    have := m.users'
    revert this
    generalize db'.users = us
    intro this
    cases this with
    | modified _ j v u' hv hop =>
      obtain ⟨rfl, rfl⟩ := addressed_user h hi hn hv
      cases hop with
      | deleteMfaToken hex =>
        refine ⟨hex, _, rfl, ?_, rfl, rfl, rfl⟩
        simp only [User.revise]
        apply List.filter_congr
        intro x _
        by_cases hx : x.id = req.mfaToken.id <;> simp [hx]
  · intro hno
    simp only [exec, Database.deleteMfaToken]
    split
    · exact ⟨⟨_, rfl⟩, rfl, rfl⟩
    · rename_i j v hv
      obtain ⟨rfl, rfl⟩ := addressed_user h hi hn hv
      have : v.mfaTokens.any (fun x => x.id == req.mfaToken.id) = false := by
        rw [List.any_eq_false]
        intro x hx
        simpa using hno x hx
      simp only [User.deleteMfaToken, this, Bool.false_eq_true, if_false]
      exact ⟨⟨_, rfl⟩, rfl, rfl⟩

/-! ## Concrete cases -/

/-- Joe's request to add the RSA key with exponent 3 and modulus 33, as PEM and as an authorized_keys line. -/
def reqPem : Request :=
  { user := { username := gs! "joe", email := gs! "joe@example.com" }
    key := { usage := gs! "ssh", payload := gs!
"-----BEGIN RSA PUBLIC KEY-----\nMBowDQYJKoZIhvcNAQEBBQADCQAwBgIBIQIBAw==\n-----END RSA PUBLIC KEY-----\n" } }
def reqLine : Request :=
  { user := { username := gs! "joe", email := gs! "joe@example.com" }
    key := { usage := gs! "ssh", payload := gs! "ssh-rsa AAAAB3NzaC1yc2EAAAABAwAAAAEh" } }

def dbP0 : Database :=
  match newDatabase nd fs0 path with
  | (.ok d, _) => d
  | _ => Database.empty []
theorem dbP0_opened : Opened dbP0 := ⟨nd, fs0, path, (newDatabase nd fs0 path).2, rfl⟩
/-- Joe registered. -/
def dbP1 : Database := (exec .addUser nd dbP0 fs0 reqJoe).db
/-- Joe added the PEM form. -/
def dbP2 : Database := (exec .addPublicKey nd dbP1 fs0 reqPem).db
/-- Joe added the OpenSSH form of the same key. -/
def dbP3 : Database := (exec .addPublicKey nd dbP2 fs0 reqLine).db
theorem dbP2_reach : Reach Opened dbP2 := .step (.step (.init dbP0_opened) ..) ..
theorem dbP3_reach : Reach Opened dbP3 := .step dbP2_reach ..

/-- C27: one RSA key is stored twice for one user, once per form. -/
theorem C27_same_key_stored_twice :
    Reach Opened dbP3 ∧ (exec .addPublicKey nd dbP1 fs0 reqPem).Succeeded ∧
      (exec .addPublicKey nd dbP2 fs0 reqLine).Succeeded ∧ (dbP3.users.map (·.publicKeys.length)) = [2] := by
  refine ⟨dbP3_reach, ?_⟩
  unfold Result.Succeeded; decide +kernel

-- The hypotheses of `C27_pem_and_openssh_differ`.
example : Contains (gs! "RSA PUBLIC KEY") reqPem.key.payload ∧
    pemDecode (trimSpace reqPem.key.payload) = some (gs! "RSA PUBLIC KEY", marshalPKIX 3 33) ∧
    pkixToSsh (marshalPKIX 3 33) = some (some (.rsa 3 33)) ∧
    (∀ b ∈ gs! "AAAAB3NzaC1yc2EAAAABAwAAAAEh", 33 ≤ b.toNat ∧ b.toNat < 128) ∧
    (b64Decode (gs! "AAAAB3NzaC1yc2EAAAABAwAAAAEh")).bind sshParse = some (.rsa 3 33) := by
  refine ⟨⟨gs! "-----BEGIN ", gs! "-----\nMBowDQYJKoZIhvcNAQEBBQADCQAwBgIBIQIBAw==\n-----END RSA PUBLIC KEY-----\n", by decide⟩, ?_⟩
  decide +kernel

-- Adding the same form again fails; deleting by ID succeeds; listing returns both; listing another usage returns none.
example : (exec .addPublicKey nd dbP3 fs0 reqPem).out ≠ .success := by decide +kernel
example : (exec .deletePublicKey nd dbP3 fs0 { reqPem with key := { id := getRandomString nd.seedRand 0 40 } }).Succeeded := by
  unfold Result.Succeeded; decide +kernel
example : ((exec .getPublicKeys nd dbP3 fs0 reqPem).req.response.payload matches .publicKeys ⟨[_, _], 2⟩) = true := by
  decide +kernel
example : ((exec .getPublicKeys nd dbP3 fs0 { reqPem with key := { usage := gs! "gpg" } }).req.response.payload
    matches .publicKeys ⟨[], 0⟩) = true := by decide +kernel
example : ∀ u ∈ dbP0.users, PublicKeysDistinct u := by
  have : dbP0.users = [] := by decide +kernel
  rw [this]; simp

/-- Joe enrols a TOTP application; the passcode is the one for the current step. -/
def reqTotp : Request :=
  { user := { username := gs! "joe", email := gs! "joe@example.com" }
    mfaToken :=
      { comment := gs! "phone", type := gs! "totp", secret := gs! "secret", period := 30, digits := 6
        passcode := match generateMfaCode (gs! "secret") (gs! "sha1") 6 (1000000000 / 30) with
          | .ok c => c
          | _ => [] } }
def dbTok : Database := (exec .addMfaToken nd db2 fs3 reqTotp).db
theorem dbTok_reach : Reach Opened dbTok := .step db2_reachO ..

example : (exec .addMfaToken nd db2 fs3 reqTotp).Succeeded ∧ (dbTok.users.map (·.mfaTokens.length)) = [1, 0] := by
  unfold Result.Succeeded; decide +kernel
example : (exec .addMfaToken nd dbTok fs3 reqTotp).out ≠ .success := by decide +kernel
example : ((exec .getMfaTokens nd dbTok fs3 reqTotp).req.response.payload matches .mfaTokens ⟨[_], 1⟩) = true := by
  decide +kernel
example : (exec .deleteMfaToken nd dbTok fs3
    { reqTotp with mfaToken := { id := getRandomString nd.seedRand 0 40 } }).Succeeded := by
  unfold Result.Succeeded; decide +kernel

end GoIdentity
