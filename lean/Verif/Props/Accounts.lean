import Verif.Props.Roles
import Verif.Props.Success
import Verif.Props.Claims
/-!
# The form of stored accounts, and carrying them over: C106
-/
namespace GoIdentity
open Toy

/-- The form of an account that the database itself has made under a policy. -/
structure MadeUser (p : Policy) (u : User) : Prop where
  username : u.username ≠ [] ∧ UsernameAllowed p u.username
  email : ∃ e, u.emailAddresses = [e] ∧ u.emailAddress = some e ∧ emailPattern.Matches e.address ∧
    newEmailAddress e.address = .ok e
  name : (u.name = none ∧ u.names = []) ∨ ∃ n s, parseName s = .ok n ∧ u.name = some n ∧ u.names = [n]
  roles : u.roles.Nodup ∧ ∀ r ∈ u.roles, ∃ s, newRole s = .ok r
  unused : u.enabled = false ∧ u.human = false ∧ u.title = [] ∧ u.organization = none ∧ u.organizations = [] ∧
    u.streetAddress = [] ∧ u.lockout = none ∧ u.avatar = none

theorem MadeUser.same {p : Policy} {u u' : User} (h : MadeUser p u) (hs : SameIdentity u u') : MadeUser p u' where
  username := by rw [hs.username]; exact h.username
  email := by rw [hs.emailAddresses, hs.emailAddress]; exact h.email
  name := by rw [hs.name, hs.names]; exact h.name
  roles := by rw [hs.roles]; exact h.roles
  unused := by
    rw [hs.enabled, hs.human, hs.title, hs.organization, hs.organizations, hs.streetAddress, hs.lockout, hs.avatar]
    exact h.unused

/-- Calls other than `AddUser` keep the identity of every account and add none. -/
theorem Mutation.same_users [Ext] {nd : Nondet} {req : Request} {db db' : Database} {c : Call}
    (m : Mutation nd req db c db') (hc : c ≠ .addUser) : ∀ u ∈ db'.users, ∃ v ∈ db.users, SameIdentity v u := by
  have h := m.users'
  revert h
  generalize db'.users = us
  intro h
  cases h with
  | save => exact fun u hu => ⟨u, hu, .refl u⟩
  | copy => exact fun u hu => ⟨u, hu, .refl u⟩
  | appended => exact absurd rfl hc
  | modified _ i v v' hv hop =>
    intro u hu
    rcases List.mem_or_eq_of_mem_set hu with h1 | h1
    · exact ⟨u, h1, .refl u⟩
    · subst h1; exact ⟨v, List.mem_of_getElem? (validate_users hv), hop.same⟩

/-- C106: every account in the history of a database created empty has this form, under the policy in force. -/
theorem C106_stored_accounts [Ext] {db : Database} (h : Reach Created db) : ∀ u ∈ db.users, MadeUser db.policy u := by
  induction h with
  | init hd => rw [created_users hd]; simp
  | @step db h c nd fs req ih =>
    rw [(exec_path c nd db fs req).2.1]
    rcases exec_spec c nd db fs req with h1 | ⟨db', m, hc⟩
    · rw [h1.db_eq]; exact ih
    · rw [hc.db_eq]
      by_cases hadd : c = .addUser
      · subst hadd
        cases m with
        | addUser user emails hpol hnew hname hemails =>
          obtain ⟨p, e, roles, name, hp, he, hr, hn, _, hun, rfl⟩ := User.newWithRoles_ok hnew
          intro u hu
          rcases List.mem_append.1 hu with hu | hu
          · exact ih u hu
          · rw [List.mem_singleton] at hu
            subst hu
            have ha := (C39_stored he).1
            refine ⟨⟨hun, ?_⟩, ⟨e, rfl, rfl, ?_, ?_⟩, ?_, ⟨?_, ?_⟩, ⟨rfl, rfl, rfl, rfl, rfl, rfl, rfl, rfl⟩⟩
            · have := (checkPolicy_iff.1 hpol).1
              exact this
            · rw [ha]; exact (C39_accepts_iff_matches _).1 ⟨e, he⟩
            · rw [ha]; exact he
            · rcases hn with ⟨_, rfl⟩ | ⟨_, n, h2, rfl⟩
              · exact .inl ⟨rfl, rfl⟩
              · exact .inr ⟨n, _, h2, rfl, rfl⟩
            · exact (dedup_spec [] roles).2.2 List.nodup_nil
            · intro r hr'
              have hm : r ∈ roles := by
                have h3 : r ∈ User.dedupRoles [] roles := hr'
                rw [dedupRoles_eq] at h3
                simpa using h3
              have h4 := parseRoles_map hr
              have h5 : Res.ok r ∈ req.user.roles.map newRole := by rw [h4]; exact List.mem_map_of_mem hm
              obtain ⟨s, _, hs⟩ := List.mem_map.1 h5
              exact ⟨s, hs⟩
      · intro u hu
        obtain ⟨v, hv, hs⟩ := m.same_users hadd u hu
        exact (ih v hv).same hs

/-- C106: so each has exactly one address, which is its claim. -/
theorem C106_one_address [Ext] {db : Database} (h : Reach Created db) {u : User} (hu : u ∈ db.users) :
    u.hasEmailAddresses = true ∧ ∃ e, u.emailAddresses = [e] ∧ u.mailClaim = e.address ∧ e.toStr = e.address := by
  obtain ⟨e, h1, h2, _, _⟩ := (C106_stored_accounts h u hu).email
  refine ⟨by simp [User.hasEmailAddresses, h1], e, h1, ?_, rfl⟩
  obtain ⟨x, hx, hc⟩ := C60_claim_is_an_address u (by rw [h1]; simp)
  rw [h1, List.mem_singleton] at hx
  rw [hc, hx]

/-- A role whose printed form is read as the same role. -/
def RoleCarries (r : Role) : Prop :=
  r.organization ≠ [] ∨ (r.name ≠ [] ∧ (47 : UInt8) ∉ r.name ∧ trimSpace r.name = r.name)

/-- C106: of the roles that `NewRole` makes these are exactly the ones that survive printing and reading. -/
theorem C106_role_carries {s : GoString} {r : Role} (h : newRole s = .ok r) : newRole r.toStr = .ok r ↔ RoleCarries r := by
  constructor
  · intro h2
    by_cases ho : r.organization = []
    · right
      obtain ⟨name, org⟩ := r
      dsimp only at ho ⊢
      subst ho
      have ht : (⟨name, []⟩ : Role).toStr = name := by simp [Role.toStr]
      rw [ht] at h2
      rcases newRole_cases name with ⟨_, h3⟩ | ⟨hb, h47, h3⟩ | ⟨hb, org', name', _, h4, h3⟩
      · rw [h3] at h2; simp at h2
      · rw [h3, Res.ok.injEq, Role.mk.injEq] at h2
        have h5 := h2.1
        refine ⟨fun h0 => hb (trimSpace_nil_iff.1 (h5.trans h0)), by rwa [h5] at h47, h5⟩
      · rw [h3, Res.ok.injEq, Role.mk.injEq] at h2
        obtain ⟨rfl, rfl⟩ := h2
        have := trimSpace_length_le name'
        rw [h4] at this
        simp only [List.nil_append, List.length_cons] at this
        omega
    · exact .inl ho
  · rintro (ho | ⟨hn, h47, ht⟩)
    · refine (C36_role_prints_back h ?_).2
      rcases newRole_cases s with ⟨_, h2⟩ | ⟨_, _, h2⟩ | ⟨_, org, name, h1, h3, h2⟩
      · rw [h] at h2; simp at h2
      · rw [h, Res.ok.injEq] at h2; subst h2; exact absurd rfl ho
      · rw [h, Res.ok.injEq] at h2; subst h2
        rw [h3]
        cases org with
        | nil => exact absurd rfl ho
        | cons b t =>
          simp only [List.cons_append, List.head?_cons, ne_eq, Option.some.injEq]
          intro hb; subst hb; simp at h1
    · by_cases ho : r.organization = []
      · exact C36_plain_role_round_trip ho hn h47 ht
      · refine (C36_role_prints_back h ?_).2
        rcases newRole_cases s with ⟨_, h2⟩ | ⟨_, _, h2⟩ | ⟨_, org, name, h1, h3, h2⟩
        · rw [h] at h2; simp at h2
        · rw [h, Res.ok.injEq] at h2; subst h2; exact absurd rfl ho
        · rw [h, Res.ok.injEq] at h2; subst h2
          rw [h3]
          cases org with
          | nil => exact absurd rfl ho
          | cons b t =>
            simp only [List.cons_append, List.head?_cons, ne_eq, Option.some.injEq]
            intro hb; subst hb; simp at h1

/-- A name whose printed form is read as the same name: two parts without commas. -/
def NameCarries (n : Name) : Prop := n.last ≠ [] ∧ n.first ≠ [] ∧ (44 : UInt8) ∉ n.last ∧ (44 : UInt8) ∉ n.first

/-- The request that registers an account again, with what the listings and claims of the database tell about it. -/
def User.again (u : User) (password : GoString) : Request :=
  { user := { username := u.username, email := u.mailClaim, password := password,
              fullName := match u.name with | some n => n.fullName | none => [], roles := u.rolesClaim } }

theorem parsed_trimmed {s : GoString} {n : Name} (h : parseName s = .ok n) : trimSpace n.first = n.first ∧ trimSpace n.last = n.last := by
  obtain ⟨h1, h2, h3⟩ := C38_parse s
  by_cases hc : s.count 44 = 1
  · obtain ⟨a, b, ha, hb, hs⟩ := count_one_split hc
    rw [h1 a b ha hb hs, Res.ok.injEq] at h
    subst h; exact ⟨trimSpace_idem b, trimSpace_idem a⟩
  · by_cases hc' : s.count 32 = 1
    · obtain ⟨a, b, ha, hb, hs⟩ := count_one_split hc'
      rw [h2 hc a b ha hb hs, Res.ok.injEq] at h
      subst h; exact ⟨trimSpace_idem a, trimSpace_idem b⟩
    · obtain ⟨e, he⟩ := h3 hc hc'
      rw [h] at he; simp at he

theorem addUser_email [Ext] {nd : Nondet} {db : Database} {fs : FS} {req : Request}
    (hs : (exec .addUser nd db fs req).Succeeded) : ∃ v e, (exec .addUser nd db fs req).db.users = db.users ++ [v] ∧
      v.emailAddresses = [e] ∧ newEmailAddress req.user.email = .ok e := by
  obtain ⟨db', m, hc⟩ := exec_success rfl hs
  rw [hc.db_eq]
  cases m with
  | addUser user emails hpol hnew hname hemails =>
    obtain ⟨p, e, roles, name, hp, he, hr, hn, _, _, rfl⟩ := User.newWithRoles_ok hnew
    exact ⟨_, e, rfl, rfl, he⟩

theorem map_ok_inj {α : Type} : ∀ {a b : List α}, a.map Res.ok = b.map Res.ok → a = b
  | [], [], _ => rfl
  | [], _ :: _, h => by simp at h
  | _ :: _, [], h => by simp at h
  | x :: a, y :: b, h => by
    simp only [List.map_cons, List.cons.injEq, Res.ok.injEq] at h
    rw [h.1, map_ok_inj h.2]

theorem eraseDups_of_nodup {l : List Role} (h : l.Nodup) : l.eraseDups = l := by
  induction l with
  | nil => rfl
  | cons r l ih =>
    obtain ⟨h1, h2⟩ := List.nodup_cons.1 h
    rw [List.eraseDups_cons, List.filter_eq_self.2, ih h2]
    intro x hx
    simp only [Bool.not_eq_true', beq_eq_false_iff_ne, ne_eq]
    rintro rfl; exact h1 hx

/-- C106: an account can be carried over.  If its roles and its name survive printing, another database whose policy allows
its username and in which username and address are free accepts it with what the first database tells about it, and stores
the same username, address, roles and name. -/
theorem C106_carry_over [Ext] {db : Database} (h : Reach Created db) {u : User} (hu : u ∈ db.users)
    (hroles : ∀ r ∈ u.roles, RoleCarries r) (hname : ∀ n, u.name = some n → NameCarries n)
    {db' : Database} (h' : Reach Opened db') (nd : Nondet) (fs : FS) {password : GoString}
    (hpol : UsernameAllowed db'.policy u.username ∧ PasswordAllowed db'.policy password) (hpw : ¬ Blank password)
    (hfree : ∀ v ∈ db'.users, toLower v.username ≠ toLower u.username)
    (hefree : ∀ v ∈ db'.users, ∀ e ∈ v.emailAddresses, toLower e.address ≠ toLower u.mailClaim)
    (hnd : (nd.salts 0).isSome = true ∧ nd.userID.length = 36 ∧ CanWrite nd fs db'.path) :
    (exec .addUser nd db' fs (u.again password)).Succeeded ∧
    ∃ v, (exec .addUser nd db' fs (u.again password)).db.users = db'.users ++ [v] ∧ v.username = u.username ∧
      v.emailAddresses = u.emailAddresses ∧ v.emailAddress = u.emailAddress ∧ v.roles = u.roles ∧ v.name = u.name ∧
      v.names = u.names := by
  have hm := C106_stored_accounts h u hu
  obtain ⟨_, e, he1, he2, _⟩ := C106_one_address h hu
  obtain ⟨e', he1', heA, hpat, hnew⟩ := hm.email
  have hee : e' = e := by rw [he1, List.cons.injEq] at he1'; exact he1'.1.symm
  subst hee
  have hparse : ∀ r ∈ u.roles, newRole r.toStr = .ok r := by
    intro r hr
    obtain ⟨s, hs⟩ := hm.roles.2 r hr
    exact (C106_role_carries hs).2 (hroles r hr)
  have hclaim : u.rolesClaim = u.roles.map Role.toStr := C37_roles_claim.1
  have hfull : (u.name = none ∧ u.names = [] ∧ (u.again password).user.fullName = []) ∨
      ∃ n, u.name = some n ∧ u.names = [n] ∧ (u.again password).user.fullName = n.fullName ∧
        trimSpace n.fullName = n.fullName ∧ parseName n.fullName = .ok n := by
    rcases hm.name with ⟨h1, h2⟩ | ⟨n, s, hn, h1, h2⟩
    · exact .inl ⟨h1, h2, by simp [User.again, h1]⟩
    · obtain ⟨c1, c2, c3, c4⟩ := hname n h1
      obtain ⟨t1, t2⟩ := parsed_trimmed hn
      refine .inr ⟨n, h1, h2, by simp [User.again, h1], ?_, C38_stable hn c1 c2 c3 c4⟩
      rw [C38_prints c1 c2]
      have hend : ClearEnd (32 :: n.first) := by
        intro p hp hsuf
        rcases List.suffix_cons_iff.1 hsuf with h3 | h3
        · have : ∀ p ∈ spaceRunes, p.head? = some 32 → p.length = 1 := by decide
          have h4 := this p hp (by rw [h3]; rfl)
          rw [h3] at h4
          simp only [List.length_cons, Nat.add_eq_right, List.length_eq_zero_iff] at h4
          exact c2 h4
        · exact (trimSpace_eq_self_iff.1 t1).2 p hp h3
      have hcl := clear_around (b := 44) (by decide) (trimSpace_eq_self_iff.1 t2).1 hend
      rw [List.append_assoc]
      exact trimSpace_eq_self_iff.2 hcl
  have hs : (exec .addUser nd db' fs (u.again password)).Succeeded := by
    rw [C68_add_user h' nd fs]
    refine ⟨hpol, hm.username.1, hpw, ?_, ?_, ?_, hfree, hefree, hnd⟩
    · show emailPattern.Matches u.mailClaim
      rw [he2]; exact hpat
    · intro r hr
      have hr : r ∈ u.rolesClaim := hr
      rw [hclaim] at hr
      obtain ⟨x, hx, rfl⟩ := List.mem_map.1 hr
      intro hb
      obtain ⟨er, her⟩ := (C36_role_rejected_iff_blank _).1.2 hb
      rw [hparse x hx] at her; simp at her
    · rcases hfull with ⟨_, _, h3⟩ | ⟨n, _, _, h3, h4, h5⟩
      · rw [h3]; exact .inl ⟨[], by simp, rfl⟩
      · rw [h3, h4]; exact .inr ((C38_accepted_iff _).1.1 ⟨n, h5⟩)
  refine ⟨hs, ?_⟩
  obtain ⟨v, h1, _, h2, ⟨x, h3, h4, h5⟩, _, ⟨rs, h6, h7⟩, h8, _⟩ := C06_add_user_appends_one hs
  have hx : x = e' := by
    have h9 : (u.again password).user.email = e'.address := he2
    obtain ⟨v', e'', g1, g2, g3⟩ := addUser_email hs
    rw [h1, List.append_cancel_left_eq, List.cons.injEq] at g1
    rw [← g1.1, h3, List.cons.injEq] at g2
    rw [h9, hnew, Res.ok.injEq] at g3
    rw [g2.1, ← g3]
  refine ⟨v, h1, h2, by rw [h3, he1, hx], by rw [h4, heA, hx], ?_, ?_⟩
  · have h9 : (u.again password).user.roles = u.roles.map Role.toStr := hclaim
    rw [h9, List.map_map] at h6
    have h10 : u.roles.map (newRole ∘ Role.toStr) = u.roles.map Res.ok :=
      List.map_congr_left fun r hr => hparse r hr
    rw [h10] at h6
    have h11 : u.roles = rs := by
      exact map_ok_inj h6
    rw [h7, ← h11]
    exact eraseDups_of_nodup hm.roles.1
  · rcases hfull with ⟨a1, a2, a3⟩ | ⟨n, a1, a2, a3, a4, a5⟩
    · rw [a3] at h8
      rcases h8 with ⟨_, b1, b2⟩ | ⟨n, b1, _⟩
      · exact ⟨b1.trans a1.symm, b2.trans a2.symm⟩
      · exact absurd b1 (by rw [show trimSpace ([] : GoString) = [] from rfl]; simp [parseName, containsByte])
    · rw [a3, a4, a5] at h8
      rcases h8 with ⟨b0, _, _⟩ | ⟨n', b1, b2, b3⟩
      · exact absurd b0 (by obtain ⟨c1, c2, _⟩ := hname n a1; rw [C38_prints c1 c2]; simp)
      · cases b1; exact ⟨b2.trans a1.symm, b3.trans a2.symm⟩

/-- A request with a role that starts with `/`. -/
def reqSlash : Request :=
  { user := { username := gs! "eve", email := gs! "eve@example.com", password := gs! "password3",
              roles := [gs! "/org/admin"] } }

/-- The account stored for it. -/
def dbSlash : Database := (exec .addUser nd db0 fs1 reqSlash).db

theorem dbSlash_reach : Reach Created dbSlash := .step (.init db0_created) .addUser nd fs1 reqSlash

/-- C106 (finding): without the condition on roles the account changes: `/org/admin` is a role without organisation, is told
as `org/admin`, and arrives as the role `admin` of `org`. -/
theorem C106_slash_role_changes : Reach Created dbSlash ∧ dbSlash.users.map User.roles = [[⟨gs! "org/admin", []⟩]] ∧
    (dbSlash.users.map fun u => (exec .addUser nd2 db1 fs2 (u.again (gs! "password3"))).out) = [.success] ∧
    (dbSlash.users.map fun u => (exec .addUser nd2 db1 fs2 (u.again (gs! "password3"))).db.users.map User.roles) =
      [[[⟨gs! "admin", gs! "org"⟩, ⟨gs! "viewer", []⟩], [⟨gs! "admin", gs! "org"⟩]]] := by
  refine ⟨dbSlash_reach, ?_, ?_, ?_⟩ <;> decide +kernel

-- Joe, carried over to an empty database.
example : ∀ u ∈ db1.users, (∀ r ∈ u.roles, RoleCarries r) ∧ (∀ n, u.name = some n → NameCarries n) ∧
    UsernameAllowed db0.policy u.username ∧ u.mailClaim = gs! "Joe@example.com" := by
  have h1 : db1.users.map User.roles = [[⟨gs! "admin", gs! "org"⟩, ⟨gs! "viewer", []⟩]] := by decide +kernel
  have h2 : db1.users.map User.name = [some ⟨gs! "Joe", gs! "Smith", [], [], false, false, false, false, false⟩] := by
    decide +kernel
  have h3 : db1.users.map (fun u => (u.username, u.mailClaim)) = [(gs! "Joe", gs! "Joe@example.com")] := by decide +kernel
  intro u hu
  have e1 : u.roles = [⟨gs! "admin", gs! "org"⟩, ⟨gs! "viewer", []⟩] := by
    simpa [h1] using List.mem_map_of_mem (f := User.roles) hu
  have e2 : u.name = some ⟨gs! "Joe", gs! "Smith", [], [], false, false, false, false, false⟩ := by
    simpa [h2] using List.mem_map_of_mem (f := User.name) hu
  have e3 : u.username = gs! "Joe" ∧ u.mailClaim = gs! "Joe@example.com" := by
    simpa [h3] using List.mem_map_of_mem (f := fun u => (u.username, u.mailClaim)) hu
  refine ⟨?_, ?_, ?_, e3.2⟩
  · rw [e1]
    intro r hr
    simp only [List.mem_cons, List.not_mem_nil, or_false] at hr
    rcases hr with rfl | rfl
    · exact .inl (by decide)
    · exact .inr ⟨by decide, by decide, by decide +kernel⟩
  · rw [e2]
    rintro n ⟨⟩
    unfold NameCarries
    decide +kernel
  · rw [e3.1]; unfold UsernameAllowed; decide +kernel
example : (db1.users.map fun u => (exec .addUser nd db0 fs1 (u.again (gs! "password1"))).out) = [.success] ∧
    (db1.users.map fun u => (exec .addUser nd db0 fs1 (u.again (gs! "password1"))).db.users.map User.roles) =
      [db1.users.map User.roles] ∧
    (db1.users.map fun u => (exec .addUser nd db0 fs1 (u.again (gs! "password1"))).db.users.map User.name) =
      [db1.users.map User.name] := by
  refine ⟨?_, ?_, ?_⟩ <;> decide +kernel
example : ∃ u ∈ db2.users, MadeUser db2.policy u := by
  have h : db2.users.length = 2 := by decide +kernel
  obtain ⟨u, hu⟩ := List.exists_mem_of_length_pos (by omega : 0 < db2.users.length)
  exact ⟨u, hu, C106_stored_accounts db2_reach u hu⟩

end GoIdentity
