import Verif.Lemmas.Split
import Verif.Lemmas.UserSteps
import Verif.Spec.Toy
/-!
# Roles and names: C36–C38
-/
namespace GoIdentity
open Toy

/-! ## C36 -/

/-- What `NewRole` makes of a non-blank string: everything is the name, or the organisation ends at the first `/`. -/
theorem newRole_cases (s : GoString) :
    (Blank s ∧ newRole s = .err (.std .roleEmpty)) ∨
    (¬ Blank s ∧ (47 : UInt8) ∉ trimSpace s ∧ newRole s = .ok ⟨trimSpace s, []⟩) ∨
    (¬ Blank s ∧ ∃ org name, (47 : UInt8) ∉ org ∧ trimSpace s = org ++ 47 :: name ∧ newRole s = .ok ⟨name, org⟩) := by
  unfold newRole
  by_cases hb : trimSpace s = []
  · left; exact ⟨trimSpace_nil_iff.1 hb, by simp [hb]⟩
  · right
    have hnb : ¬ Blank s := fun h => hb (trimSpace_nil_iff.2 h)
    simp only [if_neg hb]
    rcases sep_cases 47 (trimSpace s) with h | ⟨a, t, ha, hs⟩
    · left; refine ⟨hnb, h, ?_⟩; rw [splitByte_no_sep h]
    · right
      refine ⟨hnb, a, t, ha, hs, ?_⟩
      rw [hs, splitByte_append ha]
      have hne := split_ne_nil 47 t
      cases ht : splitByte 47 t with
      | nil => exact absurd ht hne
      | cons p ps => simp only [← ht, join_split]

/-- C36: `NewRole` fails exactly on blank input, and never panics. -/
theorem C36_role_rejected_iff_blank (s : GoString) :
    ((∃ e, newRole s = .err e) ↔ Blank s) ∧ newRole s ≠ .panic := by
  rcases newRole_cases s with ⟨h1, h2⟩ | ⟨h1, _, h2⟩ | ⟨h1, _, _, _, _, h2⟩ <;> simp [h2, h1]

/-- C36: unless the trimmed input starts with `/`, printing the role gives the trimmed input back, and parsing that gives the
same role. -/
theorem C36_role_prints_back {s : GoString} {r : Role} (h : newRole s = .ok r) (hs : (trimSpace s).head? ≠ some 47) :
    r.toStr = trimSpace s ∧ newRole r.toStr = .ok r := by
  have key : r.toStr = trimSpace s := by
    rcases newRole_cases s with ⟨_, h2⟩ | ⟨_, _, h2⟩ | ⟨_, org, name, _, h1, h2⟩
    · rw [h] at h2; simp at h2
    · rw [h, Res.ok.injEq] at h2; subst h2; simp [Role.toStr]
    · rw [h, Res.ok.injEq] at h2
      subst h2
      rw [h1] at hs ⊢
      cases org with
      | nil => simp at hs
      | cons b o => simp [Role.toStr]
  refine ⟨key, ?_⟩
  rw [key, ← h]
  unfold newRole
  rw [trimSpace_idem]

/-- C36: a role with a non-empty organisation without `/`, whose parts have no surrounding white space, parses back to
itself. -/
theorem C36_role_round_trip {r : Role} (ho : r.organization ≠ []) (hsl : (47 : UInt8) ∉ r.organization)
    (hot : trimSpace r.organization = r.organization) (hnt : trimSpace r.name = r.name) : newRole r.toStr = .ok r := by
  obtain ⟨name, org⟩ := r
  dsimp only at *
  have hts : (⟨name, org⟩ : Role).toStr = org ++ 47 :: name := by simp [Role.toStr, ho]
  have hclear := clear_around (b := 47) (by decide) (trimSpace_eq_self_iff.1 hot).1 (trimSpace_eq_self_iff.1 hnt).2
  have htrim : trimSpace (org ++ 47 :: name) = org ++ 47 :: name := trimSpace_eq_self_iff.2 hclear
  rw [hts]
  unfold newRole
  rw [htrim, if_neg (by simp), splitByte_append hsl]
  have hne := split_ne_nil 47 name
  cases ht : splitByte 47 name with
  | nil => exact absurd ht hne
  | cons p ps => simp only [← ht, join_split]

/-- C36: a role without organisation and without `/` parses back to itself. -/
theorem C36_plain_role_round_trip {r : Role} (ho : r.organization = []) (hn : r.name ≠ []) (hsl : (47 : UInt8) ∉ r.name)
    (hnt : trimSpace r.name = r.name) : newRole r.toStr = .ok r := by
  obtain ⟨name, org⟩ := r
  dsimp only at *
  subst ho
  simp only [Role.toStr, if_pos]
  unfold newRole
  rw [hnt, if_neg hn, splitByte_no_sep hsl]

/-- C36: different roles of these two kinds print differently. -/
theorem C36_printing_injective {r r' : Role}
    (h : (r.organization ≠ [] ∧ (47 : UInt8) ∉ r.organization) ∨ (r.organization = [] ∧ (47 : UInt8) ∉ r.name))
    (h' : (r'.organization ≠ [] ∧ (47 : UInt8) ∉ r'.organization) ∨ (r'.organization = [] ∧ (47 : UInt8) ∉ r'.name))
    (he : r.toStr = r'.toStr) : r = r' := by
  obtain ⟨n, o⟩ := r
  obtain ⟨n', o'⟩ := r'
  dsimp only at *
  have split1 : ∀ {a b : GoString}, (47 : UInt8) ∉ a → splitByte 47 (a ++ 47 :: b) = a :: splitByte 47 b :=
    fun h => splitByte_append h
  rcases h with ⟨h1, h2⟩ | ⟨h1, h2⟩ <;> rcases h' with ⟨h1', h2'⟩ | ⟨h1', h2'⟩
  · simp only [Role.toStr, if_neg h1, if_neg h1', List.append_assoc, List.cons_append, List.nil_append] at he
    have e := congrArg (splitByte 47) he
    rw [split1 h2, split1 h2', List.cons.injEq] at e
    obtain ⟨rfl, e⟩ := e
    rw [List.append_cancel_left_eq, List.cons.injEq] at he
    rw [he.2]
  · simp only [Role.toStr, if_neg h1, if_pos h1', List.append_assoc, List.cons_append, List.nil_append] at he
    exact absurd (by rw [← he]; simp : (47 : UInt8) ∈ n') h2'
  · simp only [Role.toStr, if_pos h1, if_neg h1', List.append_assoc, List.cons_append, List.nil_append] at he
    exact absurd (by rw [he]; simp : (47 : UInt8) ∈ n) h2
  · simp only [Role.toStr, if_pos h1, if_pos h1'] at he
    rw [he, h1, h1']

/-- C36: without the premise on a leading `/` this fails: the role `/org/admin` prints as `org/admin`, which is another
role; and the role `/` prints as the empty string, which is no role. -/
theorem C36_leading_slash :
    newRole (gs! "/org/admin") = .ok ⟨gs! "org/admin", []⟩ ∧ (⟨gs! "org/admin", []⟩ : Role).toStr = gs! "org/admin" ∧
    newRole (gs! "org/admin") = .ok ⟨gs! "admin", gs! "org"⟩ ∧
    newRole (gs! "/") = .ok ⟨[], []⟩ ∧ newRole (⟨[], []⟩ : Role).toStr = .err (.std .roleEmpty) := by
  decide +kernel

example : newRole (gs! " org/a/b\n") = .ok ⟨gs! "a/b", gs! "org"⟩ ∧ Blank (gs! " \t\n") := by
  refine ⟨by decide +kernel, [[32], [9], [10]], by decide, rfl⟩
example : newRole (⟨gs! "a/b", gs! "org"⟩ : Role).toStr = .ok ⟨gs! "a/b", gs! "org"⟩ :=
  C36_role_round_trip (by decide) (by decide) (by decide +kernel) (by decide +kernel)

/-! ## C37 -/

theorem role_eq_iff {r s : Role} : (r.name == s.name && r.organization == s.organization) = true ↔ r = s := by
  cases r; cases s; simp

theorem any_role_iff {rs : List Role} {r : Role} :
    rs.any (fun x => x.name == r.name && x.organization == r.organization) = true ↔ r ∈ rs := by
  rw [List.any_eq_true]
  constructor
  · rintro ⟨x, hx, he⟩; exact role_eq_iff.1 he ▸ hx
  · intro h; exact ⟨r, h, role_eq_iff.2 rfl⟩

/-- C37: `AddRole` fails exactly for blank input; otherwise the user holds the roles held before, in the same order, followed
by the new one unless it was held; nothing else but the revision stamp changes, and that only if a role was added. -/
theorem C37_add_role (now : Clock) (s : GoString) (u : User) :
    ((∃ e, u.addRole now s = .err e) ↔ Blank s) ∧ u.addRole now s ≠ .panic ∧
    ∀ r, newRole s = .ok r → u.addRole now s =
      .ok (if r ∈ u.roles then u
        else { u with
          roles := u.roles ++ [r], lastModified := now 0
          revision := if u.revision = 2 ^ 63 - 1 then -2 ^ 63 else u.revision + 1 }) := by
  have hok : ∀ r, newRole s = .ok r → u.addRole now s =
      .ok (if r ∈ u.roles then u
        else { u with
          roles := u.roles ++ [r], lastModified := now 0
          revision := if u.revision = 2 ^ 63 - 1 then -2 ^ 63 else u.revision + 1 }) := by
    intro r hr
    unfold User.addRole
    simp only [hr]
    by_cases h0 : u.roles.length = 0
    · have : u.roles = [] := List.eq_nil_of_length_eq_zero h0
      simp [this, User.revise, User.incr64]
    · simp only [if_neg h0]
      by_cases hm : r ∈ u.roles
      · rw [if_pos (any_role_iff.2 hm), if_pos hm]
      · rw [if_neg (fun hc => hm (any_role_iff.1 hc)), if_neg hm]; rfl
  refine ⟨?_, ?_, hok⟩
  · rw [← (C36_role_rejected_iff_blank s).1]
    cases hr : newRole s with
    | err e => simp [User.addRole, hr]
    | panic => simp [User.addRole, hr]
    | ok r => simp [hok r hr]
  · cases hr : newRole s with
    | err e => simp [User.addRole, hr]
    | panic => exact absurd hr (C36_role_rejected_iff_blank s).2
    | ok r => simp [hok r hr]

theorem dedup_spec (held rs : List Role) :
    held <+: User.dedupRoles held rs ∧ (∀ r, r ∈ User.dedupRoles held rs ↔ r ∈ held ∨ r ∈ rs) ∧
    (held.Nodup → (User.dedupRoles held rs).Nodup) := by
  induction rs generalizing held with
  | nil => simp [User.dedupRoles]
  | cons r rs ih =>
    simp only [User.dedupRoles]
    by_cases h : r ∈ held
    · rw [if_pos h]
      obtain ⟨h1, h2, h3⟩ := ih held
      refine ⟨h1, ?_, h3⟩
      intro x
      rw [h2, List.mem_cons]
      constructor
      · rintro (hx | hx) <;> simp [hx]
      · rintro (hx | rfl | hx) <;> simp [*]
    · rw [if_neg h]
      obtain ⟨h1, h2, h3⟩ := ih (held ++ [r])
      refine ⟨(List.prefix_append held [r]).trans h1, ?_, ?_⟩
      · intro x
        rw [h2]
        simp [or_assoc]
      · intro hn
        apply h3
        rw [List.nodup_append]
        refine ⟨hn, by simp, ?_⟩
        intro a ha b hb
        simp at hb
        subst hb
        intro hab
        exact h (hab ▸ ha)

/-- The strings `ss` parse, one by one, to the roles `rs`. -/
def ParsesTo (ss : List GoString) (rs : List Role) : Prop := ss.map newRole = rs.map .ok

theorem parseRoles_iff {ss rs} : User.parseRoles ss = some rs ↔ ParsesTo ss rs := by
  unfold ParsesTo
  induction ss generalizing rs with
  | nil => cases rs <;> simp [User.parseRoles]
  | cons s ss ih =>
    unfold User.parseRoles
    cases rs with
    | nil => simp only [List.map_cons, List.map_nil]; split <;> simp
    | cons r rs =>
      rw [List.map_cons, List.map_cons, List.cons.injEq, ← ih]
      split
      · rename_i r' rs' hr hrs; simp [hr, hrs]
      · rename_i hno
        simp only [reduceCtorEq, false_iff, not_and]
        exact fun h1 h2 => hno _ _ h1 h2

/-- C37: `AddRoles` fails exactly when one of the strings is blank; otherwise the user's roles are those held before, in
order, followed by the new ones in the order given, without repetitions; so each role is held once if that was so before. -/
theorem C37_add_roles (now : Clock) (ss : List GoString) (u : User) :
    ((∃ e, u.addRoles now ss = .err e) ↔ ∃ s ∈ ss, Blank s) ∧ u.addRoles now ss ≠ .panic ∧
    ∀ u', u.addRoles now ss = .ok u' → ∃ rs, ParsesTo ss rs ∧
      u'.roles = u.roles ++ (rs.filter fun r => !u.roles.contains r).eraseDups ∧
      (∀ r, r ∈ u'.roles ↔ r ∈ u.roles ∨ r ∈ rs) ∧ (u.roles.Nodup → u'.roles.Nodup) := by
  refine ⟨?_, ?_, ?_⟩
  · induction ss generalizing now u with
    | nil => simp [User.addRoles]
    | cons s ss ih =>
      unfold User.addRoles
      have h := C37_add_role now s u
      cases hr : u.addRole now s with
      | err e => simp [h.1.1 ⟨e, hr⟩]
      | panic => exact absurd hr h.2.1
      | ok u1 =>
        have hb : ¬ Blank s := fun hb => by obtain ⟨e, he⟩ := h.1.2 hb; rw [hr] at he; simp at he
        simp [ih, hb]
  · induction ss generalizing now u with
    | nil => simp [User.addRoles]
    | cons s ss ih =>
      unfold User.addRoles
      have h := C37_add_role now s u
      cases hr : u.addRole now s with
      | err e => simp
      | panic => exact absurd hr h.2.1
      | ok u1 => exact ih _ u1
  · intro u' h
    obtain ⟨rs, n, t, hrs, rfl⟩ := User.addRoles_ok' h
    exact ⟨rs, parseRoles_iff.1 hrs, dedupRoles_eq u.roles rs, (dedup_spec u.roles rs).2⟩

/-- C37: `HasRole` tells whether the role the string parses to is held; `HasRoles` whether any is. -/
theorem C37_has_role (s : GoString) (u : User) :
    (u.hasRole s = true ↔ ∃ r, newRole s = .ok r ∧ r ∈ u.roles) ∧ (u.hasRoles = true ↔ ∃ r, r ∈ u.roles) := by
  constructor
  · unfold User.hasRole
    by_cases h0 : u.roles.length = 0
    · have : u.roles = [] := List.eq_nil_of_length_eq_zero h0
      simp [this]
    · rw [if_neg h0]
      cases hr : newRole s with
      | err e => simp
      | panic => simp
      | ok r => simp only [any_role_iff, Res.ok.injEq]; simp
  · unfold User.hasRoles
    cases u.roles with
    | nil => simp
    | cons r rs => simp

/-- C37: in a database created by this package and changed only through it, no user holds a role twice. -/
theorem C37_no_duplicate_roles [Ext] {db : Database} (h : Reach Created db) : ∀ u ∈ db.users, u.roles.Nodup := by
  refine reach_forall_users (P := fun u => u.roles.Nodup) ?_ ?_ ?_ h
  · intro d hd; rw [created_users hd]; simp
  · intro nd req db p e roles name _ _
    exact (dedup_spec [] roles).2.2 List.nodup_nil
  · intro nd req db c u u' _ hu hop
    rw [hop.same.roles]; exact hu

/-- C37: the roles claim lists the held roles in order; a role in it that was parsed from a string without leading `/` is
found again by `HasRole`. -/
theorem C37_roles_claim {u : User} :
    u.rolesClaim = u.roles.map Role.toStr ∧
    ∀ s r, newRole s = .ok r → r ∈ u.roles → (trimSpace s).head? ≠ some 47 →
      r.toStr ∈ u.rolesClaim ∧ u.hasRole r.toStr = true := by
  have h : u.rolesClaim = u.roles.map Role.toStr := by
    unfold User.rolesClaim
    cases u.roles <;> simp
  refine ⟨h, fun s r hr hm hs => ⟨by rw [h]; exact List.mem_map_of_mem hm, ?_⟩⟩
  exact (C37_has_role r.toStr u).1.2 ⟨r, (C36_role_prints_back hr hs).2, hm⟩

/-- A user with two roles. -/
def twoRoles : User := { User.zero with roles := [⟨gs! "viewer", []⟩, ⟨gs! "admin", gs! "org"⟩] }

example : twoRoles.hasRole (gs! " org/admin ") = true ∧ twoRoles.hasRole (gs! "admin") = false ∧
    twoRoles.rolesClaim = [gs! "viewer", gs! "org/admin"] ∧
    (match twoRoles.addRoles (fun _ => GoTime.zero) [gs! "viewer", gs! "a/b", gs! "a/b"] with
      | .ok u => u.roles == twoRoles.roles ++ [⟨gs! "b", gs! "a"⟩] && u.revision == 1
      | _ => false) = true := by
  decide +kernel

/-- C37: the premise on the leading `/` is needed: the claim of a user with the role `/org/admin` lists `org/admin`, but the
user does not have the role `org/admin`. -/
theorem C37_claim_confusion :
    (match User.zero.addRole (fun _ => GoTime.zero) (gs! "/org/admin") with
      | .ok u => u.rolesClaim == [gs! "org/admin"] && !u.hasRole (gs! "org/admin") && u.hasRole (gs! "/org/admin")
      | _ => false) = true := by
  decide +kernel

/-! ## C38 -/

/-- C38: what `ParseName` returns: with exactly one comma, the trimmed parts as last and first name; otherwise, with exactly
one space, the trimmed parts as first and last name; otherwise an error. -/
theorem C38_parse (s : GoString) :
    (∀ a b, (44 : UInt8) ∉ a → (44 : UInt8) ∉ b → s = a ++ 44 :: b →
      parseName s = .ok ⟨trimSpace b, trimSpace a, [], [], false, false, false, false, false⟩) ∧
    (s.count 44 ≠ 1 → ∀ a b, (32 : UInt8) ∉ a → (32 : UInt8) ∉ b → s = a ++ 32 :: b →
      parseName s = .ok ⟨trimSpace a, trimSpace b, [], [], false, false, false, false, false⟩) ∧
    (s.count 44 ≠ 1 → s.count 32 ≠ 1 → ∃ e, parseName s = .err e) := by
  have hone : ∀ (c : UInt8) (a b : GoString), c ∉ a → c ∉ b → (a ++ c :: b).count c = 1 := by
    intro c a b ha hb
    rw [List.count_append, List.count_cons, List.count_eq_zero.2 ha, List.count_eq_zero.2 hb]
    simp
  have htwo : ∀ (c : UInt8), s.count c ≠ 1 → ∀ a b, splitByte c s ≠ [a, b] := by
    intro c hc a b h
    obtain ⟨rfl, ha, hb⟩ := splitByte_two.1 h
    exact hc (hone c a b ha hb)
  refine ⟨?_, ?_, ?_⟩
  · intro a b ha hb hs
    have h1 : containsByte 44 s = true := containsByte_mem_iff.2 (by simp [hs])
    have h2 := splitByte_two.2 ⟨hs, ha, hb⟩
    unfold parseName
    simp only [h1, h2, if_true]
    rfl
  · intro hc a b ha hb hs
    have h1 : containsByte 32 s = true := containsByte_mem_iff.2 (by simp [hs])
    have h2 := splitByte_two.2 ⟨hs, ha, hb⟩
    unfold parseName
    simp only [h1, h2, if_true]
    split
    · split
      · rename_i x y hxy; exact absurd hxy (htwo 44 hc x y)
      · rfl
    · rfl
  · intro hc hc'
    refine ⟨.withV .parseNameFailed [s] [], ?_⟩
    unfold parseName
    dsimp only
    repeat' split
    all_goals first
      | rfl
      | (rename_i x y hxy; first | exact absurd hxy (htwo 44 hc x y) | exact absurd hxy (htwo 32 hc' x y))

theorem count_one_split {c : UInt8} {s : GoString} (hc : s.count c = 1) : ∃ a b, c ∉ a ∧ c ∉ b ∧ s = a ++ c :: b := by
  rcases sep_cases c s with h | ⟨a, b, ha, hs⟩
  · rw [List.count_eq_zero.2 h] at hc; simp at hc
  · refine ⟨a, b, ha, ?_, hs⟩
    rw [hs, List.count_append, List.count_cons, List.count_eq_zero.2 ha] at hc
    rw [if_pos (by simp)] at hc
    exact List.count_eq_zero.1 (by omega)

/-- C38: `ParseName` accepts exactly the strings with one comma or one space, and never panics. -/
theorem C38_accepted_iff (s : GoString) :
    ((∃ n, parseName s = .ok n) ↔ s.count 44 = 1 ∨ s.count 32 = 1) ∧ parseName s ≠ .panic := by
  obtain ⟨h1, h2, h3⟩ := C38_parse s
  by_cases hc : s.count 44 = 1
  · obtain ⟨a, b, ha, hb, hs⟩ := count_one_split hc
    simp [h1 a b ha hb hs, hc]
  · by_cases hc' : s.count 32 = 1
    · obtain ⟨a, b, ha, hb, hs⟩ := count_one_split hc'
      simp [h2 hc a b ha hb hs, hc']
    · obtain ⟨e, he⟩ := h3 hc hc'
      simp [he, hc, hc']

/-- C38: a name with both parts prints as `Last, First`. -/
theorem C38_prints {n : Name} (hl : n.last ≠ []) (hf : n.first ≠ []) : n.fullName = n.last ++ gs! ", " ++ n.first := by
  simp [Name.fullName, hl, hf]

theorem trimSpace_space_cons {s : GoString} (h : trimSpace s = s) : trimSpace (32 :: s) = s := by
  obtain ⟨m, hm, he⟩ := dropPats_blank (ps := [[32]]) (by decide) s (32 :: s).length (by simp)
  have hl : trimLeft (32 :: s) = s := by
    unfold trimLeft
    exact he.trans (dropPats_of_clear spaceRunes_ne (trimSpace_eq_self_iff.1 h).1 _)
  unfold trimSpace
  rw [hl, trimRight_of_clear (trimSpace_eq_self_iff.1 h).2]

/-- C38: parsing the full name of a name with trimmed, non-empty, comma-free parts gives the two parts back. -/
theorem C38_reparse {n : Name} (hl : n.last ≠ []) (hf : n.first ≠ []) (hlc : (44 : UInt8) ∉ n.last)
    (hfc : (44 : UInt8) ∉ n.first) (hlt : trimSpace n.last = n.last) (hft : trimSpace n.first = n.first) :
    parseName n.fullName = .ok ⟨n.first, n.last, [], [], false, false, false, false, false⟩ := by
  have hs : n.fullName = n.last ++ 44 :: (32 :: n.first) := by
    rw [C38_prints hl hf, List.append_assoc]; rfl
  rw [(C38_parse n.fullName).1 n.last (32 :: n.first) hlc (by simp [hfc]) hs, hlt, trimSpace_space_cons hft]

/-- C38: so parsing is stable: a parsed name with non-empty, comma-free parts survives printing and parsing. -/
theorem C38_stable {s : GoString} {n : Name} (h : parseName s = .ok n) (hl : n.last ≠ []) (hf : n.first ≠ [])
    (hlc : (44 : UInt8) ∉ n.last) (hfc : (44 : UInt8) ∉ n.first) : parseName n.fullName = .ok n := by
  have key : ∃ a b, n = ⟨trimSpace b, trimSpace a, [], [], false, false, false, false, false⟩ := by
    obtain ⟨h1, h2, h3⟩ := C38_parse s
    by_cases hc : s.count 44 = 1
    · obtain ⟨a, b, ha, hb, hs⟩ := count_one_split hc
      rw [h1 a b ha hb hs, Res.ok.injEq] at h
      exact ⟨a, b, h.symm⟩
    · by_cases hc' : s.count 32 = 1
      · obtain ⟨a, b, ha, hb, hs⟩ := count_one_split hc'
        rw [h2 hc a b ha hb hs, Res.ok.injEq] at h
        exact ⟨b, a, h.symm⟩
      · obtain ⟨e, he⟩ := h3 hc hc'
        rw [he] at h; simp at h
  obtain ⟨a, b, rfl⟩ := key
  exact C38_reparse hl hf hlc hfc (trimSpace_idem a) (trimSpace_idem b)

example : parseName (gs! "Smith , John Paul") =
      .ok ⟨gs! "John Paul", gs! "Smith", [], [], false, false, false, false, false⟩ ∧
    parseName (gs! "John Smith") = .ok ⟨gs! "John", gs! "Smith", [], [], false, false, false, false, false⟩ ∧
    (match parseName (gs! "John") with | .err _ => true | _ => false) = true := by
  decide +kernel

/-- C38: without the premise the name changes: two commas, but one space. -/
theorem C38_comma_in_part :
    parseName (gs! "a,b, c") = .ok ⟨gs! "a,b,", gs! "c", [], [], false, false, false, false, false⟩ ∧
    parseName (⟨gs! "a,b,", gs! "c", [], [], false, false, false, false, false⟩ : Name).fullName ≠
      .ok ⟨gs! "a,b,", gs! "c", [], [], false, false, false, false, false⟩ := by
  decide +kernel

end GoIdentity
