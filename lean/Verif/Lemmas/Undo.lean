import Verif.Lemmas.Complete
/-!
# Adding and deleting cancel out: lemmas for C98
-/
set_option linter.unusedSectionVars false
namespace GoIdentity
variable [Ext]

/-- The same account is addressed after it was changed in other respects. -/
theorem validate_set {db db' : Database} (h : Inv db) (h' : Inv db') {un em : GoString} {i : Nat} {u u' : User}
    (hv : db.validateUserIdentity un em = .ok (i, u)) (hs : db'.users = db.users.set i u') (hn : u'.username = u.username)
    (he : u'.emailAddresses = u.emailAddresses) (hid : u'.id = u.id) : db'.validateUserIdentity un em = .ok (i, u') := by
  obtain ⟨h1, h2, v, hvm, h3, h4⟩ := (validate_iff h).1 hv
  have hlt := (List.getElem?_eq_some_iff.1 h1).1
  rw [validate_iff h', hs]
  refine ⟨by rw [List.getElem?_set_self hlt], ?_, ?_⟩
  · unfold NamesUser at h2 ⊢; rw [hn]; exact h2
  · obtain ⟨j, hj⟩ := List.getElem?_of_mem hvm
    by_cases hij : i = j
    · subst hij
      rw [h1] at hj; cases hj
      refine ⟨u', List.mem_set hlt _, ?_, rfl⟩
      unfold MailsUser at h3 ⊢; rw [he]; exact h3
    · refine ⟨v, List.mem_of_getElem? (i := j) (by rw [List.getElem?_set_ne hij]; exact hj), h3, by rw [hid]; exact h4⟩

theorem filter_last {α : Type} {l : List α} {k : α} {p : α → Bool} (hl : ∀ x ∈ l, p x = true) (hk : p k = false) :
    (l ++ [k]).filter p = l := by
  rw [List.filter_append, List.filter_eq_self.2 hl]
  simp [hk]

theorem upd_undo {α : Type} (f : GoString → Option α) (k : GoString) (v : Option α) (h : f k = none) :
    upd (upd f k v) k none = f := by
  funext x
  unfold upd
  by_cases hx : x = k
  · simp [hx, h]
  · simp [hx]

/-- The account at position `i` is found again by another request that names it. -/
theorem addressed_same {db : Database} (h : Inv db) {req req' : Request} {i : Nat} {u : User}
    (hv : db.validateUserIdentity req.user.username req.user.email = .ok (i, u)) (ha : Addressed db req' u) :
    db.validateUserIdentity req'.user.username req'.user.email = .ok (i, u) := by
  obtain ⟨j, hj⟩ := (addressed_iff h).2 ha
  have h1 := ((validate_iff h).1 hv).1
  have h2 := ((validate_iff h).1 hj).1
  have h3 := ((validate_iff h).1 hv).2.1
  have h4 := ((validate_iff h).1 hj).2.1
  have : db.validateUserIdentity req'.user.username req'.user.email = .ok (i, u) := by
    rw [validate_iff h]
    exact ⟨h1, h4, ((validate_iff h).1 hj).2.2⟩
  exact this

theorem incr64_twice (n : Int) : User.incr64 (User.incr64 n) = n + 2 ∨ User.incr64 (User.incr64 n) = n + 2 - 2 ^ 64 := by
  unfold User.incr64
  split <;> split <;> omega

theorem incr_twice (n : Nat) : ((n + 1) % 2 ^ 64 + 1) % 2 ^ 64 = (n + 2) % 2 ^ 64 := by omega

end GoIdentity
