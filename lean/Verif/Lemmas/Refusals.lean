import Verif.Lemmas.Complete
import Verif.Props.Success
import Verif.Props.Total
import Verif.Spec.Refusals
/-!
# The tables of checks say how each call ends
-/
set_option linter.unusedSectionVars false
namespace GoIdentity
variable [Ext]

theorem Decides.no {c : Prop} {o' : Outcome} {rs : List Row} {o : Outcome} (h : ¬ c) (t : Decides rs o) :
    Decides (endsIf c o' :: rs) o := .later (fun _ hx => h hx.1) t

theorem Decides.nor {c : Prop} {e : GoErr} {rs : List Row} {o : Outcome} (h : ¬ c) (t : Decides rs o) :
    Decides (refuse c e :: rs) o := .later (fun _ hx => h hx.1) t

theorem Decides.yes {c : Prop} {o : Outcome} {rs : List Row} (h : c) : Decides (endsIf c o :: rs) o := .here ⟨h, rfl⟩

theorem Decides.yesr {c : Prop} {e : GoErr} {rs : List Row} (h : c) : Decides (refuse c e :: rs) (.fail e) := .here ⟨h, rfl⟩

/-- No check of the table applies. -/
def Passes (rs : List Row) : Prop := ∀ r ∈ rs, ∀ x, ¬ r x

theorem Passes.nil : Passes [] := fun _ h => nomatch h

theorem Passes.cons {r : Row} {rs : List Row} (h : ∀ x, ¬ r x) (t : Passes rs) : Passes (r :: rs) := by
  intro r' hr'
  rcases List.mem_cons.1 hr' with rfl | hr'
  · exact h
  · exact t r' hr'

theorem Passes.refuse {c : Prop} {e : GoErr} {rs : List Row} (h : ¬ c) (t : Passes rs) : Passes (refuse c e :: rs) :=
  .cons (fun _ hx => h hx.1) t

theorem Passes.endsIf {c : Prop} {o : Outcome} {rs : List Row} (h : ¬ c) (t : Passes rs) : Passes (endsIf c o :: rs) :=
  .cons (fun _ hx => h hx.1) t

theorem Passes.append {rs rs' : List Row} (h : Passes rs) (t : Passes rs') : Passes (rs ++ rs') := by
  intro r hr
  rcases List.mem_append.1 hr with hr | hr
  · exact h r hr
  · exact t r hr

theorem Passes.then {rs rs' : List Row} {o : Outcome} (h : Passes rs) (t : Decides rs' o) : Decides (rs ++ rs') o := by
  induction rs with
  | nil => exact t
  | cons r rs ih => exact .later (h r (by simp)) (ih fun r' hr' => h r' (by simp [hr']))

theorem Decides.left {rs rs' : List Row} {o : Outcome} (h : Decides rs o) : Decides (rs ++ rs') o := by
  induction h with
  | here h => exact .here h
  | later h _ ih => exact .later h ih

theorem decides_done : Decides Checks.done .success := .yes trivial

theorem Decides.unique {rs : List Row} (hf : ∀ r ∈ rs, ∀ x y, r x → r y → x = y) {o o' : Outcome} (h : Decides rs o)
    (h' : Decides rs o') : o = o' := by
  induction h with
  | @here r rs o h =>
    cases h' with
    | here h' => exact hf r (by simp) _ _ h h'
    | later h' _ => exact absurd h (h' _)
  | @later r rs o h _ ih =>
    cases h' with
    | here h' => exact absurd h' (h _)
    | later _ t => exact ih (fun r' hr' => hf r' (by simp [hr'])) t

theorem addressed_unique {db : Database} (h : Inv db) {req : Request} {u v : User} (hu : Addressed db req u)
    (hv : Addressed db req v) : u = v := by
  obtain ⟨i, hi⟩ := (addressed_iff h).2 hu
  obtain ⟨j, hj⟩ := (addressed_iff h).2 hv
  rw [hi] at hj
  cases hj
  rfl

/-- The identity of a request. -/
theorem identity_spec {db : Database} (h : Inv db) (req : Request) (w : GoErr → GoErr) :
    (∃ e, db.validateUserIdentity req.user.username req.user.email = .error e ∧
      Decides (Checks.identity db req w) (.fail (w e))) ∨
    (∃ i u, db.validateUserIdentity req.user.username req.user.email = .ok (i, u) ∧ Addressed db req u ∧
      Passes (Checks.identity db req w)) := by
  unfold Checks.identity
  cases hn : db.getUserByUsername req.user.username with
  | none =>
    left
    refine ⟨.std .databaseUserNotFound, by unfold Database.validateUserIdentity; rw [hn], .yesr ?_⟩
    intro u hu hc
    obtain ⟨i, hi⟩ := List.getElem?_of_mem hu
    have := (getUserByUsername_iff h).2 ⟨hi, hc⟩
    rw [hn] at this; simp at this
  | some iu =>
    obtain ⟨i, u⟩ := iu
    obtain ⟨h1, h2⟩ := (getUserByUsername_iff h).1 hn
    have n1 : ¬ ∀ u ∈ db.users, ¬ NamesUser req.user.username u := fun hc => hc u (List.mem_of_getElem? h1) h2
    cases hm : db.getUserByEmailAddress req.user.email with
    | none =>
      left
      refine ⟨.std .databaseUserNotFound, by unfold Database.validateUserIdentity; rw [hn]; dsimp only; rw [hm],
        .nor n1 (.yesr ?_)⟩
      intro v hv hc
      obtain ⟨j, hj⟩ := List.getElem?_of_mem hv
      have := (getUserByEmailAddress_iff h).2 ⟨hj, hc⟩
      rw [hm] at this; simp at this
    | some jv =>
      obtain ⟨j, v⟩ := jv
      obtain ⟨h3, h4⟩ := (getUserByEmailAddress_iff h).1 hm
      have n2 : ¬ ∀ u ∈ db.users, ¬ MailsUser req.user.email u := fun hc => hc v (List.mem_of_getElem? h3) h4
      cases hv : db.validateUserIdentity req.user.username req.user.email with
      | ok x =>
        obtain ⟨i', u'⟩ := x
        have ha := (addressed_iff h).1 ⟨i', hv⟩
        exact .inr ⟨i', u', rfl, ha, .refuse n1 (.refuse n2 (.refuse (fun hc => hc u' ha) .nil))⟩
      | error e =>
        left
        have he : e = .std .databaseInvalidUser := by
          unfold Database.validateUserIdentity at hv
          rw [hn] at hv; dsimp only at hv; rw [hm] at hv; dsimp only at hv
          split at hv
          · cases hv; rfl
          · simp at hv
        subst he
        refine ⟨_, rfl, .nor n1 (.nor n2 (.yesr ?_))⟩
        intro x hx
        obtain ⟨k, hk⟩ := (addressed_iff h).2 hx
        rw [hv] at hk; simp at hk

/-- Writing the file. -/
theorem write_spec (nd : Nondet) (fs : FS) (db : Database) (w : GoErr → GoErr) :
    (∃ e, (db.commit nd fs).2.2 = some e ∧ Decides (Checks.write nd fs db.path w) (.fail (w e))) ∨
    ((db.commit nd fs).2.2 = none ∧ Passes (Checks.write nd fs db.path w)) := by
  unfold Database.commit Checks.write
  dsimp only
  generalize marshalDB _ = data
  unfold writeFile
  by_cases h1 : db.path = []
  · rw [if_pos (.inl h1)]
    left
    refine ⟨_, rfl, ?_⟩
    have : Decides [refuse (db.path = []) (w (.withE .databaseCommit [db.path] (.ext (gs! "open : no such file or directory"))))]
        (.fail (w (.withE .databaseCommit [db.path] (.ext (gs! "open : no such file or directory"))))) := .yesr h1
    rw [if_pos h1]
    rw [h1] at this ⊢
    exact this.left
  · by_cases h2 : fs db.path = some .dir
    · rw [if_pos (.inr h2), if_neg h1]
      exact .inl ⟨_, rfl, .nor h1 (.yesr h2)⟩
    · rw [if_neg (fun h => h.elim h1 h2)]
      cases h3 : nd.io with
      | ok => exact .inr ⟨rfl, .refuse h1 (.refuse h2 (.refuse (by simp) (.refuse (by simp) .nil)))⟩
      | openErr => exact .inl ⟨_, rfl, .nor h1 (.nor h2 (.yesr rfl))⟩
      | writeErr n => exact .inl ⟨_, rfl, .nor h1 (.nor h2 (.nor (by simp) (.yesr ⟨n, rfl⟩)))⟩

theorem finish_decides (nd : Nondet) (fs : FS) (db : Database) (req : Request) (w : GoErr → GoErr) :
    Decides (Checks.write nd fs db.path w ++ Checks.done) (db.finish nd fs req w).out := by
  unfold Database.finish
  rcases write_spec nd fs db w with ⟨e, h1, h2⟩ | ⟨h1, h2⟩
  · generalize db.commit nd fs = x at h1
    obtain ⟨a, b, c⟩ := x
    dsimp only at h1
    subst h1
    exact h2.left
  · generalize db.commit nd fs = x at h1
    obtain ⟨a, b, c⟩ := x
    dsimp only at h1
    subst h1
    exact h2.then decides_done

/-- Hashing a password. -/
theorem hashing_spec (nd : Nondet) (now : Clock) (pw : GoString) (w : GoErr → GoErr) :
    (∃ e, newPassword now (nd.salts 0) pw = .err e ∧ Decides (Checks.hashing nd pw w) (.fail (w e))) ∨
    ((∃ p, newPassword now (nd.salts 0) pw = .ok p) ∧ Passes (Checks.hashing nd pw w)) := by
  unfold Checks.hashing
  have hb : trimSpace pw = [] ↔ Blank pw := trimSpace_nil_iff
  by_cases h1 : trimSpace pw = []
  · refine .inl ⟨.std .passwordEmpty, ?_, .yesr (hb.1 h1)⟩
    unfold newPassword newPasswordWithOptions
    dsimp only
    rw [if_pos h1]
  · have h1' : ¬ Blank pw := fun h => h1 (hb.2 h)
    cases h2 : nd.salts 0 with
    | none =>
      refine .inl ⟨.withE .passwordGenerate [] (.ext (gs! "entropy")), ?_, .nor h1' (.yesr rfl)⟩
      unfold newPassword newPasswordWithOptions bcryptGenerate
      simp [h1]
    | some t => exact .inr ⟨newPassword_iff.2 ⟨h1, rfl⟩, .refuse h1' (.refuse (by simp) .nil)⟩

end GoIdentity
