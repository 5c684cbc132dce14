import Verif.Lemmas.Times
import Verif.Spec.Toy
/-!
# The recorded times are in order: C73

If the clock never goes back, the times a database records are ordered as the events were.
-/
set_option linter.unusedSectionVars false
namespace GoIdentity
open Toy

/-- C73: if the clock never goes back (in any order of instants, in particular `GoTime.le`), then at any moment the times of
every user are in order and within the user's life, and no user is newer than the database, nor the database than the last
call. -/
theorem C73_times_in_order [Ext] {le : GoTime → GoTime → Prop} (ho : TimeOrder le) {t : GoTime} {db : Database}
    (h : ReachClock le t db) :
    le db.lastModified t ∧ ∀ u ∈ db.users, UserTimes le u ∧ le u.lastModified db.lastModified := by
  induction h with
  | init hnone hf h =>
    rw [created_lastModified hnone h]
    refine ⟨ho.refl _, fun u hu => ?_⟩
    rw [created_users ⟨_, _, _, _, hnone, h⟩] at hu
    simp at hu
  | @step t db h c nd fs req hf ht ih =>
    obtain ⟨ih1, ih2⟩ := ih
    have hnow : le db.lastModified (nd.now 0) := ho.trans ih1 ht
    rcases exec_spec c nd db fs req with h0 | ⟨db', m, h0⟩
    · rw [h0.db_eq]; exact ⟨ho.trans hnow (hf.commit 0), ih2⟩
    · have hl : (exec c nd db fs req).db.lastModified = nd.commitTime := by rw [h0.db_eq]; rfl
      rw [hl]
      refine ⟨ho.refl _, ?_⟩
      refine exec_forall_users (P := fun u => UserTimes le u ∧ le u.lastModified nd.commitTime)
        (fun u hu => ⟨(ih2 u hu).1, ho.trans (ih2 u hu).2 (ho.trans hnow (hf.commit 0))⟩)
        (fun p e roles name hp _ => ⟨newUserOf_times hf hp, hf.commit _⟩)
        (fun u u' hu _ hop => ⟨hop.times ho (ih2 u hu).1 hf (ho.trans (ih2 u hu).2 hnow), ?_⟩)
      cases hop <;> exact hf.commit _

/-- A clock that goes on by a nanosecond at each reading, starting a second later. -/
def ndLater : Nondet :=
  { nd2 with now := fun i => { nd.now 0 with sec := 6, nano := i }, commitTime := { nd.now 0 with sec := 7 } }

theorem ndLater_forward : Forward GoTime.le ndLater where
  now h := by unfold GoTime.le; simp [ndLater, List.cons_le_cons_iff, Nat.lt_or_eq_of_le h]
  commit i := by unfold GoTime.le; simp [ndLater, List.cons_le_cons_iff, nd]

theorem nd_forward : Forward GoTime.le nd := ⟨fun _ => GoTime.le_order.refl _, fun _ => GoTime.le_order.refl _⟩

/-- Joe is added, then changes the password a second later. -/
example : ReachClock GoTime.le ndLater.commitTime (exec .changeUserPassword ndLater db1 fs2
    { user := { reqJoe.user with oldPassword := gs! "password1", password := gs! "password3" } }).db :=
  .step (.step (.init (nd := nd) (fs := fs0) (fp := path) (fs' := fs1) rfl nd_forward rfl) .addUser nd fs1 reqJoe nd_forward
    (GoTime.le_order.refl _)) .changeUserPassword ndLater fs2 _ ndLater_forward (by unfold GoTime.le; decide +kernel)

/-- The old password is expired and disabled by the next two readings, the user modified by the third and the database later. -/
example : let db := (exec .changeUserPassword ndLater db1 fs2
    { user := { reqJoe.user with oldPassword := gs! "password1", password := gs! "password3" } }).db
    db.users.map (fun u => (u.passwords.map fun p => (p.createdAt, p.expiredAt, p.disabledAt), u.lastModified)) =
      [([(ndLater.now 0, .zero, .zero), (nd.now 2, ndLater.now 1, ndLater.now 2)], ndLater.now 3)] ∧
    db.lastModified = ndLater.commitTime := by
  decide +kernel

end GoIdentity
