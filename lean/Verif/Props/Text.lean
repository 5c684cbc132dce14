import Verif.Lemmas.TextClosed
import Verif.Props.Storage
/-!
# Text in, text out: C65
-/
namespace GoIdentity
open Toy

/-- C65: if the strings of every request and UUID are valid UTF-8 and the libraries return valid UTF-8, every string ever stored
is valid UTF-8: trimming, splitting and joining never cut a character in half. -/
theorem C65_stored_text [Ext] (hE : ExtText) {db : Database} (h : ReachText db) : db.toDBData.Strings := reach_text hE h

/-- C65: a single call on any database with valid strings keeps them so. -/
theorem C65_call_keeps_text [Ext] (hE : ExtText) {c : Call} {nd : Nondet} {db : Database} {fs : FS} {req : Request}
    (hn : nd.Text) (hr : req.Text) (h : db.toDBData.Strings) : (exec c nd db fs req).db.toDBData.Strings :=
  exec_text hE hn hr h

/-- C65: whatever bytes a file holds, the strings of a database opened from it are valid UTF-8. -/
theorem C65_opened_text [Ext] (hE : ExtText) {nd : Nondet} {fs fs' : FS} {fp : GoString} {db : Database}
    (h : newDatabase nd fs fp = (.ok db, fs')) : db.toDBData.Strings := opened_text hE h

/-- C65: so in such a history reopening always works (C45) with no condition on what is stored. -/
theorem C65_reopen [Ext] (hE : ExtText) {db : Database} (h : ReachText db) {c : Call} {nd : Nondet} {fs : FS} {req : Request}
    (hnd : nd.Proper) (hfresh : c = .addUser → ∃ id ∈ nd.ids.take 10, ∀ u ∈ db.users, u.id ≠ id) (htn : nd.Text)
    (htr : req.Text) (hm : c.mutates = true) (hs : (exec c nd db fs req).Succeeded) (hp : (c.target db).head? ≠ some 126)
    {nd' : Nondet} (hst : nd'.statErr = false) (hrd : nd'.readErr = false) :
    ∃ db', newDatabase nd' (exec c nd db fs req).fs (c.target db) = (.ok db', (exec c nd db fs req).fs) ∧
      db'.toDBData = (exec c nd db fs req).db.toDBData ∧ db'.path = c.target db ∧
      ∀ (c' : Call) (nd'' : Nondet) (fs'' : FS) (req' : Request), c'.mutates = false →
        (exec c' nd'' db' fs'' req').out = (exec c' nd'' (exec c nd db fs req).db fs'' req').out ∧
        (exec c' nd'' db' fs'' req').req = (exec c' nd'' (exec c nd db fs req).db fs'' req').req :=
  C45_reopen h.proper hnd hfresh hm hs hp (exec_text hE htn htr (reach_text hE h)) hst hrd

/-! ### A world of text -/

theorem toy_text : ExtText := by
  refine ⟨?_, by decide⟩
  · intro s es h
    have h : (none : Option (List PgpEntity)) = some es := h
    cases h

/-- Zoë Łukasz registers, with blanks around the name, one of them U+3000. -/
def reqZoe : Request :=
  { user := { username := gs! "zoë", email := gs! "zoe@example.com", password := gs! "password1",
              fullName := gs! " 　Łukasz, Zoë ", roles := [gs! "café/gérant"] } }

/-- The database before that. -/
def db65 : Database :=
  match newDatabase nd fs0 path with
  | (.ok d, _) => d
  | _ => Database.empty []

example : ReachText (exec .addUser nd db65 fs1 reqZoe).db ∧
    (exec .addUser nd db65 fs1 reqZoe).Succeeded ∧
    ((exec .addUser nd db65 fs1 reqZoe).db.users.map fun u => (u.name.map Name.fullName, u.roles)) =
      [(some (gs! "Łukasz, Zoë"), [⟨gs! "gérant", gs! "café"⟩])] := by
  refine ⟨ReachText.step (ReachText.init nd fs0 path _ nd_proper (by rfl))
    .addUser nd fs1 reqZoe nd_proper
    (fun _ => ⟨List.replicate 36 98, by decide, by decide +kernel⟩) ⟨by decide +kernel, by decide +kernel⟩
    ⟨by decide +kernel, by decide +kernel, by decide +kernel, by decide +kernel, by decide +kernel, by decide +kernel,
      by decide +kernel, by decide +kernel⟩, ?_, ?_⟩
  · unfold Result.Succeeded; decide +kernel
  · decide +kernel

/-- The condition on requests matters: a role that is not valid UTF-8 is stored as it is. -/
example : ¬ (exec .addUser nd db0 fs1 { user := { reqJoe.user with roles := [[0xC3]] } }).db.toDBData.Strings := by
  intro h
  have h1 : (exec .addUser nd db0 fs1 { user := { reqJoe.user with roles := [[0xC3]] } }).db.users.all
    (fun u => u.roles.all fun r => validUTF8 r.name) = false := by decide +kernel
  have h2 : (exec .addUser nd db0 fs1 { user := { reqJoe.user with roles := [[0xC3]] } }).db.users.all
    (fun u => u.roles.all fun r => validUTF8 r.name) = true := by
    rw [List.all_eq_true]
    intro u hu
    rw [List.all_eq_true]
    exact fun r hr => ((h.users u hu).roles r hr).name
  rw [h1] at h2
  cases h2

end GoIdentity
