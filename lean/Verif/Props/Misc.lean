import Verif.Lemmas.Open
import Verif.Lemmas.Path
import Verif.Model.CreditCard
import Verif.Spec.Toy
/-!
# Errors, credit cards, home-relative paths: C58, C59, C61
-/
namespace GoIdentity
open Toy

/-! ## C58 -/

theorem any_error {p : WArg → Bool} {v : List WArg} (h1 : ∀ x, p (.error x) = true) (h2 : p .nil = false)
    (h3 : p .value = false) : v.any p = true ↔ ∃ x, WArg.error x ∈ v := by
  rw [List.any_eq_true]
  constructor
  · rintro ⟨a, ha, h⟩
    cases a with
    | nil => rw [h2] at h; simp at h
    | value => rw [h3] at h; simp at h
    | error x => exact ⟨x, ha⟩
  · rintro ⟨x, hx⟩; exact ⟨_, hx, h1 x⟩

theorem any_nil {p : WArg → Bool} {v : List WArg} (h1 : ∀ x, p (.error x) = false) (h2 : p .nil = true)
    (h3 : p .value = false) : v.any p = true ↔ WArg.nil ∈ v := by
  rw [List.any_eq_true]
  constructor
  · rintro ⟨a, ha, h⟩
    cases a with
    | nil => exact ha
    | value => rw [h3] at h; simp at h
    | error x => rw [h1] at h; simp at h
  · intro hx; exact ⟨_, hx, h2⟩

/-- C58: `WithArgs` returns nil exactly if some argument is nil and none is an error. -/
theorem C58_nil_iff (e : StdErr) (v : List WArg) :
    withArgs e v = none ↔ WArg.nil ∈ v ∧ ∀ x, WArg.error x ∉ v := by
  unfold withArgs
  dsimp only
  split
  · rename_i h
    rw [Bool.and_eq_true, Bool.not_eq_true'] at h
    obtain ⟨h1, h2⟩ := h
    simp only [true_iff]
    refine ⟨(any_nil (fun _ => rfl) rfl rfl).1 h1, fun x hx => ?_⟩
    rw [← Bool.not_eq_true] at h2
    exact h2 ((any_error (fun _ => rfl) rfl rfl).2 ⟨x, hx⟩)
  · rename_i h
    simp only [reduceCtorEq, false_iff, not_and]
    intro hn he
    apply h
    rw [Bool.and_eq_true, Bool.not_eq_true', ← Bool.not_eq_true]
    refine ⟨(any_nil (fun _ => rfl) rfl rfl).2 hn, fun hc => ?_⟩
    obtain ⟨x, hx⟩ := (any_error (fun _ => rfl) rfl rfl).1 hc
    exact he x hx

/-- C58: otherwise the error carries the arguments and unwraps to the constant it was made from. -/
theorem C58_unwraps (e : StdErr) (v : List WArg) (h : WArg.nil ∉ v ∨ ∃ x, WArg.error x ∈ v) :
    ∃ r, withArgs e v = some r ∧ unwrapEnhanced r = e ∧ r.2 = v := by
  cases hr : withArgs e v with
  | none =>
    obtain ⟨h1, h2⟩ := (C58_nil_iff e v).1 hr
    rcases h with h | ⟨x, hx⟩
    · exact absurd h1 h
    · exact absurd hx (h2 x)
  | some r =>
    unfold withArgs at hr
    dsimp only at hr
    split at hr
    · simp at hr
    · simp only [Option.some.injEq] at hr
      subst hr
      exact ⟨_, rfl, rfl, rfl⟩

example : withArgs .addUser [.value, .error (.std .passwordEmpty)] ≠ none ∧ withArgs .addUser [.value, .nil] = none := by
  decide

/-! ## C59 -/

/-- The names of the associations, as listed in credit_card_association.go:20-58. -/
def associationNames : List GoString := [gs! "American Express", gs! "Diners Club", gs! "Discover", gs! "Mastercard", gs! "Visa"]

/-- C59: `AddAssociation` accepts exactly the five names, then sets the association of that name and nothing else; otherwise
it changes nothing. -/
theorem C59_add_association (s : GoString) (cc : CreditCard) :
    (s ∈ associationNames → ∃ a, a.name = s ∧ a ∈ creditCardAssociations ∧
      cc.addAssociation s = ({ cc with association := some a }, none)) ∧
    (s ∉ associationNames → ∃ e, cc.addAssociation s = (cc, some e)) := by
  unfold CreditCard.addAssociation
  constructor
  · intro h
    simp only [associationNames, List.mem_cons, List.not_mem_nil, or_false] at h
    rcases h with rfl | rfl | rfl | rfl | rfl
    · exact ⟨⟨gs! "American Express", [gs! "amex", gs! "AMEX"], gs! "CID", gs! "NNNN"⟩, rfl, by decide, rfl⟩
    · exact ⟨⟨gs! "Diners Club", [gs! "diners"], gs! "Security Code", gs! "NNN"⟩, rfl, by decide, rfl⟩
    · exact ⟨⟨gs! "Discover", [gs! "discover"], gs! "CID", gs! "NNN"⟩, rfl, by decide, rfl⟩
    · exact ⟨⟨gs! "Mastercard", [gs! "mastercard"], gs! "CVC2", gs! "NNN"⟩, rfl, by decide, rfl⟩
    · exact ⟨⟨gs! "Visa", [gs! "visa"], gs! "CVC2", gs! "NNN"⟩, rfl, by decide, rfl⟩
  · intro h
    have hf : creditCardAssociations.find? (fun a => s == a.name) = none := by
      rw [List.find?_eq_none]
      intro a ha he
      have hn : ∀ a ∈ creditCardAssociations, a.name ∈ associationNames := by decide
      exact h ((beq_iff_eq.1 he) ▸ hn a ha)
    rw [hf]
    exact ⟨_, rfl⟩

/-- C59: `AddIssuer` fails for every input, as the table of issuers is empty. -/
theorem C59_add_issuer_fails [Ext] (s : GoString) (cc : CreditCard) :
    ∃ e, cc.addIssuer creditCardIssuers s = (cc, some e) := ⟨_, rfl⟩

/-- The issuer has this name or alias, as it is or in lower case. -/
def Answers [Ext] (i : CreditCardIssuer) (s : GoString) : Prop :=
  s = i.name ∨ s = toLower i.name ∨ ∃ a ∈ i.aliases, s = a ∨ s = toLower a

theorem answersTo_iff [Ext] {i : CreditCardIssuer} {s : GoString} : i.answersTo s = true ↔ Answers i s := by
  unfold CreditCardIssuer.answersTo Answers
  simp only [Bool.or_eq_true, List.any_eq_true, beq_iff_eq, or_assoc]

/-- C59: with a table of issuers, `AddIssuer` would accept the names and aliases, as they are or in lower case, and nothing
else. The first issuer that answers to the name is stored, and nothing else changes. -/
theorem C59_add_issuer [Ext] (table : List CreditCardIssuer) (s : GoString) (cc : CreditCard) :
    ((cc.addIssuer table s).2 = none ↔ ∃ i ∈ table, Answers i s) ∧
    (∀ pre i post, table = pre ++ i :: post → Answers i s → (∀ j ∈ pre, ¬ Answers j s) →
      cc.addIssuer table s = ({ cc with issuer := some i }, none)) ∧
    ((¬ ∃ i ∈ table, Answers i s) → cc.addIssuer table s = (cc, some (.withV .creditCardUnsupportedIssuer [s] []))) := by
  unfold CreditCard.addIssuer
  cases hf : table.find? (CreditCardIssuer.answersTo s) with
  | none =>
    have hno : ¬ ∃ i ∈ table, Answers i s := by
      rintro ⟨i, hi, hc⟩
      exact List.find?_eq_none.1 hf i hi (answersTo_iff.2 hc)
    refine ⟨by simpa using hno, ?_, fun _ => rfl⟩
    rintro pre i post rfl hi _
    exact absurd ⟨i, by simp, hi⟩ hno
  | some i =>
    have hi : ∃ i ∈ table, Answers i s := ⟨i, List.mem_of_find?_eq_some hf, answersTo_iff.1 (List.find?_some hf)⟩
    refine ⟨by simpa using hi, ?_, fun h => absurd hi h⟩
    rintro pre j post rfl hj hpre
    rw [List.find?_append, List.find?_eq_none.2 (fun x hx h => hpre x hx (answersTo_iff.1 h)), Option.none_or,
      List.find?_cons_of_pos (answersTo_iff.2 hj), Option.some.injEq] at hf
    rw [hf]

example : (CreditCard.new.addAssociation (gs! "Visa")).2 = none ∧ (CreditCard.new.addAssociation (gs! "visa")).2 ≠ none := by
  decide

/-! ## C61 -/

/-- C61: a file at a path starting with `~` is never read: whether it exists decides only that the file at the expanded path
is read instead. -/
theorem C61_tilde_reads_elsewhere [Ext] {nd : Nondet} {fs fs' : FS} {rest home : GoString} {db : Database} {b : GoString}
    (hh : Ext.homeDir = some home) (hf : fs (126 :: rest) = some (.file b))
    (h : newDatabase nd fs (126 :: rest) = (.ok db, fs')) :
    ∃ b' data, fs (joinPath home rest) = some (.file b') ∧ unmarshalDB b' = .ok data ∧
      db.users.map (·.username) = data.users.map (·.username) := by
  obtain ⟨d, hd, _, hdata, _⟩ := newDatabase_data h
  rcases openFile_ok hd with ⟨hn, _⟩ | ⟨b1, data, _, hread, hun, hcase⟩
  · rw [hf] at hn; simp at hn
  · refine ⟨b1, data, ?_, hun, ?_⟩
    · unfold readFileBytes expandHomePath at hread
      simp only [ne_eq, not_true_eq_false, if_false, hh] at hread
      split at hread
      · simp at hread
      · split at hread
        · rename_i b2 hb2; simp at hread; rw [hb2, hread]
        · simp at hread
    · have hus : d.users = data.users := by
        rcases hcase with ⟨_, _, rfl⟩ | ⟨_, hcm⟩
        · rfl
        · obtain ⟨rfl, _⟩ := commit_ok hcm; rfl
      rw [hdata, hus, List.map_map]
      rfl

/-- C61: so a database created at such a path cannot be opened again, unless another file happens to be at the expanded
path (the home directory being an absolute path). -/
theorem C61_tilde_reopen_fails [Ext] {nd nd' : Nondet} {fs fs' : FS} {rest home : GoString} {db : Database}
    (hh : Ext.homeDir = some home) (habs : home.head? = some 47)
    (hnone : fs (126 :: rest) = none) (hnone' : fs (joinPath home rest) = none)
    (h : newDatabase nd fs (126 :: rest) = (.ok db, fs')) :
    (∃ b, fs' (126 :: rest) = some (.file b)) ∧ ∀ db' fs'', newDatabase nd' fs' (126 :: rest) ≠ (.ok db', fs'') := by
  have hother : joinPath home rest ≠ 126 :: rest := by
    obtain ⟨ns, _, he⟩ := joinPath_absolute (b := rest) habs
    rw [he]; intro hc; exact absurd (List.cons.inj hc).1 (by decide)
  obtain ⟨d, hd, _, hdata, _⟩ := newDatabase_data h
  rcases openFile_ok hd with ⟨_, hc⟩ | ⟨_, _, ⟨b', hb'⟩, _⟩
  · obtain ⟨_, _, _, _, rfl⟩ := commit_ok hc
    have hfile : ∃ b, (upd fs (126 :: rest) (some (.file (marshalDB d.toDBData)))) (126 :: rest) = some (.file b) :=
      ⟨_, upd_same ..⟩
    refine ⟨hfile, ?_⟩
    intro db' fs'' h'
    obtain ⟨b, hb⟩ := hfile
    obtain ⟨b', _, hb', _⟩ := C61_tilde_reads_elsewhere hh hb h'
    have e : upd fs (126 :: rest) (some (.file (marshalDB d.toDBData))) (joinPath home rest) = none := by
      rw [upd_other _ _ hother]; exact hnone'
    exact absurd (e.symm.trans hb') (by simp)
  · rw [hnone] at hb'; simp at hb'

/-- C61: the expanded path is absolute and has no `.`, `..` or empty component, if the home directory is absolute; cleaning it
again changes nothing. -/
theorem C61_expanded_form [Ext] {home : GoString} (hh : Ext.homeDir = some home) (habs : home.head? = some 47) (rest : GoString) :
    ∃ parts : List GoString, (∀ c ∈ parts, c ≠ [] ∧ c ≠ gs! "." ∧ c ≠ gs! ".." ∧ (47 : UInt8) ∉ c) ∧
      expandHomePath (126 :: rest) = .ok (47 :: joinWith [47] parts) ∧
      pathClean (47 :: joinWith [47] parts) = 47 :: joinWith [47] parts := by
  obtain ⟨ns, hns, he⟩ := joinPath_absolute (b := rest) habs
  refine ⟨ns, hns, ?_, ?_⟩
  · unfold expandHomePath; simp [hh, he]
  · unfold pathClean; rw [if_pos (by rfl), cleanParts_rooted hns]

/-- C61: another user's home directory is not meant by `~name`: it is the same as `~/name`. -/
theorem C61_tilde_name [Ext] {home : GoString} (hh : Ext.homeDir = some home) (hne : home ≠ []) (rest : GoString) :
    expandHomePath (126 :: 47 :: rest) = expandHomePath (126 :: rest) := by
  unfold expandHomePath
  simp only [ne_eq, not_true_eq_false, if_false, hh, joinPath_slash hne]

/-- Paths may leave the home directory. -/
example : (match expandHomePath (gs! "~/../ann//x/./db.json") with | .ok p => p == gs! "/home/ann/x/db.json" | _ => false) = true ∧
    pathClean (gs! "a/../../b/") = gs! "../b" ∧ pathClean [] = gs! "." ∧ pathClean (gs! "/..") = gs! "/" := by
  decide +kernel

/-- C61: the property itself fails: a path for which creating succeeds and reopening does not. -/
theorem C61_home_path_witness :
    (match newDatabase nd fs0 (gs! "~/db.json") with
      | (.ok _, fs) => (match newDatabase nd fs (gs! "~/db.json") with | (.err _, _) => true | _ => false)
      | _ => false) = true := by
  decide +kernel

end GoIdentity
