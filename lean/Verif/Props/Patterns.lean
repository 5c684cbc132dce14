import Verif.Lemmas.Regex
import Verif.Lemmas.Frame
import Verif.Spec.Toy
/-!
# Email syntax and published patterns: C39, C42
-/
namespace GoIdentity
open Toy

/-! ## C39 -/

/-- email.go:26-30, as a pattern. -/
def emailPattern : Pattern := { body := emailRx }

/-- The pattern has the text of email.go:27-29, and the text reads as this tree. -/
theorem C39_pattern_text :
    emailPattern.text = gs! "^[a-zA-Z0-9.!#$%&'*+/=?^_`{|}~-]+@[a-zA-Z0-9]" ++
      gs! "(?:[a-zA-Z0-9-]{0,61}[a-zA-Z0-9])?(?:\\.[a-zA-Z0-9]" ++ gs! "(?:[a-zA-Z0-9-]{0,61}[a-zA-Z0-9])?)*$" ∧
    emailPattern.body.wellFormed = true := by decide +kernel

/-- C39: an address is accepted exactly if it matches the regular expression, for all byte strings. -/
theorem C39_accepts_iff_matches (s : GoString) : (∃ m, newEmailAddress s = .ok m) ↔ emailPattern.Matches s := by
  have hm : emailPattern.Matches s ↔ emailMatch s = true := by
    unfold Pattern.Matches
    show (emailRx.lang (codePoints s) ∧ _) ↔ _
    rw [lang_codePoints (by decide +kernel) s, lang_email, ← emailMatch_iff]
    simp [emailPattern]
  rw [hm]
  constructor
  · rintro ⟨m, h⟩
    unfold newEmailAddress at h
    split at h
    · simp at h
    · rename_i hne; simpa using hne
  · intro h
    have hp := newEmailAddress_ne_panic s
    unfold newEmailAddress at hp ⊢
    rw [h] at hp ⊢
    simp only [Bool.not_true, Bool.false_eq_true, if_false] at hp ⊢
    split
    · exact ⟨_, rfl⟩
    · rename_i hx; exact absurd (by split <;> simp_all) hp

/-- A host label: 1 to 63 letters, digits and hyphens, with a letter or digit at either end. -/
def IsHostLabel (l : GoString) : Prop :=
  1 ≤ l.length ∧ l.length ≤ 63 ∧ (∀ b ∈ l, isAlnum b = true ∨ b = 45) ∧
    (∃ b, l.head? = some b ∧ isAlnum b = true) ∧ ∃ b, l.getLast? = some b ∧ isAlnum b = true

theorem isHostLabel_iff (l : GoString) : isLabel l = true ↔ IsHostLabel l := by
  unfold isLabel IsHostLabel isLabelChar
  simp only [Bool.and_eq_true, decide_eq_true_eq, List.all_eq_true, Bool.or_eq_true, beq_iff_eq]
  constructor
  · rintro ⟨⟨⟨⟨h1, h2⟩, h3⟩, h4⟩, h5⟩
    refine ⟨h1, h2, h3, ?_, ?_⟩
    · cases hh : l.head? with
      | none => rw [hh] at h4; simp at h4
      | some b => rw [hh] at h4; exact ⟨b, rfl, h4⟩
    · cases hh : l.getLast? with
      | none => rw [hh] at h5; simp at h5
      | some b => rw [hh] at h5; exact ⟨b, rfl, h5⟩
  · rintro ⟨h1, h2, h3, ⟨a, h4, h5⟩, b, h6, h7⟩
    rw [h4, h6]
    exact ⟨⟨⟨⟨h1, h2⟩, h3⟩, h5⟩, h7⟩

/-- C39, the same in plain words: a non-empty local part of permitted characters, one `@`, and labels joined by dots. -/
theorem C39_accepts_iff_shape (s : GoString) :
    (∃ m, newEmailAddress s = .ok m) ↔
      ∃ (loc : GoString) (labels : List GoString), s = loc ++ gs! "@" ++ joinWith (gs! ".") labels ∧
        loc ≠ [] ∧ (∀ b ∈ loc, isAlnum b = true ∨ b ∈ gs! ".!#$%&'*+/=?^_`{|}~-") ∧
        labels ≠ [] ∧ ∀ l ∈ labels, IsHostLabel l := by
  rw [C39_accepts_iff_matches]
  unfold Pattern.Matches
  have : (emailPattern.body.lang (codePoints s) ∧ ∀ r ∈ emailPattern.looks, ∃ u v, codePoints s = u ++ v ∧ r.lang u) ↔ EmailShape s := by
    show (emailRx.lang (codePoints s) ∧ _) ↔ _
    rw [lang_codePoints (by decide +kernel) s, lang_email]
    simp [emailPattern]
  rw [this]
  unfold EmailShape
  have hat : ∀ l : GoString, l.all isAtext = true ↔ ∀ b ∈ l, isAlnum b = true ∨ b ∈ gs! ".!#$%&'*+/=?^_`{|}~-" := by
    intro l
    rw [List.all_eq_true]
    unfold isAtext
    simp only [Bool.or_eq_true, List.contains_iff_mem]
  constructor
  · rintro ⟨loc, lab, labs, h1, h2, h3, rfl⟩
    exact ⟨loc, lab :: labs, by simp, h1, (hat _).1 h2, by simp, fun l hl => (isHostLabel_iff l).1 (h3 l hl)⟩
  · rintro ⟨loc, labels, rfl, h1, h2, h3, h4⟩
    cases labels with
    | nil => exact absurd rfl h3
    | cons lab labs => exact ⟨loc, lab, labs, h1, (hat _).2 h2, fun l hl => (isHostLabel_iff l).2 (h4 l hl), by simp⟩

/-- C39: the stored address is the input, the domain is what follows the `@`, and there is exactly one `@`. -/
theorem C39_stored {s : GoString} {m : EmailAddress} (h : newEmailAddress s = .ok m) :
    m.address = s ∧ m.confirmed = false ∧ m.primary = false ∧ s.count 64 = 1 ∧
      ∃ loc, s = loc ++ gs! "@" ++ m.domain ∧ loc ≠ [] ∧ m.domain ≠ [] := by
  obtain ⟨loc, labels, hs, h1, h2, h3, h4⟩ := (C39_accepts_iff_shape s).1 ⟨m, h⟩
  have hloc : (64 : UInt8) ∉ loc := by
    intro hm
    rcases h2 64 hm with e | e
    · exact absurd e (by decide)
    · exact absurd e (by decide)
  have hdom : ∀ ls : List GoString, (∀ l ∈ ls, IsHostLabel l) → (64 : UInt8) ∉ joinWith [46] ls := by
    intro ls
    induction ls with
    | nil => intro _; simp [joinWith]
    | cons l ls ih =>
      intro hl
      have h0 : (64 : UInt8) ∉ l := by
        intro hm
        rcases (hl l (by simp)).2.2.1 64 hm with e | e
        · exact absurd e (by decide)
        · exact absurd e (by decide)
      cases ls with
      | nil => exact h0
      | cons q qs =>
        rw [joinWith_cons (by simp)]
        simp only [List.mem_append, List.mem_singleton, not_or]
        exact ⟨⟨h0, by decide⟩, ih fun x hx => hl x (by simp only [List.mem_cons] at hx ⊢; exact .inr hx)⟩
  have hd := hdom labels h4
  have hsp : splitByte 64 s = [loc, joinWith [46] labels] := splitByte_two.2 ⟨by rw [hs]; simp, hloc, hd⟩
  have hne : joinWith [46] labels ≠ [] := by
    cases labels with
    | nil => exact absurd rfl h3
    | cons l ls =>
      have := (h4 l (by simp)).1
      intro e
      cases ls with
      | nil => have e : l = [] := e; rw [e] at this; simp at this
      | cons q qs => rw [joinWith_cons (by simp)] at e; simp at e
  unfold newEmailAddress at h
  split at h
  · simp at h
  · rw [hsp] at h
    simp only [Res.ok.injEq] at h
    subst h
    refine ⟨rfl, rfl, rfl, ?_, loc, by rw [hs], h1, hne⟩
    rw [hs, List.append_assoc, List.count_append, List.count_eq_zero_of_not_mem hloc, List.singleton_append, List.count_cons_self,
      List.count_eq_zero_of_not_mem hd]

example : newEmailAddress (gs! "joe.smith+x@mail-1.contoso.com") =
    .ok { address := gs! "joe.smith+x@mail-1.contoso.com", domain := gs! "mail-1.contoso.com", confirmed := false, isPrimary := false } := by
  decide +kernel

-- Refused: no `@`, two, an empty local part or label, a hyphen at an end, a space, a non-ASCII letter, a final newline, a label of 64.
example : ∀ s ∈ [gs! "joe", gs! "a@b@c", gs! "@b.c", gs! "a@b..c", gs! "a@-b", gs! "a@b-", gs! "a b@c", gs! "é@c", gs! "a@c\n",
    gs! "a@" ++ List.replicate 64 97], newEmailAddress s = .err (.std .emailAddressInvalid) := by decide +kernel

example : (match newEmailAddress (gs! "a@" ++ List.replicate 63 97) with | .ok _ => true | _ => false) = true := by decide +kernel

/-! ## C42 -/

def lowerItems : List ClsItem := [.range 97 122]
def letterItems : List ClsItem := [.range 97 122, .range 65 90]

/-- The username pattern of a policy as a tree. -/
def usernamePattern (p : Policy) : Pattern :=
  let start := if p.user.allowUppercase then letterItems else lowerItems
  let more := if p.user.allowNonAlphaNumeric then (gs! "-_.").map ClsItem.one else []
  { body := .cat (.cls start) (.rep (.cls (start ++ [.range 48 57] ++ more)) (p.user.minLength - 1) (p.user.maxLength - 1)) }

/-- C42: `GetUsernamePolicyRegex` returns the text of this pattern; the text reads as the tree when both lengths are at
least 1. -/
theorem C42_username_text (p : Policy) :
    usernamePolicyRegex p = (usernamePattern p).text ∧
    (1 ≤ p.user.minLength → 1 ≤ p.user.maxLength → (usernamePattern p).body.wellFormed = true) := by
  constructor
  · unfold usernamePolicyRegex usernamePattern Pattern.text usernameStartChars usernameAllowedChars
    cases p.user.allowUppercase <;> cases p.user.allowNonAlphaNumeric <;>
      simp [Rx.text, letterItems, lowerItems, ClsItem.text]
  · intro h1 h2
    have : (decide (0 ≤ p.user.minLength - 1 ∧ 0 ≤ p.user.maxLength - 1)) = true := by simp; omega
    unfold usernamePattern
    cases p.user.allowUppercase <;> cases p.user.allowNonAlphaNumeric <;>
      (simp only [Rx.wellFormed, Bool.and_eq_true]; refine ⟨by decide, ⟨by decide, by decide⟩, this⟩)

/-- C42: every username that matches the published pattern passes the length policy. -/
theorem C42_username_match_passes (p : Policy) {s : GoString} (h : (usernamePattern p).Matches s) :
    checkUserPolicy p s = none := by
  obtain ⟨h, -⟩ := h
  have ha : (usernamePattern p).body.ascii = true := by
    unfold usernamePattern
    cases p.user.allowUppercase <;> cases p.user.allowNonAlphaNumeric <;> (simp only [Rx.ascii, Bool.and_eq_true]; decide)
  rw [lang_codePoints ha] at h
  obtain ⟨u, v, huv, ⟨c, rfl, _⟩, hv⟩ := h
  rw [lang_rep_cls] at hv
  have hlen := congrArg List.length huv
  rw [List.length_map, List.length_append, List.length_singleton] at hlen
  unfold checkUserPolicy
  rw [if_neg]
  omega

/-- C42: what the pattern asks besides: only permitted ASCII characters, a letter first. -/
theorem C42_username_match_iff (p : Policy) (s : GoString) :
    (usernamePattern p).Matches s ↔
      checkUserPolicy p s = none ∧
      (∃ b t, s = b :: t ∧ (isLower b = true ∨ (p.user.allowUppercase = true ∧ isUpper b = true)) ∧
        ∀ x ∈ t, isLower x = true ∨ (p.user.allowUppercase = true ∧ isUpper x = true) ∨ isDigit x = true ∨
          (p.user.allowNonAlphaNumeric = true ∧ x ∈ gs! "-_.")) := by
  have ha : (usernamePattern p).body.ascii = true := by
    unfold usernamePattern
    cases p.user.allowUppercase <;> cases p.user.allowNonAlphaNumeric <;> (simp only [Rx.ascii, Bool.and_eq_true]; decide)
  have hst : ∀ (f : Bool) (b : UInt8), InCls (if f then letterItems else lowerItems) b.toNat ↔
      (isLower b = true ∨ (f = true ∧ isUpper b = true)) := by
    have key : ∀ (f : Bool) (n : Fin 256), InCls (if f then letterItems else lowerItems) (UInt8.ofNat n.val).toNat ↔
      (isLower (UInt8.ofNat n.val) = true ∨ (f = true ∧ isUpper (UInt8.ofNat n.val) = true)) := by decide +kernel
    intro f b
    have := key f ⟨b.toNat, b.toNat_lt⟩
    simpa using this
  have hmo : ∀ (f g : Bool) (b : UInt8), InCls ((if f then letterItems else lowerItems) ++ [.range 48 57] ++
        (if g then (gs! "-_.").map ClsItem.one else [])) b.toNat ↔
      (isLower b = true ∨ (f = true ∧ isUpper b = true) ∨ isDigit b = true ∨ (g = true ∧ b ∈ gs! "-_.")) := by
    have key : ∀ (f g : Bool) (n : Fin 256), InCls ((if f then letterItems else lowerItems) ++ [.range 48 57] ++
        (if g then (gs! "-_.").map ClsItem.one else [])) (UInt8.ofNat n.val).toNat ↔
      (isLower (UInt8.ofNat n.val) = true ∨ (f = true ∧ isUpper (UInt8.ofNat n.val) = true) ∨ isDigit (UInt8.ofNat n.val) = true ∨
        (g = true ∧ (UInt8.ofNat n.val) ∈ gs! "-_.")) := by decide +kernel
    intro f g b
    have := key f g ⟨b.toNat, b.toNat_lt⟩
    simpa only [UInt8.ofNat_toNat] using this
  constructor
  · intro h
    refine ⟨C42_username_match_passes p h, ?_⟩
    obtain ⟨h, -⟩ := h
    rw [lang_codePoints ha] at h
    obtain ⟨u, v, huv, ⟨c, rfl, hc⟩, hv⟩ := h
    rw [lang_rep_cls] at hv
    rw [List.singleton_append, List.map_eq_cons_iff] at huv
    obtain ⟨b, t, rfl, rfl, rfl⟩ := huv
    exact ⟨b, t, rfl, (hst _ b).1 hc, fun x hx => (hmo _ _ x).1 (hv.2 _ (List.mem_map_of_mem hx))⟩
  · rintro ⟨hp, b, t, rfl, hb, ht⟩
    refine ⟨(lang_codePoints ha _).2 ⟨[b.toNat], t.map UInt8.toNat, rfl, ⟨_, rfl, (hst _ b).2 hb⟩, ?_⟩, ?_⟩
    · rw [lang_rep_cls]
      unfold checkUserPolicy at hp
      split at hp
      · simp at hp
      · rename_i hlen
        simp only [List.length_cons, List.length_map] at hlen ⊢
        refine ⟨by omega, fun c hc => ?_⟩
        obtain ⟨x, hx, rfl⟩ := List.mem_map.1 hc
        exact (hmo _ _ x).2 (ht x hx)
    · intro r hr
      unfold usernamePattern at hr
      simp at hr

/-- C42: the converse fails: the check accepts names the default policy's pattern does not describe. -/
theorem C42_username_converse_fails :
    ∃ s, checkUserPolicy defaultPolicy s = none ∧ ¬ (usernamePattern defaultPolicy).Matches s := by
  refine ⟨gs! "1; DROP", by decide, ?_⟩
  rw [C42_username_match_iff]
  rintro ⟨_, b, t, hs, hb, _⟩
  have : b = 49 := by
    have := congrArg List.head? hs
    simpa using this.symm
  subst this
  exact absurd hb (by decide)

example : usernamePolicyRegex defaultPolicy = gs! "^[a-z][a-z0-9]{2,49}$" := by decide +kernel
example : (usernamePattern defaultPolicy).Matches (gs! "jsmith") :=
  (C42_username_match_iff _ _).2 ⟨by decide, 106, gs! "smith", rfl, by decide, by decide⟩

/-- The password pattern of a policy as a tree. -/
def passwordPattern (p : Policy) : Pattern :=
  let up : ClsItem := .range 65 90
  let low : ClsItem := .range 97 122
  let num : ClsItem := .range 48 57
  { looks :=
      (if p.password.requireUppercase then [Rx.cat (.star .any) (.cls [up])] else []) ++
      (if p.password.requireLowercase then [Rx.cat (.star .any) (.cat (.cls [low]) (.cat (.star .any) (.cls [low])))] else []) ++
      (if p.password.requireNumber then [Rx.cat (.star .any) (.cat (.cls [num]) (.cat (.star .any) (.cls [num])))] else []) ++
      (if p.password.requireNonAlphaNumeric then [Rx.cat (.star .any) (.cls ((gs! "~!@#$&*").map .one))] else [])
    body := .rep .any p.password.minLength p.password.maxLength }

/-- C42: `GetPasswordPolicyRegex` returns the text of this pattern. -/
theorem C42_password_text (p : Policy) :
    passwordPolicyRegex p = (passwordPattern p).text ∧ ((passwordPattern p).looks.all Rx.wellFormed = true) ∧
    (0 ≤ p.password.minLength → 0 ≤ p.password.maxLength → (passwordPattern p).body.wellFormed = true) := by
  refine ⟨?_, ?_, ?_⟩
  · unfold passwordPolicyRegex passwordPattern Pattern.text
    cases p.password.requireUppercase <;> cases p.password.requireLowercase <;> cases p.password.requireNumber <;>
      cases p.password.requireNonAlphaNumeric <;> simp [Rx.text, ClsItem.text]
  · unfold passwordPattern
    cases p.password.requireUppercase <;> cases p.password.requireLowercase <;> cases p.password.requireNumber <;>
      cases p.password.requireNonAlphaNumeric <;> (dsimp only; decide)
  · intro h1 h2
    simp [passwordPattern, Rx.wellFormed, Rx.isAtom, h1, h2]

/-- C42: the pattern counts code points and refuses newlines. -/
theorem C42_password_match_iff (p : Policy) (hu : p.password.requireUppercase = false) (hl : p.password.requireLowercase = false)
    (hn : p.password.requireNumber = false) (ha : p.password.requireNonAlphaNumeric = false) (s : GoString) :
    (passwordPattern p).Matches s ↔
      (p.password.minLength ≤ (codePoints s).length ∧ ((codePoints s).length : Int) ≤ p.password.maxLength) ∧
      10 ∉ codePoints s := by
  unfold Pattern.Matches passwordPattern
  simp only [hu, hl, hn, ha]
  rw [lang_rep_any]
  simp only [Bool.false_eq_true, if_false, List.append_nil, List.not_mem_nil, false_imp_iff, implies_true, and_true]
  refine and_congr Iff.rfl ⟨fun h hm => h 10 hm rfl, fun h c hc e => h (e ▸ hc)⟩

theorem lang_star_any {s : List Nat} : (Rx.star .any).lang s ↔ ∀ c ∈ s, c ≠ 10 := by
  constructor
  · rintro ⟨ls, hl, rfl⟩
    exact (pieces_of (Q := fun c => c ≠ 10) hl).2
  · intro h
    exact ⟨s.map fun c => [c], singles h, (flatten_singles s).symm⟩

theorem look_one {items : List ClsItem} {s : List Nat} (hs : 10 ∉ s) :
    (∃ u v, s = u ++ v ∧ (Rx.cat (.star .any) (.cls items)).lang u) ↔ 1 ≤ s.countP fun c => decide (InCls items c) := by
  constructor
  · rintro ⟨u, v, rfl, a, b, rfl, _, c, rfl, hc⟩
    rw [List.countP_append, List.countP_append, List.countP_singleton, if_pos (decide_eq_true (show InCls items c from hc))]
    omega
  · intro h
    obtain ⟨c, hc, hp⟩ := List.countP_pos_iff.1 h
    obtain ⟨a, b, rfl⟩ := List.append_of_mem hc
    refine ⟨a ++ [c], b, by simp, a, [c], rfl, lang_star_any.2 ?_, c, rfl, of_decide_eq_true hp⟩
    rintro x hx rfl
    exact hs (by simp [hx])

theorem look_two {items : List ClsItem} {s : List Nat} (hs : 10 ∉ s) :
    (∃ u v, s = u ++ v ∧ (Rx.cat (.star .any) (.cat (.cls items) (.cat (.star .any) (.cls items)))).lang u) ↔
      2 ≤ s.countP fun c => decide (InCls items c) := by
  have mk : ∀ a c b d e, s = a ++ c :: (b ++ d :: e) → InCls items c → InCls items d →
      ∃ u v, s = u ++ v ∧ (Rx.cat (.star .any) (.cat (.cls items) (.cat (.star .any) (.cls items)))).lang u := by
    intro a c b d e he hc hd
    refine ⟨a ++ ([c] ++ (b ++ [d])), e, by rw [he]; simp, a, [c] ++ (b ++ [d]), rfl, lang_star_any.2 ?_, [c], b ++ [d], rfl,
      ⟨c, rfl, hc⟩, b, [d], rfl, lang_star_any.2 ?_, d, rfl, hd⟩
    · rintro x hx rfl; exact hs (by rw [he]; simp [hx])
    · rintro x hx rfl; exact hs (by rw [he]; simp [hx])
  constructor
  · rintro ⟨u, v, rfl, a, x, rfl, _, y, z, rfl, ⟨c, rfl, hc⟩, b, w, rfl, _, d, rfl, hd⟩
    rw [List.countP_append, List.countP_append, List.countP_append, List.countP_append, List.countP_singleton,
      List.countP_singleton, if_pos (decide_eq_true (show InCls items c from hc)), if_pos (decide_eq_true (show InCls items d from hd))]
    omega
  · intro h
    obtain ⟨c, hc, hp⟩ := List.countP_pos_iff.1 (show 0 < s.countP fun c => decide (InCls items c) by omega)
    obtain ⟨a, b, he⟩ := List.append_of_mem hc
    have hp' : InCls items c := by simpa using hp
    rw [he, List.countP_append, List.countP_cons, if_pos hp] at h
    by_cases ha : 0 < a.countP fun c => decide (InCls items c)
    · obtain ⟨d, hd, hpd⟩ := List.countP_pos_iff.1 ha
      obtain ⟨a1, a2, rfl⟩ := List.append_of_mem hd
      exact mk a1 d a2 c b (by rw [he]; simp) (by simpa using hpd) hp'
    · obtain ⟨d, hd, hpd⟩ := List.countP_pos_iff.1 (show 0 < b.countP fun c => decide (InCls items c) by omega)
      obtain ⟨b1, b2, rfl⟩ := List.append_of_mem hd
      exact mk a c b1 d b2 he hp' (by simpa using hpd)

/-- C42: what the pattern asks in full: the number of code points within the limits, no newline, and for the flags that are
set an upper-case letter, two lower-case letters, two digits, and one of `~!@#$&*`.  (The check asks for none of these, C41.) -/
theorem C42_password_match_flags (p : Policy) (s : GoString) :
    (passwordPattern p).Matches s ↔
      (p.password.minLength ≤ (codePoints s).length ∧ ((codePoints s).length : Int) ≤ p.password.maxLength) ∧
      10 ∉ codePoints s ∧
      (p.password.requireUppercase = true → 1 ≤ (codePoints s).countP fun c => decide (65 ≤ c ∧ c ≤ 90)) ∧
      (p.password.requireLowercase = true → 2 ≤ (codePoints s).countP fun c => decide (97 ≤ c ∧ c ≤ 122)) ∧
      (p.password.requireNumber = true → 2 ≤ (codePoints s).countP fun c => decide (48 ≤ c ∧ c ≤ 57)) ∧
      (p.password.requireNonAlphaNumeric = true → 1 ≤ (codePoints s).countP fun c => c ∈ [126, 33, 64, 35, 36, 38, 42]) := by
  have e1 : ∀ lo hi : UInt8, ∀ s : List Nat, (s.countP fun c => decide (InCls [.range lo hi] c)) =
      s.countP fun c => decide (lo.toNat ≤ c ∧ c ≤ hi.toNat) := by
    intro lo hi s
    apply List.countP_congr
    intro c _
    simp [InCls, ClsItem.has]
  have e2 : ∀ s : List Nat, (s.countP fun c => decide (InCls ((gs! "~!@#$&*").map .one) c)) =
      s.countP fun c => decide (c ∈ [126, 33, 64, 35, 36, 38, 42]) := by
    intro s
    apply List.countP_congr
    intro c _
    simp [InCls, ClsItem.has]
  unfold Pattern.Matches
  have hb : (passwordPattern p).body.lang (codePoints s) ↔
      (p.password.minLength ≤ (codePoints s).length ∧ ((codePoints s).length : Int) ≤ p.password.maxLength) ∧
      10 ∉ codePoints s := by
    show (Rx.rep .any _ _).lang _ ↔ _
    rw [lang_rep_any]
    exact and_congr Iff.rfl ⟨fun h hm => h 10 hm rfl, fun h c hc e => h (e ▸ hc)⟩
  rw [hb, and_assoc]
  refine and_congr Iff.rfl (and_congr_right fun hnl => ?_)
  have hflag : ∀ (f : Bool) (r : Rx), (∀ x ∈ (if f then [r] else []), ∃ u v, codePoints s = u ++ v ∧ x.lang u) ↔
      (f = true → ∃ u v, codePoints s = u ++ v ∧ r.lang u) := by
    intro f r; cases f <;> simp
  unfold passwordPattern
  simp only [List.mem_append, or_imp, forall_and]
  rw [hflag, hflag, hflag, hflag]
  simp only [look_one hnl, look_two hnl, e1, e2]
  simp only [and_assoc]
  rfl

/-- C42: for ASCII passwords without newlines, and with no Require flag set, pattern and check agree. -/
theorem C42_password_ascii_agrees (p : Policy) (hu : p.password.requireUppercase = false) (hl : p.password.requireLowercase = false)
    (hn : p.password.requireNumber = false) (ha : p.password.requireNonAlphaNumeric = false) {s : GoString}
    (hs : ∀ b ∈ s, b.toNat < 128) (hnl : (10 : UInt8) ∉ s) :
    (passwordPattern p).Matches s ↔ checkPasswordPolicy p s = none := by
  rw [C42_password_match_iff p hu hl hn ha, codePoints_ascii hs, List.length_map]
  have : 10 ∉ s.map UInt8.toNat := by
    intro hm
    obtain ⟨b, hb, e⟩ := List.mem_map.1 hm
    have : b = 10 := UInt8.toNat_inj.1 e
    exact hnl (this ▸ hb)
  unfold checkPasswordPolicy
  constructor
  · rintro ⟨h, _⟩; rw [if_neg (by omega)]
  · intro h
    split at h
    · simp at h
    · exact ⟨by omega, this⟩

/-- C42: outside ASCII they disagree in both directions under the default policy, because the check counts bytes. -/
theorem C42_password_disagrees :
    (∃ s, validUTF8 s = true ∧ (passwordPattern defaultPolicy).Matches s ∧ checkPasswordPolicy defaultPolicy s ≠ none) ∧
    (∃ s, validUTF8 s = true ∧ ¬ (passwordPattern defaultPolicy).Matches s ∧ checkPasswordPolicy defaultPolicy s = none) := by
  constructor
  · refine ⟨(List.replicate 100 (gs! "ж")).flatten, by decide +kernel, ?_, by decide +kernel⟩
    rw [C42_password_match_iff _ rfl rfl rfl rfl]
    decide +kernel
  · refine ⟨gs! "пароль", by decide +kernel, ?_, by decide +kernel⟩
    rw [C42_password_match_iff _ rfl rfl rfl rfl]
    decide +kernel

/-- C42: a newline is accepted by the check and not by the pattern. -/
theorem C42_password_newline :
    ∃ s, ¬ (passwordPattern defaultPolicy).Matches s ∧ checkPasswordPolicy defaultPolicy s = none := by
  refine ⟨gs! "pass\nword", ?_, by decide +kernel⟩
  rw [C42_password_match_iff _ rfl rfl rfl rfl]
  decide +kernel

/-- C42, in general: a password within the check's limits has at most that many characters, and one within the pattern's limits
at most four times as many bytes. -/
theorem C42_password_bounds (s : GoString) :
    (codePoints s).length ≤ s.length ∧ s.length ≤ 4 * (codePoints s).length := codePoints_length s

example : (passwordPattern { defaultPolicy with password := { defaultPolicy.password with requireUppercase := true } }).Matches
      (gs! "Password") ∧
    ¬ (passwordPattern { defaultPolicy with password := { defaultPolicy.password with requireUppercase := true } }).Matches
      (gs! "password") := by
  rw [C42_password_match_flags, C42_password_match_flags]
  decide +kernel

example : passwordPolicyRegex { defaultPolicy with
    password := { defaultPolicy.password with requireUppercase := true, requireLowercase := true, requireNumber := true } } =
    gs! "^(?=.*[A-Z])(?=.*[a-z].*[a-z])(?=.*[0-9].*[0-9]).{8,128}$" := by decide +kernel

end GoIdentity
