import Verif.Lemmas.Refusals5
/-!
# The tables of checks leave no choice
-/
set_option linter.unusedSectionVars false
namespace GoIdentity
variable [Ext]

/-- Every check ends a call in at most one way. -/
def Functional (rs : List Row) : Prop := ∀ r ∈ rs, ∀ x y, r x → r y → x = y

theorem Functional.nil : Functional [] := fun _ h => nomatch h

theorem Functional.cons {r : Row} {rs : List Row} (h : ∀ x y, r x → r y → x = y) (t : Functional rs) : Functional (r :: rs) := by
  intro r' hr'
  rcases List.mem_cons.1 hr' with rfl | hr'
  · exact h
  · exact t r' hr'

theorem Functional.endsIf {c : Prop} {o : Outcome} {rs : List Row} (t : Functional rs) : Functional (endsIf c o :: rs) :=
  .cons (fun _ _ h1 h2 => h1.2.trans h2.2.symm) t

theorem Functional.refuse {c : Prop} {e : GoErr} {rs : List Row} (t : Functional rs) : Functional (refuse c e :: rs) :=
  .cons (fun _ _ h1 h2 => h1.2.trans h2.2.symm) t

theorem Functional.append {rs rs' : List Row} (h : Functional rs) (t : Functional rs') : Functional (rs ++ rs') := by
  intro r hr
  rcases List.mem_append.1 hr with hr | hr
  · exact h r hr
  · exact t r hr

theorem done_functional : Functional Checks.done := .endsIf .nil

theorem identity_functional (db : Database) (req : Request) (w : GoErr → GoErr) : Functional (Checks.identity db req w) :=
  .refuse (.refuse (.refuse .nil))

theorem write_functional (nd : Nondet) (fs : FS) (path : GoString) (w : GoErr → GoErr) :
    Functional (Checks.write nd fs path w) := .refuse (.refuse (.refuse (.refuse .nil)))

theorem readKey_functional (k : ReqKey) (w : GoErr → GoErr) : Functional (Checks.readKey k w) := by
  unfold Checks.readKey
  refine .refuse (.refuse (.refuse (.refuse (.cons ?_ (.refuse (.refuse (.refuse (.refuse (.cons ?_ (.refuse (.refuse
    (.refuse (.cons ?_ (.refuse (.refuse (.cons ?_ (.refuse .nil)))))))))))))))))
  · rintro x y ⟨_, t, d, h1, _, rfl⟩ ⟨_, t', d', h1', _, rfl⟩
    rw [h1] at h1'; cases h1'; rfl
  · rintro x y ⟨hl, f, c, raw, key, h1, h2, h3, _, rfl⟩ ⟨_, f', c', raw', key', h1', h2', h3', _, rfl⟩
    have e1 := (lineFields_iff hl.2).1 h1
    have e2 := (lineFields_iff hl.2).1 h1'
    rw [e1] at e2; cases e2
    rw [h2] at h2'; cases h2'
    rw [h3] at h3'; cases h3'
    rfl
  · rintro x y ⟨_, es, h1, _, rfl⟩ ⟨_, es', h1', _, rfl⟩
    rw [h1] at h1'; cases h1'; rfl
  · rintro x y ⟨_, es, h1, _, rfl⟩ ⟨_, es', h1', _, rfl⟩
    rw [h1] at h1'; cases h1'; rfl

theorem isRegistration_unique {s : GoString} {r r' : RegisterRequest} (h : IsRegistration s r) (h' : IsRegistration s r') :
    r = r' := by
  obtain ⟨d, h1, h2⟩ := h
  obtain ⟨d', h1', h2'⟩ := h'
  rw [h1] at h1'; cases h1'
  rw [h2] at h2'; cases h2'
  rfl

theorem register_functional (m : ReqMfaToken) (a : ReqWebAuthn) (w : GoErr → GoErr) : Functional (Checks.register m a w) := by
  unfold Checks.register Checks.cose Checks.member
  refine .append (.refuse (.refuse (.refuse (.cons ?_ (.refuse (.refuse (.cons ?_ (.cons ?_ (.refuse (.refuse (.refuse (.refuse
    (.refuse (.refuse .nil))))))))))))))
    (.append (.append (.append (.append (.append (.refuse .nil) (.refuse (.endsIf .nil))) (.refuse .nil))
      (.refuse (.endsIf .nil))) (.refuse (.endsIf .nil))) (.endsIf (.endsIf .nil)))
  · rintro x y ⟨_, d, e, h1, h2, rfl⟩ ⟨_, d', e', h1', h2', rfl⟩
    rw [h1] at h1'; cases h1'
    rw [h2] at h2'; cases h2'
    rfl
  · rintro x y ⟨_, r, h1, _, rfl⟩ ⟨_, r', h1', _, rfl⟩
    rw [isRegistration_unique h1 h1']
  · rintro x y ⟨_, r, h1, pre, tr, post, h2, h3, h4, rfl⟩ ⟨_, r', h1', pre', tr', post', h2', h3', h4', rfl⟩
    have := isRegistration_unique h1 h1'
    subst this
    have := firstUnknown_unique (h2 ▸ h2') h3 h4 h3' h4'
    subst this
    rfl

theorem firstDup_unique {P : MfaToken → Prop} {l pre pre' post post' : List MfaToken} {t t' : MfaToken}
    (h : l = pre ++ t :: post) (h' : l = pre' ++ t' :: post') (h1 : ∀ x ∈ pre, ¬ P x) (h2 : P t)
    (h1' : ∀ x ∈ pre', ¬ P x) (h2' : P t') : t = t' := by
  subst h
  induction pre generalizing pre' with
  | nil =>
    cases pre' with
    | nil => simp at h'; exact h'.1
    | cons a l => simp at h'; exact absurd (h'.1 ▸ h2) (h1' a (by simp))
  | cons a l ih =>
    cases pre' with
    | nil => simp at h'; exact absurd (h'.1 ▸ h2') (h1 a (by simp))
    | cons b l' =>
      simp only [List.cons_append, List.cons.injEq] at h'
      exact ih (fun x hx => h1 x (by simp [hx])) (fun x hx => h1' x (by simp [hx])) h'.2

theorem checks_functional {db : Database} (h : Inv db) (c : Call) (nd : Nondet) (fs : FS) (req : Request) (s : GoString) :
    Functional (c.checks nd db fs req s) := by
  have hi := fun w => identity_functional db req w
  have hw := fun path w => write_functional nd fs path w
  have hd := done_functional
  cases c with
  | addUser =>
    exact .append (.append (.append (.append (.refuse (.refuse .nil)) (.refuse (.refuse .nil)))
      (.refuse (.refuse (.refuse (.refuse (.refuse (.refuse (.refuse .nil)))))))) (hw _ _)) hd
  | getUsers => exact (hi _).append hd
  | getUser => exact (hi _).append hd
  | deleteUser => exact (hi _).append (.refuse .nil)
  | authenticateUser =>
    refine .append (.refuse (.refuse (.refuse (.endsIf (.refuse (.refuse (.cons ?_ (.refuse .nil)))))))) hd
    rintro x y ⟨d, e, h1, h2, rfl⟩ ⟨d', e', h1', h2', rfl⟩
    rw [h1] at h1'; cases h1'
    rw [h2] at h2'; cases h2'
    rfl
  | save => exact (hw _ _).append hd
  | copy fp => exact (hw _ _).append hd
  | addPublicKey => exact .append (.append (.append ((hi _).append (readKey_functional _ _)) (.refuse .nil)) (hw _ _)) hd
  | getPublicKeys => exact (hi _).append hd
  | deletePublicKey => exact .append (.append ((hi _).append (.refuse .nil)) (hw _ _)) hd
  | addAPIKey =>
    exact .append (.append ((hi _).append (.refuse (.endsIf (.refuse (.refuse (.refuse .nil)))))) (hw _ _)) hd
  | deleteAPIKey => exact .append (.append ((hi _).append (.refuse .nil)) (hw _ _)) hd
  | getAPIKeys => exact (hi _).append hd
  | changeUserPassword =>
    exact .append (.append (.append ((hi _).append (.refuse (.refuse (.refuse .nil)))) (.refuse (.refuse .nil))) (hw _ _)) hd
  | identifyUser => exact hd
  | lookupAPIKey => exact .append (.refuse (.refuse (.refuse .nil))) hd
  | addMfaToken =>
    refine .append (.append (.append (.append (.append ((hi _).append (.refuse (.refuse .nil)))
      (.refuse (.refuse (.refuse (.refuse (.refuse (.refuse (.refuse .nil)))))))) (register_functional _ _ _))
      (.cons ?_ .nil)) (hw _ _)) hd
    rintro x y ⟨u, pre, t, post, h1, h2, h3, h4⟩ ⟨u', pre', t', post', h1', h2', h3', h4'⟩
    have := addressed_unique h h1 h1'
    subst this
    generalize (if req.mfaToken.type = gs! "u2f" then req.webAuthn.challenge else req.mfaToken.secret) = sec at *
    have := firstDup_unique (P := fun t => t.secret = sec ∨ t.comment = req.mfaToken.comment) h2 h2'
      (fun x hx hc => hc.elim (h3 x hx).1 (h3 x hx).2) (h4.elim (fun h => .inl h.1) fun h => .inr h.2.1)
      (fun x hx hc => hc.elim (h3' x hx).1 (h3' x hx).2) (h4'.elim (fun h => .inl h.1) fun h => .inr h.2.1)
    subst this
    rcases h4 with h4 | h4 <;> rcases h4' with h4' | h4'
    · exact h4.2.trans h4'.2.symm
    · exact absurd h4.1 h4'.1
    · exact absurd h4'.1 h4.1
    · exact h4.2.2.trans h4'.2.2.symm
  | getMfaTokens => exact (hi _).append hd
  | deleteMfaToken => exact .append (.append ((hi _).append (.refuse .nil)) (hw _ _)) hd

end GoIdentity
