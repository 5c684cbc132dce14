import Verif.Lemmas.Pkix
import Verif.Spec.Certificates
/-!
# The SSH library reads exactly the keys and certificates of the format
-/
set_option linter.unusedSectionVars false
namespace GoIdentity
variable [Ext]

theorem sshTake_iff {l s r : GoString} : sshTake l = some (s, r) ↔ ∃ a, IsString a s ∧ l = a ++ r := by
  constructor
  · intro h
    obtain ⟨h1, h2⟩ := sshTake_some h
    exact ⟨sshString s, isString_iff.2 ⟨h2, rfl⟩, h1⟩
  · rintro ⟨a, ha, rfl⟩
    obtain ⟨h1, rfl⟩ := isString_iff.1 ha
    exact sshTake_string h1 r

theorem IsString.take {a s : GoString} (h : IsString a s) (r : GoString) : sshTake (a ++ r) = some (s, r) :=
  sshTake_iff.2 ⟨a, h, rfl⟩

theorem IsString.take_nil {a s : GoString} (h : IsString a s) : sshTake a = some (s, []) :=
  sshTake_iff.2 ⟨a, h, (List.append_nil a).symm⟩

theorem IsString.len {a s : GoString} (h : IsString a s) : a.length = 4 + s.length := by
  obtain ⟨len, h1, _, rfl⟩ := h
  simp [h1]

theorem sshTakeDSA_split {l r : GoString} {v : Int × Int × Int × Int} (h : sshTakeDSA l = some (v, r)) :
    ∃ body, l = body ++ r ∧ ∀ x, sshTakeDSA (body ++ x) = some (v, x) := by
  unfold sshTakeDSA at h
  cases t1 : sshTake l with
  | none => rw [t1] at h; simp at h
  | some x =>
  obtain ⟨pb, l1⟩ := x
  rw [t1] at h
  dsimp only at h
  cases t2 : sshTake l1 with
  | none => rw [t2] at h; simp at h
  | some x =>
  obtain ⟨qb, l2⟩ := x
  rw [t2] at h
  dsimp only at h
  cases t3 : sshTake l2 with
  | none => rw [t3] at h; simp at h
  | some x =>
  obtain ⟨gb, l3⟩ := x
  rw [t3] at h
  dsimp only at h
  cases t4 : sshTake l3 with
  | none => rw [t4] at h; simp at h
  | some x =>
  obtain ⟨yb, l4⟩ := x
  rw [t4] at h
  dsimp only at h
  split at h
  rotate_left
  · simp at h
  rename_i hp
  simp only [Option.some.injEq, Prod.mk.injEq] at h
  obtain ⟨rfl, rfl⟩ := h
  obtain ⟨a1, s1, rfl⟩ := sshTake_iff.1 t1
  obtain ⟨a2, s2, rfl⟩ := sshTake_iff.1 t2
  obtain ⟨a3, s3, rfl⟩ := sshTake_iff.1 t3
  obtain ⟨a4, s4, rfl⟩ := sshTake_iff.1 t4
  refine ⟨a1 ++ a2 ++ a3 ++ a4, by simp, ?_⟩
  intro x
  unfold sshTakeDSA
  simp only [List.append_assoc, s1.take, s2.take, s3.take, s4.take]
  rw [if_pos hp]

theorem sshTakeEC_split {l r id key : GoString} {kind : PkixKind} (h : sshTakeEC l = some (kind, id, key, r)) :
    ∃ body, l = body ++ r ∧ ∀ x, sshTakeEC (body ++ x) = some (kind, id, key, x) := by
  obtain ⟨d, h1, h2, h3, a, b, h4, h5, h6, h7⟩ := sshTakeEC_iff.1 h
  exact ⟨a ++ b, h4, fun x => sshTakeEC_iff.2 ⟨d, h1, h2, h3, a, b, rfl, h5, h6, h7⟩⟩

theorem sshPlain_split {algo l r : GoString} {k : SshPub} (h : sshPlain algo l = some (k, r)) :
    ∃ body, l = body ++ r ∧ ∀ x, sshPlain algo (body ++ x) = some (k, x) := by
  unfold sshPlain at h ⊢
  split at h
  · rename_i ha
    simp only [if_pos ha]
    cases h3 : sshTakeDSA l with
    | none => rw [h3] at h; simp at h
    | some v =>
      obtain ⟨⟨p, q, g, y⟩, l'⟩ := v
      rw [h3] at h
      simp only [Option.some.injEq, Prod.mk.injEq] at h
      obtain ⟨rfl, rfl⟩ := h
      obtain ⟨body, hb, hx⟩ := sshTakeDSA_split h3
      exact ⟨body, hb, fun x => by rw [hx]⟩
  rename_i n1
  split at h
  · rename_i ha
    simp only [if_neg n1, if_pos ha]
    cases h3 : sshTakeEC l with
    | none => rw [h3] at h; simp at h
    | some v =>
      obtain ⟨kind, id, key, l'⟩ := v
      rw [h3] at h
      simp only [Option.some.injEq, Prod.mk.injEq] at h
      obtain ⟨rfl, rfl⟩ := h
      obtain ⟨body, hb, hx⟩ := sshTakeEC_split h3
      exact ⟨body, hb, fun x => by rw [hx]⟩
  rename_i n2
  split at h
  · rename_i ha
    simp only [if_neg n1, if_neg n2, if_pos ha]
    cases h3 : sshTake l with
    | none => rw [h3] at h; simp at h
    | some v =>
      obtain ⟨key, l'⟩ := v
      rw [h3] at h
      dsimp only at h
      split at h
      rotate_left
      · simp at h
      rename_i hl
      simp only [Option.some.injEq, Prod.mk.injEq] at h
      obtain ⟨rfl, rfl⟩ := h
      obtain ⟨a, s, rfl⟩ := sshTake_iff.1 h3
      exact ⟨a, rfl, fun x => by rw [s.take]; simp [hl]⟩
  rename_i n3
  split at h
  · rename_i ha
    simp only [if_neg n1, if_neg n2, if_neg n3, if_pos ha]
    split at h
    rotate_left
    · simp at h
    rename_i id key l' h3
    cases h4 : sshTake l' with
    | none => rw [h4] at h; simp at h
    | some v =>
      obtain ⟨app, l''⟩ := v
      rw [h4] at h
      simp only [Option.some.injEq, Prod.mk.injEq] at h
      obtain ⟨rfl, rfl⟩ := h
      obtain ⟨body, rfl, hx⟩ := sshTakeEC_split h3
      obtain ⟨a, s, rfl⟩ := sshTake_iff.1 h4
      exact ⟨body ++ a, by simp, fun x => by rw [List.append_assoc, hx]; dsimp only; rw [s.take]⟩
  rename_i n4
  split at h
  · rename_i ha
    simp only [if_neg n1, if_neg n2, if_neg n3, if_neg n4, if_pos ha]
    cases h3 : sshTake l with
    | none => rw [h3] at h; simp at h
    | some v =>
      obtain ⟨key, l'⟩ := v
      rw [h3] at h
      dsimp only at h
      cases h4 : sshTake l' with
      | none => rw [h4] at h; simp at h
      | some v =>
        obtain ⟨app, l''⟩ := v
        rw [h4] at h
        dsimp only at h
        split at h
        rotate_left
        · simp at h
        rename_i hl
        simp only [Option.some.injEq, Prod.mk.injEq] at h
        obtain ⟨rfl, rfl⟩ := h
        obtain ⟨a, s, rfl⟩ := sshTake_iff.1 h3
        obtain ⟨b, s', rfl⟩ := sshTake_iff.1 h4
        exact ⟨a ++ b, by simp, fun x => by
          rw [List.append_assoc, s.take]; dsimp only; rw [s'.take]; dsimp only; rw [if_pos hl]⟩
  · simp at h

theorem sshRsaRest_iff {l r : GoString} : sshRsaRest l = some r ↔
    ∃ body e n, l = body ++ r ∧ OddExponent e ∧ RsaBlob (sshString (gs! "ssh-rsa") ++ body) e n := by
  constructor
  · intro h
    unfold sshRsaRest at h
    cases t1 : sshTake l with
    | none => rw [t1] at h; simp at h
    | some x =>
    obtain ⟨eb, l1⟩ := x
    rw [t1] at h
    dsimp only at h
    cases t2 : sshTake l1 with
    | none => rw [t2] at h; simp at h
    | some x =>
    obtain ⟨nb, l2⟩ := x
    rw [t2] at h
    dsimp only at h
    split at h
    · simp at h
    rename_i h1
    split at h
    · simp at h
    rename_i h2
    simp only [Option.some.injEq] at h
    subst h
    obtain ⟨a, s1, rfl⟩ := sshTake_iff.1 t1
    obtain ⟨b, s2, rfl⟩ := sshTake_iff.1 t2
    simp only [Bool.or_eq_true, decide_eq_true_eq, not_or] at h2
    refine ⟨a ++ b, bytesInt eb, bytesInt nb, by simp, ⟨by omega, by omega, by omega⟩, _, a, b, eb, nb, by simp,
      isString_iff.2 ⟨by decide, rfl⟩, s1, s2, signedBE_eq _, signedBE_eq _⟩
  · rintro ⟨body, e, n, rfl, ⟨o1, o2, o3⟩, a, b, c, eb, nb, h1, ha, hb, hc, he, hn⟩
    obtain ⟨_, rfl⟩ := isString_iff.1 ha
    rw [List.append_assoc] at h1
    have hbody : body = b ++ c := List.append_cancel_left h1
    subst hbody
    rw [signedBE_eq] at he
    unfold sshRsaRest
    rw [List.append_assoc, hb.take]
    dsimp only
    rw [hc.take]
    dsimp only
    rw [he, if_neg (by omega), if_neg (by simp; omega)]

theorem certName_iff {t name : GoString} : CertName t name ↔ (t, name) ∈ certTypes := by
  constructor
  · rintro (⟨h, rfl⟩ | ⟨base, h, rfl, rfl⟩)
    · revert h; revert t
      decide
    · revert h; revert base
      decide
  · intro h
    simp only [certTypes, List.mem_cons, Prod.mk.injEq, List.not_mem_nil, or_false] at h
    rcases h with ⟨rfl, rfl⟩ | ⟨rfl, rfl⟩ | ⟨rfl, rfl⟩ | ⟨rfl, rfl⟩ | ⟨rfl, rfl⟩ | ⟨rfl, rfl⟩ | ⟨rfl, rfl⟩ | ⟨rfl, rfl⟩
    · exact .inl (by decide)
    · exact .inl (by decide)
    · exact .inl (by decide)
    · exact .inl (by decide)
    · exact .inl (by decide)
    · exact .inr ⟨gs! "sk-ecdsa-sha2-nistp256", by decide⟩
    · exact .inl (by decide)
    · exact .inr ⟨gs! "sk-ssh-ed25519", by decide⟩

theorem certTypes_snd : ∀ x ∈ certTypes, certTypes.find? (fun y => y.2 = x.2) = some x := by decide

theorem certTypes_fst : ∀ x ∈ certTypes, certTypes.find? (fun y => y.1 = x.1) = some x := by decide

/-- The key inside a certificate. -/
theorem sshCertKey_iff {plain l t tail : GoString} (hl : plain.length < 2 ^ 32) : sshCertKey plain l = some (t, tail) ↔
    ∃ n nonce body, l = n ++ body ++ tail ∧ IsString n nonce ∧ KeyBlob (sshString plain ++ body) t := by
  unfold sshCertKey
  constructor
  · intro h
    cases t1 : sshTake l with
    | none => rw [t1] at h; simp at h
    | some x =>
    obtain ⟨nonce, l1⟩ := x
    rw [t1] at h
    dsimp only at h
    obtain ⟨n, sn, rfl⟩ := sshTake_iff.1 t1
    split at h
    · rename_i hp
      subst hp
      simp only [Option.map_eq_some_iff, Prod.mk.injEq] at h
      obtain ⟨r, h1, rfl, rfl⟩ := h
      obtain ⟨body, e, m, rfl, ho, hr⟩ := sshRsaRest_iff.1 h1
      exact ⟨n, nonce, body, by simp, sn, .rsa ho hr⟩
    · simp only [Option.map_eq_some_iff, Prod.mk.injEq] at h
      obtain ⟨⟨k, r⟩, h1, rfl, rfl⟩ := h
      obtain ⟨body, rfl, hx⟩ := sshPlain_split h1
      have := hx []
      rw [List.append_nil] at this
      exact ⟨n, nonce, body, by simp, sn, .other (sshPlain_iff.2 ⟨plain, body, k, sshTake_string hl _, this, rfl⟩)⟩
  · rintro ⟨n, nonce, body, rfl, sn, hk⟩
    rw [List.append_assoc, sn.take]
    dsimp only
    cases hk with
    | @rsa e m ho hr =>
      have hp : plain = gs! "ssh-rsa" := by
        obtain ⟨a, b, c, eb, nb, h1, ha, _⟩ := hr
        have h2 := sshTake_string hl body
        rw [h1, List.append_assoc, ha.take] at h2
        simp only [Option.some.injEq, Prod.mk.injEq] at h2
        exact h2.1.symm
      subst hp
      rw [if_pos rfl, sshRsaRest_iff.2 ⟨body, e, m, rfl, ho, hr⟩]
      rfl
    | other ho =>
      obtain ⟨algo, rest, k, h1, h2, rfl⟩ := sshPlain_iff.1 ho
      rw [sshTake_string hl] at h1
      simp only [Option.some.injEq, Prod.mk.injEq] at h1
      obtain ⟨rfl, rfl⟩ := h1
      rw [if_neg (sshPlain_algo h2).2]
      obtain ⟨body', hb, hx⟩ := sshPlain_split h2
      rw [List.append_nil] at hb
      subst hb
      rw [hx]
      rfl

theorem sshStrings_iff {f : Nat} {l : GoString} (hf : l.length ≤ f) : sshStrings f l = true ↔ Strings l := by
  induction f generalizing l with
  | zero =>
    have : l = [] := List.length_eq_zero_iff.1 (by omega)
    subst this
    exact ⟨fun _ => .nil, fun _ => rfl⟩
  | succ f ih =>
    cases hl : l with
    | nil => exact ⟨fun _ => .nil, fun _ => by rw [sshStrings]⟩
    | cons c l' =>
      rw [sshStrings.eq_def]
      dsimp only
      rw [← hl]
      constructor
      · intro h
        split at h
        · simp at h
        rename_i s r ht
        obtain ⟨a, ha, he⟩ := sshTake_iff.1 ht
        have := ha.len
        have hlen := congrArg List.length he
        rw [List.length_append] at hlen
        rw [he]
        exact .cons ha ((ih (by omega)).1 h)
      · intro h
        cases h with
        | nil => simp at hl
        | @cons a s r ha t =>
          have := ha.len
          rw [List.length_append] at hf
          rw [ha.take]
          exact (ih (by omega)).2 t

theorem bytesLt_iff {a b : GoString} : bytesLt a b = true ↔ a < b := by
  induction a generalizing b with
  | nil => cases b <;> simp [bytesLt]
  | cons x a ih =>
    cases b with
    | nil => simp [bytesLt]
    | cons y b =>
      rw [bytesLt, List.cons_lt_cons_iff, ← ih, Bool.or_eq_true, Bool.and_eq_true, decide_eq_true_eq, beq_iff_eq]
      rfl

theorem certLt_trans {a b c : GoString} (h1 : bytesLt a b = true) (h2 : bytesLt b c = true) : bytesLt a c = true := by
  induction a generalizing b c with
  | nil =>
    cases b with
    | nil => simp [bytesLt] at h1
    | cons y b => cases c <;> simp_all [bytesLt]
  | cons x a ih =>
    cases b with
    | nil => simp [bytesLt] at h1
    | cons y b =>
      cases c with
      | nil => simp [bytesLt] at h2
      | cons z c =>
        simp only [bytesLt, Bool.or_eq_true, decide_eq_true_eq, Bool.and_eq_true, beq_iff_eq] at h1 h2 ⊢
        rcases h1 with h1 | ⟨rfl, h1⟩
        · rcases h2 with h2 | ⟨rfl, h2⟩
          · exact .inl (by omega)
          · exact .inl h1
        · rcases h2 with h2 | ⟨rfl, h2⟩
          · exact .inl h2
          · exact .inr ⟨rfl, ih h1 h2⟩

theorem sshTuples_iff {f : Nat} {last : Option GoString} {l : GoString} (hf : l.length ≤ f) : sshTuples f last l = true ↔
    ∃ names, Named names l ∧ names.Pairwise (· < ·) ∧ ∀ k, last = some k → ∀ n ∈ names, k < n := by
  induction f generalizing l last with
  | zero =>
    have : l = [] := List.length_eq_zero_iff.1 (by omega)
    subst this
    exact ⟨fun _ => ⟨[], .nil, .nil, fun _ _ _ h => nomatch h⟩, fun _ => rfl⟩
  | succ f ih =>
    cases hl : l with
    | nil => exact ⟨fun _ => ⟨[], .nil, .nil, fun _ _ _ h => nomatch h⟩, fun _ => by rw [sshTuples]⟩
    | cons c l' =>
      rw [sshTuples.eq_def]
      dsimp only
      rw [← hl]
      constructor
      · intro h
        split at h
        · simp at h
        rename_i key r ht
        split at h
        · simp at h
        rename_i hlast
        split at h
        · simp at h
        rename_i val r' ht'
        have key' : (val = [] ∨ ∃ s, IsString val s) ∧ sshTuples f (some key) r' = true := by
          split at h
          · rename_i hv
            exact ⟨.inl hv, h⟩
          · split at h
            · rename_i s hs
              obtain ⟨a, ha, he⟩ := sshTake_iff.1 hs
              rw [List.append_nil] at he
              exact ⟨.inr ⟨s, he ▸ ha⟩, h⟩
            · simp at h
        obtain ⟨hv, h⟩ := key'
        obtain ⟨a, ha, he⟩ := sshTake_iff.1 ht
        obtain ⟨b, hb, he'⟩ := sshTake_iff.1 ht'
        have l1 := ha.len
        have l2 := congrArg List.length he
        have l3 := congrArg List.length he'
        rw [List.length_append] at l2 l3
        obtain ⟨names, h1, h2, h3⟩ := (ih (by omega)).1 h
        refine ⟨key :: names, ?_, ?_, ?_⟩
        · rw [he, he', ← List.append_assoc]
          exact .cons ha hb hv h1
        · rw [List.pairwise_cons]
          exact ⟨fun n hn => h3 key rfl n hn, h2⟩
        · intro k hk n hn
          subst hk
          have hlt : bytesLt k key = true := by simpa using hlast
          rcases List.mem_cons.1 hn with rfl | hn
          · exact bytesLt_iff.1 hlt
          · exact bytesLt_iff.1 (certLt_trans hlt (bytesLt_iff.2 (h3 key rfl n hn)))
      · rintro ⟨names, h1, h2, h3⟩
        cases h1 with
        | nil => simp at hl
        | @cons a b name val r names ha hb hv t =>
          have l1 := ha.len
          rw [List.length_append, List.length_append] at hf
          rw [List.append_assoc, ha.take]
          dsimp only
          rw [List.pairwise_cons] at h2
          rw [if_neg (by
            cases last with
            | none => simp
            | some k =>
              have := bytesLt_iff.2 (h3 k rfl name (by simp))
              simp [this]), hb.take]
          dsimp only
          have hr := (ih (last := some name) (l := r) (by omega)).2
            ⟨names, t, h2.2, fun k hk n hn => by cases hk; exact h2.1 n hn⟩
          by_cases hv0 : val = []
          · rw [if_pos hv0]; exact hr
          · rw [if_neg hv0]
            obtain ⟨s, hs⟩ := hv.resolve_left hv0
            rw [hs.take_nil]
            exact hr

theorem sshOptions_iff {l : GoString} : sshTuples l.length none l = true ↔ CertOptions l := by
  rw [sshTuples_iff (Nat.le_refl _)]
  constructor
  · rintro ⟨names, h1, h2, _⟩; exact ⟨names, h1, h2⟩
  · rintro ⟨names, h1, h2⟩; exact ⟨names, h1, h2, fun k hk => nomatch hk⟩

theorem sshSignature_iff {l : GoString} : sshSignature l = true ↔ CertSignature l := by
  have hsk : ∀ format : GoString, [gs! "sk-ecdsa-sha2-nistp256@openssh.com", gs! "sk-ecdsa-sha2-nistp256-cert-v01@openssh.com",
        gs! "sk-ssh-ed25519@openssh.com", gs! "sk-ssh-ed25519-cert-v01@openssh.com"].contains format = true ↔
      ∃ base ∈ [gs! "sk-ecdsa-sha2-nistp256", gs! "sk-ssh-ed25519"],
        format = base ++ gs! "@openssh.com" ∨ format = base ++ gs! "-cert-v01@openssh.com" := by
    intro format
    rw [List.contains_iff_mem]
    simp only [List.mem_cons, List.not_mem_nil, or_false]
    constructor
    · rintro (rfl | rfl | rfl | rfl)
      · exact ⟨_, .inl rfl, .inl rfl⟩
      · exact ⟨_, .inl rfl, .inr rfl⟩
      · exact ⟨_, .inr rfl, .inl rfl⟩
      · exact ⟨_, .inr rfl, .inr rfl⟩
    · rintro ⟨base, rfl | rfl, rfl | rfl⟩
      · exact .inl rfl
      · exact .inr (.inl rfl)
      · exact .inr (.inr (.inl rfl))
      · exact .inr (.inr (.inr rfl))
  unfold sshSignature
  constructor
  · intro h
    split at h
    · simp at h
    rename_i format r ht
    split at h
    · simp at h
    rename_i bytes r' ht'
    obtain ⟨a, ha, rfl⟩ := sshTake_iff.1 ht
    obtain ⟨b, hb, rfl⟩ := sshTake_iff.1 ht'
    rw [Bool.or_eq_true, decide_eq_true_eq, hsk] at h
    exact ⟨a, b, format, bytes, r', by simp, ha, hb, h⟩
  · rintro ⟨a, b, format, bytes, more, rfl, ha, hb, h⟩
    rw [List.append_assoc, ha.take]
    dsimp only
    rw [hb.take]
    dsimp only
    rw [Bool.or_eq_true, decide_eq_true_eq, hsk]
    exact h

theorem sshSkip_iff {n : Nat} {l r : GoString} : sshSkip n l = some r ↔ ∃ a, a.length = n ∧ l = a ++ r := by
  unfold sshSkip
  constructor
  · intro h
    split at h
    · simp at h
    rename_i hn
    simp only [Option.some.injEq] at h
    subst h
    exact ⟨l.take n, by simp; omega, (List.take_append_drop n l).symm⟩
  · rintro ⟨a, rfl, rfl⟩
    rw [if_neg (by simp)]
    simp

theorem sshCertTail_iff {l signer : GoString} : sshCertTail l = some signer ↔ CertTail l signer := by
  constructor
  · intro h
    unfold sshCertTail at h
    split at h
    · simp at h
    rename_i l1 t1
    split at h
    · simp at h
    rename_i keyId l2 t2
    split at h
    · simp at h
    rename_i principals l3 t3
    split at h
    · simp at h
    rename_i l4 t4
    split at h
    · simp at h
    rename_i options l5 t5
    split at h
    · simp at h
    rename_i extensions l6 t6
    split at h
    · simp at h
    rename_i reserved l7 t7
    split at h
    · simp at h
    rename_i sg l8 t8
    split at h
    rotate_left
    · simp at h
    rename_i sig t9
    split at h
    rotate_left
    · simp at h
    rename_i hc
    simp only [Option.some.injEq] at h
    subst h
    simp only [Bool.and_eq_true] at hc
    obtain ⟨⟨⟨c1, c2⟩, c3⟩, c4⟩ := hc
    obtain ⟨a1, s1, rfl⟩ := sshSkip_iff.1 t1
    obtain ⟨a2, s2, rfl⟩ := sshTake_iff.1 t2
    obtain ⟨a3, s3, rfl⟩ := sshTake_iff.1 t3
    obtain ⟨a4, s4, rfl⟩ := sshSkip_iff.1 t4
    obtain ⟨a5, s5, rfl⟩ := sshTake_iff.1 t5
    obtain ⟨a6, s6, rfl⟩ := sshTake_iff.1 t6
    obtain ⟨a7, s7, rfl⟩ := sshTake_iff.1 t7
    obtain ⟨a8, s8, rfl⟩ := sshTake_iff.1 t8
    obtain ⟨a9, s9, rfl⟩ := sshTake_iff.1 t9
    exact ⟨a1, a2, a3, a4, a5, a6, a7, a8, a9, _, _, _, _, _, _, by simp, s1, s4, s2, s3, s5, s6, s7, s8, s9,
      (sshStrings_iff (Nat.le_refl _)).1 c1, sshOptions_iff.1 c2, sshOptions_iff.1 c3, sshSignature_iff.1 c4⟩
  · rintro ⟨a1, a2, a3, a4, a5, a6, a7, a8, a9, x1, x2, x3, x4, x5, x6, rfl, s1, s4, s2, s3, s5, s6, s7, s8, s9, c1, c2, c3, c4⟩
    unfold sshCertTail
    simp only [List.append_assoc]
    rw [sshSkip_iff.2 ⟨a1, s1, rfl⟩]
    dsimp only
    rw [s2.take]
    dsimp only
    rw [s3.take]
    dsimp only
    rw [sshSkip_iff.2 ⟨a4, s4, rfl⟩]
    dsimp only
    rw [s5.take]
    dsimp only
    rw [s6.take]
    dsimp only
    rw [s7.take]
    dsimp only
    rw [s8.take]
    dsimp only
    rw [s9.take_nil]
    dsimp only
    rw [if_pos]
    rw [(sshStrings_iff (Nat.le_refl _)).2 c1, sshOptions_iff.2 c2, sshOptions_iff.2 c3, sshSignature_iff.2 c4]
    rfl

/-- `parsePubKey` after the name. -/
def sshRead (fuel : Nat) (algo rest : GoString) : Option SshPub :=
  if algo = gs! "ssh-rsa" then sshParseRsa rest else sshOther fuel algo rest

theorem sshParseRsa_iff {rest : GoString} {k : SshPub} : sshParseRsa rest = some k ↔
    ∃ e : Nat, ∃ n, k = .rsa e n ∧ OddExponent e ∧ RsaBlob (sshString (gs! "ssh-rsa") ++ rest) e n := by
  have hp : ∀ k, sshParse (sshString (gs! "ssh-rsa") ++ rest) = some k ↔ sshParseRsa rest = some k := by
    intro k
    rw [sshParse, sshTake_string (by decide)]
    dsimp only
    rw [if_pos rfl]
  constructor
  · intro h
    have hk : ∃ e n, k = .rsa e n := by
      unfold sshParseRsa at h
      split at h
      · simp at h
      split at h
      · dsimp only at h
        split at h
        · simp at h
        split at h
        · simp at h
        · simp only [Option.some.injEq] at h
          exact ⟨_, _, h.symm⟩
      · simp at h
    obtain ⟨e, n, rfl⟩ := hk
    exact ⟨e, n, rfl, sshParse_rsa_iff.1 ((hp _).2 h)⟩
  · rintro ⟨e, n, rfl, h⟩
    exact (hp _).1 (sshParse_rsa_iff.2 h)

theorem sshRead_sound {fuel : Nat} {algo rest : GoString} {k : SshPub} (hl : algo.length < 2 ^ 32)
    (h : sshRead fuel algo rest = some k) : SshBlob (sshString algo ++ rest) k.type := by
  induction fuel generalizing algo rest k with
  | zero =>
    unfold sshRead at h
    split at h
    · rename_i ha
      subst ha
      obtain ⟨e, n, rfl, h1, h2⟩ := sshParseRsa_iff.1 h
      exact .key (.rsa h1 h2)
    · rw [sshOther.eq_def] at h
      dsimp only at h
      split at h
      · split at h
        · rename_i k' hk
          simp only [Option.some.injEq] at h
          subst h
          exact .key (.other (sshPlain_iff.2 ⟨algo, rest, k', sshTake_string hl _, hk, rfl⟩))
        · simp at h
      · simp at h
  | succ fuel ih =>
    unfold sshRead at h
    split at h
    · rename_i ha
      subst ha
      obtain ⟨e, n, rfl, h1, h2⟩ := sshParseRsa_iff.1 h
      exact .key (.rsa h1 h2)
    · rw [sshOther.eq_def] at h
      dsimp only at h
      split at h
      · split at h
        · rename_i k' hk
          simp only [Option.some.injEq] at h
          subst h
          exact .key (.other (sshPlain_iff.2 ⟨algo, rest, k', sshTake_string hl _, hk, rfl⟩))
        · simp at h
      · rename_i plain name hf
        have hm := List.mem_of_find?_eq_some hf
        have he := List.find?_some hf
        simp only [decide_eq_true_eq] at he
        subst he
        split at h
        · simp at h
        rename_i type tail h1
        split at h
        · simp at h
        rename_i signer h2
        split at h
        · simp at h
        rename_i algo' rest' h3
        change (if (sshRead fuel algo' rest').isSome = true then
          (certTypes.find? fun x => x.1 = type).map fun x => SshPub.other x.2 rest else none) = some k at h
        by_cases h4 : (sshRead fuel algo' rest').isSome = true
        rotate_left
        · rw [if_neg h4] at h; simp at h
        rw [if_pos h4] at h
        obtain ⟨k', hk'⟩ := Option.isSome_iff_exists.1 h4
        simp only [Option.map_eq_some_iff] at h
        obtain ⟨x, hx, rfl⟩ := h
        have hpl : plain.length < 2 ^ 32 := by
          have : ∀ x ∈ certTypes, x.1.length < 2 ^ 32 := by decide
          exact this _ hm
        obtain ⟨n, nonce, body, rfl, sn, hkb⟩ := (sshCertKey_iff hpl).1 h1
        obtain ⟨h5, h6⟩ := sshTake_some h3
        have hs := ih h6 (show sshRead fuel algo' rest' = some k' from hk')
        rw [← h5] at hs
        have hx1 := List.mem_of_find?_eq_some hx
        have hx2 := List.find?_some hx
        simp only [decide_eq_true_eq] at hx2
        have := SshBlob.cert (isString_iff.2 ⟨hl, rfl⟩) (certName_iff.2 hm) sn (isString_iff.2 ⟨hpl, rfl⟩) hkb
          (sshCertTail_iff.1 h2) hs (name' := x.2) (certName_iff.2 (by rw [← hx2]; exact hx1))
        simpa [SshPub.type, List.append_assoc] using this

theorem CertTail.length {tail signer : GoString} (h : CertTail tail signer) : signer.length < tail.length := by
  obtain ⟨a1, a2, a3, a4, a5, a6, a7, a8, a9, x1, x2, x3, x4, x5, x6, rfl, s1, s4, s2, s3, s5, s6, s7, s8, s9, _⟩ := h
  have := s8.len
  simp only [List.length_append]
  omega

theorem sshRead_complete {raw t : GoString} (h : SshBlob raw t) : ∃ algo rest, sshTake raw = some (algo, rest) ∧
    ∀ fuel, raw.length ≤ fuel → ∃ k, sshRead fuel algo rest = some k ∧ k.type = t := by
  induction h with
  | @key raw t h =>
    cases h with
    | @rsa e n ho h =>
      have h' := h
      obtain ⟨a, b, c, eb, nb, rfl, ha, hb, hc, he, hn⟩ := h
      refine ⟨gs! "ssh-rsa", b ++ c, by rw [List.append_assoc]; exact ha.take _, fun fuel _ => ?_⟩
      obtain ⟨m, rfl⟩ : ∃ m : Nat, e = m := ⟨e.toNat, by have := ho.1; omega⟩
      refine ⟨.rsa m n, ?_, rfl⟩
      unfold sshRead
      rw [if_pos rfl, sshParseRsa_iff]
      obtain ⟨_, rfl⟩ := isString_iff.1 ha
      exact ⟨m, n, rfl, ho, by rw [← List.append_assoc]; exact h'⟩
    | other h =>
      obtain ⟨algo, rest, k, h1, h2, rfl⟩ := sshPlain_iff.1 h
      obtain ⟨h3, h4⟩ := sshPlain_algo h2
      refine ⟨algo, rest, h1, fun fuel _ => ⟨k, ?_, rfl⟩⟩
      unfold sshRead
      rw [if_neg h4, sshOther.eq_def]
      dsimp only
      rw [h3]
      dsimp only
      rw [h2]
  | @cert a n p body tail name nonce plain signer t u name' ha hn hc hp hk ht hs ht' ih =>
    obtain ⟨algo', rest', g1, g2⟩ := ih
    refine ⟨name, n ++ body ++ tail, by simp only [List.append_assoc]; exact ha.take _, fun fuel hf => ?_⟩
    have l1 := ha.len
    have l2 := ht.length
    simp only [List.length_append] at hf
    cases fuel with
    | zero => omega
    | succ fuel =>
      obtain ⟨k, hk1, hk2⟩ := g2 fuel (by omega)
      have hm := certName_iff.1 hn
      have hm' := certName_iff.1 ht'
      refine ⟨.other name' (n ++ body ++ tail), ?_, rfl⟩
      unfold sshRead
      have hne : name ≠ gs! "ssh-rsa" := by
        have : ∀ x ∈ certTypes, x.2 ≠ gs! "ssh-rsa" := by decide
        exact this _ hm
      rw [if_neg hne, sshOther.eq_def]
      dsimp only
      rw [certTypes_snd _ hm]
      dsimp only
      obtain ⟨hpl, rfl⟩ := isString_iff.1 hp
      rw [(sshCertKey_iff hpl).2 ⟨n, nonce, body, rfl, hc, hk⟩]
      dsimp only
      rw [sshCertTail_iff.2 ht]
      dsimp only
      rw [g1]
      dsimp only
      unfold sshRead at hk1
      rw [hk1, certTypes_fst _ hm']
      rfl

/-- The library reads exactly the keys and certificates of the format, and with the type that they have. -/
theorem sshParse_type_iff {raw t : GoString} : (∃ k, sshParse raw = some k ∧ k.type = t) ↔ SshBlob raw t := by
  constructor
  · rintro ⟨k, h, rfl⟩
    unfold sshParse at h
    split at h
    · simp at h
    rename_i algo rest h1
    obtain ⟨h2, h3⟩ := sshTake_some h1
    have := sshRead_sound (fuel := raw.length) h3 (rest := rest) (k := k) h
    rw [h2]
    exact this
  · intro h
    obtain ⟨algo, rest, h1, h2⟩ := sshRead_complete h
    obtain ⟨k, h3, h4⟩ := h2 raw.length (Nat.le_refl _)
    refine ⟨k, ?_, h4⟩
    unfold sshParse
    rw [h1]
    exact h3

end GoIdentity
