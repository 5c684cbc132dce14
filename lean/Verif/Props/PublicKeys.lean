import Verif.Lemmas.Split
import Verif.Lemmas.Pem
import Verif.Props.Keys
/-!
# Exact acceptance of public keys: C69
-/
namespace GoIdentity
open Toy

/-! ## C69 -/

/-- The text up to the first space or tab, and what follows it (including that character). -/
def CutAtBlank (t f r : GoString) : Prop :=
  t = f ++ r ∧ (∀ b ∈ f, b ≠ 32 ∧ b ≠ 9) ∧ ∀ b, r.head? = some b → b = 32 ∨ b = 9

/-- The base64 field and the comment of an OpenSSH line starting with `ssh-rsa `. -/
def LineFields (payload f c : GoString) : Prop :=
  ∃ r, CutAtBlank (trimSpace ((trimSpace payload).drop 7)) f r ∧ c = trimSpace r

/-- The key before its payload is read. -/
def freshKey (now : Clock) (id : GoString) (k : ReqKey) : PublicKey :=
  { id := id, usage := k.usage, type := [], fingerprint := [], fingerprintMD5 := [], comment := k.comment,
    payload := k.payload, openSSH := [], expired := false, expiredAt := .zero, createdAt := now 0,
    disabled := k.disabled, disabledAt := if k.disabled then now 1 else .zero }

/-- A PEM block of type `RSA PUBLIC KEY`, for usage `ssh`. -/
def FromPem [Ext] (k : ReqKey) (p0 p : PublicKey) : Prop :=
  Contains (gs! "RSA PUBLIC KEY") k.payload ∧ k.usage = gs! "ssh" ∧
  ∃ der key, pemDecode (trimSpace k.payload) = some (gs! "RSA PUBLIC KEY", der) ∧
    pkixToSsh der = some (some key) ∧
    p = { p0 with type := key.type, fingerprintMD5 := key.md5, fingerprint := key.sha256, openSSH := key.base64 ++ [10] }

/-- An OpenSSH line with an RSA key, for either usage. -/
def FromLine [Ext] (k : ReqKey) (p0 p : PublicKey) : Prop :=
  ¬ Contains (gs! "RSA PUBLIC KEY") k.payload ∧ gs! "ssh-rsa " <+: k.payload ∧
  ∃ f c raw e n, LineFields k.payload f c ∧ b64Decode f = some raw ∧ sshParse raw = some (.rsa e n) ∧
    p = { p0 with type := gs! "ssh-rsa", fingerprintMD5 := (SshPub.rsa e n).md5, openSSH := f,
                  fingerprint := gs! "SHA256:" ++ (SshPub.rsa e n).sha256, payload := rsaPem e n,
                  comment := if c = [] then k.comment else c }

/-- An armoured PGP block with exactly one entity, for either usage. -/
def FromPgp [Ext] (k : ReqKey) (p0 p : PublicKey) : Prop :=
  ¬ Contains (gs! "RSA PUBLIC KEY") k.payload ∧ ¬ gs! "ssh-rsa " <+: k.payload ∧
  Contains (gs! "BEGIN PGP PUBLIC KEY BLOCK") k.payload ∧
  gs! "-----BEGIN PGP PUBLIC KEY BLOCK-----" <+: trimSpace k.payload ∧
  gs! "-----END PGP PUBLIC KEY BLOCK-----" <:+ trimSpace k.payload ∧
  ∃ e user users algo type, Ext.pgpRead (trimSpace k.payload) = some [e] ∧ e.hasPrimaryKey = true ∧
    e.identities = user :: users ∧
    (e.pubKeyAlgo, algo, type) ∈
      [(1, gs! "RSA", gs! "rsa"), (2, gs! "RSA", gs! "rsa"), (3, gs! "RSA", gs! "rsa"), (17, gs! "DSA", gs! "dsa"),
       (18, gs! "ECDH", gs! "ecdh"), (19, gs! "ECDSA", gs! "ecdsa")] ∧
    p = { p0 with
      id := e.keyIdHex, fingerprint := e.fingerprintHex, type := type, payload := trimSpace k.payload
      comment :=
        (if k.comment ≠ [] then k.comment ++ gs! " (" else []) ++ user ++ gs! ", algo " ++ algo ++ gs! ", created " ++
          e.created ++ (if k.comment ≠ [] then gs! ")" else []) }

theorem indexBlank_at {t : GoString} :
    (indexBlank t = none ∧ CutAtBlank t t []) ∨ ∃ n, indexBlank t = some n ∧ n < t.length ∧ CutAtBlank t (t.take n) (t.drop n) := by
  unfold indexBlank CutAtBlank
  cases h : t.findIdx? (fun b => b == 32 || b == 9) with
  | none =>
    left
    refine ⟨rfl, by simp, ?_, by simp⟩
    intro b hb
    have := List.findIdx?_eq_none_iff.1 h b hb
    simpa using this
  | some n =>
    right
    rw [List.findIdx?_eq_some_iff_getElem] at h
    obtain ⟨hn, h1, h2⟩ := h
    refine ⟨n, rfl, hn, by simp, ?_, ?_⟩
    · intro b hb
      obtain ⟨i, hi, rfl⟩ := List.mem_take_iff_getElem.1 hb
      have := h2 i (by omega)
      simpa using this
    · intro b hb
      rw [List.head?_drop, List.getElem?_eq_getElem hn, Option.some.injEq] at hb
      subst hb
      simpa using h1

theorem cut_unique {t f r f' r' : GoString} (h : CutAtBlank t f r) (h' : CutAtBlank t f' r') : f = f' ∧ r = r' := by
  obtain ⟨h1, h2, h3⟩ := h
  obtain ⟨h1', h2', h3'⟩ := h'
  rw [h1] at h1'
  have key : ∀ (f f' r r' : GoString), f ++ r = f' ++ r' → (∀ b ∈ f, b ≠ 32 ∧ b ≠ 9) → (∀ b ∈ f', b ≠ 32 ∧ b ≠ 9) →
      (∀ b, r.head? = some b → b = 32 ∨ b = 9) → (∀ b, r'.head? = some b → b = 32 ∨ b = 9) → f = f' ∧ r = r' := by
    intro f
    induction f with
    | nil =>
      intro f' r r' he _ hf' hr _
      cases f' with
      | nil => exact ⟨rfl, by simpa using he⟩
      | cons x f' =>
        have : r.head? = some x := by simp only [List.nil_append] at he; rw [he]; rfl
        have hx := hf' x (by simp)
        rcases hr x this with e | e
        · exact absurd e hx.1
        · exact absurd e hx.2
    | cons y f ih =>
      intro f' r r' he hf hf' hr hr'
      cases f' with
      | nil =>
        have : r'.head? = some y := by simp only [List.nil_append] at he; rw [← he]; rfl
        have hx := hf y (by simp)
        rcases hr' y this with e | e
        · exact absurd e hx.1
        · exact absurd e hx.2
      | cons x f' =>
        simp only [List.cons_append, List.cons.injEq] at he
        obtain ⟨e1, e2⟩ := ih f' r r' he.2 (fun b hb => hf b (by simp [hb])) (fun b hb => hf' b (by simp [hb])) hr hr'
        exact ⟨by rw [he.1, e1], e2⟩
  exact key f f' r r' h1' h2 h2' h3 h3'

theorem trimSpace_line (y : GoString) :
    ∃ z, trimSpace (gs! "ssh-rsa " ++ y) = gs! "ssh-rsa" ++ z ∧ (z = [] ∨ ∃ z', z = 32 :: z') := by
  have hl : trimLeft (gs! "ssh-rsa " ++ y) = gs! "ssh-rsa " ++ y :=
    trimLeft_of_clear (clearStart_cons (by decide))
  unfold trimSpace
  rw [hl]
  obtain ⟨b, hb, hx⟩ := trimRight_decomp (gs! "ssh-rsa " ++ y)
  generalize trimRight (gs! "ssh-rsa " ++ y) = w at hx
  have hlen : 7 ≤ w.length := by
    apply Classical.byContradiction
    intro hc
    have h6 : (97 : UInt8) ∈ b := by
      have e : (gs! "ssh-rsa " ++ y)[6]? = some 97 := rfl
      rw [hx, List.getElem?_append_right (by omega)] at e
      exact List.mem_of_getElem? e
    obtain ⟨ps, hps, rfl⟩ := hb
    obtain ⟨p, hp, hm⟩ := List.mem_flatten.1 h6
    exact not_mem_space (b := 97) (by decide) (hps p hp) hm
  have h7 : w = gs! "ssh-rsa" ++ w.drop 7 := by
    have e : (gs! "ssh-rsa " ++ y).take 7 = gs! "ssh-rsa" := rfl
    rw [hx, List.take_append_of_le_length hlen] at e
    rw [← e, List.take_append_drop]
  refine ⟨w.drop 7, h7, ?_⟩
  have e : (gs! "ssh-rsa " ++ y).drop 7 = 32 :: y := rfl
  rw [hx, List.drop_append_of_le_length hlen] at e
  cases hz : w.drop 7 with
  | nil => exact .inl rfl
  | cons c z' =>
    rw [hz] at e
    simp only [List.cons_append, List.cons.injEq] at e
    exact .inr ⟨z', by rw [e.1]⟩

/-- The two fields that are read from an OpenSSH line. -/
theorem lineFields_iff {payload : GoString} (h : gs! "ssh-rsa " <+: payload) {f c : GoString} :
    LineFields payload f c ↔ splitOpenSSH payload = (f, c, f) := by
  obtain ⟨y, rfl⟩ := h
  obtain ⟨z, hz, hz'⟩ := trimSpace_line y
  have hi : (indexBlank (gs! "ssh-rsa" ++ z)).getD (gs! "ssh-rsa" ++ z).length = 7 := by
    rcases hz' with rfl | ⟨z', rfl⟩ <;> rfl
  have hd : (gs! "ssh-rsa" ++ z).drop 7 = z := rfl
  unfold LineFields splitOpenSSH
  simp only [hz, hi, hd]
  rw [if_pos (by rw [List.length_take]; omega)]
  have hclear := (trimSpace_clear z).1
  generalize trimSpace z = t at hclear
  rcases indexBlank_at (t := t) with ⟨h1, h2⟩ | ⟨n, h1, hn, h2⟩
  · rw [h1]
    simp only [Prod.mk.injEq]
    constructor
    · rintro ⟨r, hr, rfl⟩
      obtain ⟨rfl, rfl⟩ := cut_unique hr h2
      exact ⟨rfl, rfl, rfl⟩
    · rintro ⟨rfl, rfl, _⟩
      exact ⟨[], h2, rfl⟩
  · have hn0 : n ≠ 0 := by
      rintro rfl
      obtain ⟨_, _, h3⟩ := h2
      cases t with
      | nil => simp at hn
      | cons x t =>
        have := h3 x rfl
        rcases this with rfl | rfl
        · exact hclear [32] (by decide) ⟨t, rfl⟩
        · exact hclear [9] (by decide) ⟨t, rfl⟩
    obtain ⟨m, rfl⟩ : ∃ m, n = m + 1 := ⟨n - 1, by omega⟩
    rw [h1]
    simp only [Prod.mk.injEq]
    constructor
    · rintro ⟨r, hr, rfl⟩
      obtain ⟨rfl, rfl⟩ := cut_unique hr h2
      exact ⟨rfl, rfl, rfl⟩
    · rintro ⟨rfl, rfl, _⟩
      exact ⟨_, h2, rfl⟩

theorem splitOpenSSH_third {payload : GoString} (h : gs! "ssh-rsa " <+: payload) :
    ∃ f c, splitOpenSSH payload = (f, c, f) := by
  rcases indexBlank_at (t := trimSpace ((trimSpace payload).drop 7)) with ⟨_, h2⟩ | ⟨n, _, _, h2⟩
  · exact ⟨_, _, (lineFields_iff h).1 ⟨_, h2, rfl⟩⟩
  · exact ⟨_, _, (lineFields_iff h).1 ⟨_, h2, rfl⟩⟩

theorem pgpAlgo_iff {n : Nat} {algo type : GoString} :
    pgpAlgo n = some (algo, type) ↔ (n, algo, type) ∈
      [(1, gs! "RSA", gs! "rsa"), (2, gs! "RSA", gs! "rsa"), (3, gs! "RSA", gs! "rsa"), (17, gs! "DSA", gs! "dsa"),
       (18, gs! "ECDH", gs! "ecdh"), (19, gs! "ECDSA", gs! "ecdsa")] := by
  unfold pgpAlgo
  simp only [List.mem_cons, Prod.mk.injEq, List.not_mem_nil, or_false]
  by_cases h1 : n = 1
  · subst h1; simp [eq_comm]
  by_cases h2 : n = 2
  · subst h2; simp [eq_comm]
  by_cases h3 : n = 3
  · subst h3; simp [eq_comm]
  by_cases h4 : n = 17
  · subst h4; simp [eq_comm]
  by_cases h5 : n = 18
  · subst h5; simp [eq_comm]
  by_cases h6 : n = 19
  · subst h6; simp [eq_comm]
  simp [h1, h2, h3, h4, h5, h6]

theorem parseRSA_iff [Ext] {k : ReqKey} {p0 p : PublicKey} (hu : p0.usage = k.usage) (hp : p0.payload = k.payload)
    (hc : Contains (gs! "RSA PUBLIC KEY") k.payload) : parsePublicKeyRSA p0 = .ok p ↔ FromPem k p0 p := by
  unfold FromPem
  rw [parsePublicKeyRSA_eq, hu, hp]
  by_cases h1 : k.usage = gs! "ssh"
  · rw [if_neg (by simpa using h1)]
    cases hd : pemDecode (trimSpace k.payload) with
    | none => simp
    | some x =>
      obtain ⟨type, der⟩ := x
      dsimp only
      by_cases ht : type = gs! "RSA PUBLIC KEY"
      · subst ht
        simp only [ne_eq, not_true, if_false]
        cases hk : pkixToSsh der with
        | none =>
          simp only [reduceCtorEq, false_iff]
          rintro ⟨_, _, der', key, he, hk', _⟩
          simp only [Option.some.injEq, Prod.mk.injEq, true_and] at he
          subst he
          rw [hk] at hk'; simp at hk'
        | some o =>
          cases o with
          | none =>
            simp only [reduceCtorEq, false_iff]
            rintro ⟨_, _, der', key, he, hk', _⟩
            simp only [Option.some.injEq, Prod.mk.injEq, true_and] at he
            subst he
            rw [hk] at hk'; simp at hk'
          | some key =>
            simp only [Res.ok.injEq]
            constructor
            · intro h; exact ⟨hc, h1, der, key, rfl, hk, h.symm⟩
            · rintro ⟨_, _, der', key', he, hk', rfl⟩
              simp only [Option.some.injEq, Prod.mk.injEq, true_and] at he
              subst he
              rw [hk, Option.some.injEq, Option.some.injEq] at hk'
              subst hk'; rfl
      · rw [if_pos ht]
        simp only [reduceCtorEq, false_iff]
        rintro ⟨_, _, der', key, he, _⟩
        simp only [Option.some.injEq, Prod.mk.injEq] at he
        exact ht he.1
  · rw [if_pos h1]
    simp only [reduceCtorEq, false_iff]
    rintro ⟨_, h, _⟩
    exact h1 h

theorem parseOpenSSH_iff [Ext] {k : ReqKey} {p0 p : PublicKey} (hp : p0.payload = k.payload) (hco : p0.comment = k.comment)
    (hc : ¬ Contains (gs! "RSA PUBLIC KEY") k.payload) (hl : gs! "ssh-rsa " <+: k.payload) :
    parsePublicKeyOpenSSH p0 = .ok p ↔ FromLine k p0 p := by
  unfold FromLine
  rw [parsePublicKeyOpenSSH_eq, hp]
  obtain ⟨f, c, hs⟩ := splitOpenSSH_third hl
  have hf : ∀ {f' c'}, LineFields k.payload f' c' → f' = f ∧ c' = c := by
    intro f' c' h
    have := (lineFields_iff hl).1 h
    rw [hs] at this
    simp only [Prod.mk.injEq] at this
    exact ⟨this.1.symm, this.2.1.symm⟩
  have hfc := (lineFields_iff hl).2 hs
  rw [hs]
  dsimp only
  cases hb : b64Decode f with
  | none =>
    simp only [reduceCtorEq, false_iff]
    rintro ⟨_, _, f', c', raw, e, n, h1, h2, _⟩
    obtain ⟨rfl, rfl⟩ := hf h1
    rw [hb] at h2; simp at h2
  | some raw =>
    cases hk : sshParse raw with
    | none =>
      simp only [hk, reduceCtorEq, false_iff]
      rintro ⟨_, _, f', c', raw', e, n, h1, h2, h3, _⟩
      obtain ⟨rfl, rfl⟩ := hf h1
      rw [hb, Option.some.injEq] at h2
      subst h2
      rw [hk] at h3; simp at h3
    | some key =>
      cases key with
      | rsa e n =>
        simp only [hk, Res.ok.injEq]
        constructor
        · intro h; exact ⟨hc, hl, f, c, raw, e, n, hfc, hb, hk, by rw [← h, hco]⟩
        · rintro ⟨_, _, f', c', raw', e', n', h1, h2, h3, rfl⟩
          obtain ⟨rfl, rfl⟩ := hf h1
          rw [hb, Option.some.injEq] at h2
          subst h2
          rw [hk, Option.some.injEq, SshPub.rsa.injEq] at h3
          obtain ⟨rfl, rfl⟩ := h3
          rw [hco]
      | other t r =>
        simp only [hk, reduceCtorEq, false_iff]
        rintro ⟨_, _, f', c', raw', e, n, h1, h2, h3, _⟩
        obtain ⟨rfl, rfl⟩ := hf h1
        rw [hb, Option.some.injEq] at h2
        subst h2
        rw [hk] at h3; simp at h3

theorem hasPrefix_iff {s p : GoString} : hasPrefix s p = true ↔ p <+: s := by
  unfold hasPrefix; exact List.isPrefixOf_iff_prefix
theorem hasSuffix_iff {s p : GoString} : hasSuffix s p = true ↔ p <:+ s := by
  unfold hasSuffix; exact List.isSuffixOf_iff_suffix

theorem parsePGP_iff [Ext] {k : ReqKey} {p0 p : PublicKey} (hp : p0.payload = k.payload) (hco : p0.comment = k.comment)
    (hc : ¬ Contains (gs! "RSA PUBLIC KEY") k.payload) (hl : ¬ gs! "ssh-rsa " <+: k.payload)
    (hb : Contains (gs! "BEGIN PGP PUBLIC KEY BLOCK") k.payload) :
    parsePublicKeyPGP p0 = .ok p ↔ FromPgp k p0 p := by
  unfold parsePublicKeyPGP FromPgp
  dsimp only
  rw [hp, hco]
  by_cases h1 : gs! "-----BEGIN PGP PUBLIC KEY BLOCK-----" <+: trimSpace k.payload
  · by_cases h2 : gs! "-----END PGP PUBLIC KEY BLOCK-----" <:+ trimSpace k.payload
    · simp only [hasPrefix_iff.2 h1, hasSuffix_iff.2 h2, Bool.not_true, Bool.false_eq_true, if_false]
      cases hr : Ext.pgpRead (trimSpace k.payload) with
      | none => simp
      | some es =>
        match es with
        | [] => simp
        | e :: e' :: es => simp
        | [e] =>
          dsimp only
          by_cases hk : e.hasPrimaryKey = true
          · simp only [hk, Bool.not_true, Bool.false_eq_true, if_false]
            cases hid : e.identities with
            | nil =>
              simp only [reduceCtorEq, false_iff]
              rintro ⟨_, _, _, _, _, x, user, users, algo, type, hx, _, hid', _⟩
              simp only [Option.some.injEq, List.cons.injEq, and_true] at hx
              subst hx
              rw [hid] at hid'; simp at hid'
            | cons user users =>
              dsimp only
              cases ha : pgpAlgo e.pubKeyAlgo with
              | none =>
                simp only [reduceCtorEq, false_iff]
                rintro ⟨_, _, _, _, _, x, user', users', algo, type, hx, _, _, ha', _⟩
                simp only [Option.some.injEq, List.cons.injEq, and_true] at hx
                subst hx
                rw [← pgpAlgo_iff, ha] at ha'; simp at ha'
              | some at_ =>
                obtain ⟨algo, type⟩ := at_
                simp only [Res.ok.injEq]
                constructor
                · intro h
                  refine ⟨hc, hl, hb, h1, h2, e, user, users, algo, type, rfl, hk, hid, pgpAlgo_iff.1 ha, ?_⟩
                  rw [← h]
                  by_cases hcm : k.comment = [] <;> simp [hcm]
                · rintro ⟨_, _, _, _, _, x, user', users', algo', type', hx, _, hid', ha', rfl⟩
                  simp only [Option.some.injEq, List.cons.injEq, and_true] at hx
                  subst hx
                  rw [← pgpAlgo_iff, ha] at ha'
                  simp only [Option.some.injEq, Prod.mk.injEq] at ha'
                  rw [hid] at hid'
                  simp only [List.cons.injEq] at hid'
                  obtain ⟨rfl, rfl⟩ := ha'
                  obtain ⟨rfl, rfl⟩ := hid'
                  by_cases hcm : k.comment = [] <;> simp [hcm]
          · simp only [Bool.eq_false_iff.2 hk, Bool.not_false, if_true, reduceCtorEq, false_iff]
            rintro ⟨_, _, _, _, _, x, user, users, algo, type, hx, hk', _⟩
            simp only [Option.some.injEq, List.cons.injEq, and_true] at hx
            subst hx
            exact hk hk'
    · have : hasSuffix (trimSpace k.payload) (gs! "-----END PGP PUBLIC KEY BLOCK-----") = false :=
        Bool.eq_false_iff.2 fun h => h2 (hasSuffix_iff.1 h)
      simp only [hasPrefix_iff.2 h1, this, Bool.not_true, Bool.false_eq_true, if_false, Bool.not_false, if_true, reduceCtorEq,
        false_iff]
      rintro ⟨_, _, _, _, h, _⟩
      exact h2 h
  · have : hasPrefix (trimSpace k.payload) (gs! "-----BEGIN PGP PUBLIC KEY BLOCK-----") = false :=
      Bool.eq_false_iff.2 fun h => h1 (hasPrefix_iff.1 h)
    simp only [this, Bool.not_false, if_true, reduceCtorEq, false_iff]
    rintro ⟨_, _, _, h, _⟩
    exact h1 h

theorem parse_iff [Ext] {k : ReqKey} {p0 p : PublicKey} (hu : p0.usage = k.usage) (hp : p0.payload = k.payload)
    (hco : p0.comment = k.comment) :
    parsePublicKey p0 = .ok p ↔
      (k.usage = gs! "ssh" ∨ k.usage = gs! "gpg") ∧ (FromPem k p0 p ∨ FromLine k p0 p ∨ FromPgp k p0 p) := by
  unfold parsePublicKey
  rw [hu, hp]
  by_cases h1 : k.usage = gs! "ssh" ∨ k.usage = gs! "gpg"
  · rw [if_neg (not_not_intro h1)]
    by_cases h2 : k.payload = []
    · rw [if_pos h2]
      have nc : ∀ x : GoString, x ≠ [] → ¬ Contains x k.payload := by
        rintro x hx ⟨a, b, hab⟩
        rw [h2] at hab
        have := congrArg List.length hab
        simp only [List.length_nil, List.length_append] at this
        exact hx (List.length_eq_zero_iff.1 (by omega))
      simp only [reduceCtorEq, false_iff]
      rintro ⟨_, h | h | h⟩
      · exact nc _ (by decide) h.1
      · obtain ⟨y, hy⟩ := h.2.1
        exact nc (gs! "ssh-rsa ") (by decide) ⟨[], y, by simp [← hy]⟩
      · exact nc _ (by decide) h.2.2.1
    · rw [if_neg h2]
      by_cases h3 : Contains (gs! "RSA PUBLIC KEY") k.payload
      · rw [if_pos (containsSub_iff.2 h3), parseRSA_iff hu hp h3]
        constructor
        · exact fun h => ⟨h1, .inl h⟩
        · rintro ⟨_, h | h | h⟩
          · exact h
          · exact absurd h3 h.1
          · exact absurd h3 h.1
      · rw [if_neg (fun h => h3 (containsSub_iff.1 h))]
        by_cases h4 : gs! "ssh-rsa " <+: k.payload
        · rw [if_pos (hasPrefix_iff.2 h4), parseOpenSSH_iff hp hco h3 h4]
          constructor
          · exact fun h => ⟨h1, .inr (.inl h)⟩
          · rintro ⟨_, h | h | h⟩
            · exact absurd h.1 h3
            · exact h
            · exact absurd h4 h.2.1
        · rw [if_neg (fun h => h4 (hasPrefix_iff.1 h))]
          by_cases h5 : Contains (gs! "BEGIN PGP PUBLIC KEY BLOCK") k.payload
          · rw [if_pos (containsSub_iff.2 h5), parsePGP_iff hp hco h3 h4 h5]
            constructor
            · exact fun h => ⟨h1, .inr (.inr h)⟩
            · rintro ⟨_, h | h | h⟩
              · exact absurd h.1 h3
              · exact absurd h.2.1 h4
              · exact h
          · rw [if_neg (fun h => h5 (containsSub_iff.1 h))]
            simp only [reduceCtorEq, false_iff]
            rintro ⟨_, h | h | h⟩
            · exact h3 h.1
            · exact h4 h.2.1
            · exact h5 h.2.2.1
  · rw [if_pos h1]
    simp only [reduceCtorEq, false_iff]
    exact fun h => h1 h.1

/-- C69: `NewPublicKey` accepts exactly three kinds of payload, and in each case what it stores is determined by the payload
and by what the PEM, X.509, SSH and OpenPGP libraries make of it. -/
theorem C69_accepts_iff [Ext] (now : Clock) (id : GoString) (k : ReqKey) (p : PublicKey) :
    newPublicKey now id k = .ok p ↔
      (k.usage = gs! "ssh" ∨ k.usage = gs! "gpg") ∧
      (FromPem k (freshKey now id k) p ∨ FromLine k (freshKey now id k) p ∨ FromPgp k (freshKey now id k) p) := by
  have hparse : ∀ q : PublicKey, _ := fun q =>
    parse_iff (k := k) (p0 := freshKey now id { k with disabled := false }) (p := q) rfl rfl rfl
  have hnew : newPublicKey now id k = .ok p ↔ ∃ q, parsePublicKey (freshKey now id { k with disabled := false }) = .ok q ∧
      p = if k.disabled then { q with disabled := true, disabledAt := now 1 } else q := by
    unfold newPublicKey
    show (match parsePublicKey (freshKey now id { k with disabled := false }) with
      | .ok p => Res.ok (if k.disabled then { p with disabled := true, disabledAt := now 1 } else p)
      | .err e => .err e
      | .panic => .panic) = .ok p ↔ _
    cases parsePublicKey (freshKey now id { k with disabled := false }) with
    | ok q =>
      simp only [Res.ok.injEq]
      exact ⟨fun h => ⟨q, rfl, h.symm⟩, fun ⟨_, h1, h2⟩ => by rw [h2, h1]⟩
    | err e => simp
    | panic => simp
  rw [hnew]
  simp only [hparse]
  cases hd : k.disabled with
  | false =>
    have : freshKey now id k = freshKey now id { k with disabled := false } := by unfold freshKey; rw [hd]
    rw [this]
    simp
  | true =>
    have : freshKey now id k =
        { freshKey now id { k with disabled := false } with disabled := true, disabledAt := now 1 } := by
      unfold freshKey; rw [hd]; rfl
    rw [this]
    generalize freshKey now id { k with disabled := false } = p0
    simp only [if_true]
    constructor
    · rintro ⟨q, ⟨hu, h | h | h⟩, rfl⟩
      · obtain ⟨h1, h2, der, key, h3, h4, rfl⟩ := h
        exact ⟨hu, .inl ⟨h1, h2, der, key, h3, h4, rfl⟩⟩
      · obtain ⟨h1, h2, f, c, raw, key, h3, h4, h5, h6, rfl⟩ := h
        exact ⟨hu, .inr (.inl ⟨h1, h2, f, c, raw, key, h3, h4, h5, h6, rfl⟩)⟩
      · obtain ⟨h1, h2, h3, h4, h5, e, user, users, algo, type, h6, h7, h8, h9, rfl⟩ := h
        exact ⟨hu, .inr (.inr ⟨h1, h2, h3, h4, h5, e, user, users, algo, type, h6, h7, h8, h9, rfl⟩)⟩
    · rintro ⟨hu, h | h | h⟩
      · obtain ⟨h1, h2, der, key, h3, h4, rfl⟩ := h
        exact ⟨_, ⟨hu, .inl ⟨h1, h2, der, key, h3, h4, rfl⟩⟩, rfl⟩
      · obtain ⟨h1, h2, f, c, raw, key, h3, h4, h5, h6, rfl⟩ := h
        exact ⟨_, ⟨hu, .inr (.inl ⟨h1, h2, f, c, raw, key, h3, h4, h5, h6, rfl⟩)⟩, rfl⟩
      · obtain ⟨h1, h2, h3, h4, h5, e, user, users, algo, type, h6, h7, h8, h9, rfl⟩ := h
        exact ⟨_, ⟨hu, .inr (.inr ⟨h1, h2, h3, h4, h5, e, user, users, algo, type, h6, h7, h8, h9, rfl⟩)⟩, rfl⟩

/-- C69: reading a public key never panics. -/
theorem C69_no_panic [Ext] (now : Clock) (id : GoString) (k : ReqKey) : newPublicKey now id k ≠ .panic := by
  unfold newPublicKey
  split
  · simp
  · simp
  · rename_i h
    exfalso
    revert h
    unfold parsePublicKey
    split
    · simp
    split
    · simp
    split
    · unfold parsePublicKeyRSA
      repeat' split
      all_goals simp
    split
    · rw [parsePublicKeyOpenSSH_eq]
      repeat' split
      all_goals simp
    split
    · unfold parsePublicKeyPGP
      dsimp only
      repeat' split
      all_goals simp
    · simp

/-- A line with white space around its fields: the base64 field and a comment are cut out of it. -/
def lineKey : ReqKey := { usage := gs! "gpg", payload := gs! "ssh-rsa  AAAAB3NzaC1yc2EAAAABAwAAAAEh \t joe@laptop " }
example : LineFields lineKey.payload (gs! "AAAAB3NzaC1yc2EAAAABAwAAAAEh") (gs! "joe@laptop") :=
  ⟨gs! " \t joe@laptop", ⟨by decide +kernel, by decide, by decide⟩, by decide +kernel⟩
example : (match newPublicKey nd.now [1] lineKey with
    | .ok p => decide (p.comment = gs! "joe@laptop" ∧ p.openSSH = gs! "AAAAB3NzaC1yc2EAAAABAwAAAAEh" ∧ p.type = gs! "ssh-rsa" ∧
        p.payload = reqPem.key.payload ∧ p.usage = gs! "gpg")
    | _ => false) = true := by decide +kernel
example : ¬ ∃ p, newPublicKey nd.now [1] { lineKey with usage := gs! "api" } = .ok p := by
  rintro ⟨p, h⟩
  exact absurd ((C69_accepts_iff _ _ _ _).1 h).1 (by decide)

end GoIdentity
