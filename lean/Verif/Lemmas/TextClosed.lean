import Verif.Lemmas.Text
import Verif.Lemmas.ApiKeys
import Verif.Lemmas.Pem
/-!
# Every call keeps the stored strings valid UTF-8
-/
set_option linter.unusedSectionVars false
namespace GoIdentity
variable [Ext]

omit [Ext] in
theorem charset_ascii : ∀ b ∈ charset, b.toNat < 128 := by decide +kernel

theorem gen_text (draw : Nat → Nat) (start n : Nat) : Utf8 (gen draw start n charset) :=
  validUTF8_ascii fun _ hb => charset_ascii _ (gen_mem (by decide) hb)

theorem randomString_text (draw : Nat → Nat) (start : Nat) (i : Int) : Utf8 (getRandomString draw start i) := gen_text _ _ _

theorem fromRange_text {g d : Nat → Nat} {a b : Nat} {s : GoString} (h : getRandomStringFromRange g d a b = .ok s) :
    ∀ x ∈ s, x.toNat < 128 := by
  unfold getRandomStringFromRange at h
  split at h
  · simp only [Res.ok.injEq] at h; subst h; exact fun x hx => charset_ascii _ (gen_mem (by decide) hx)
  · split at h
    · simp at h
    · simp only [Res.ok.injEq] at h; subst h; exact fun x hx => charset_ascii _ (gen_mem (by decide) hx)

/-! ## Roles, names, addresses -/

theorem newRole_text {s : GoString} (hs : Utf8 s) {r : Role} (h : newRole s = .ok r) : r.Ok := by
  have hp := utf8_split (sep := 47) (by decide) (utf8_trimSpace hs)
  unfold newRole at h
  dsimp only at h
  split at h
  · simp at h
  · split at h
    · simp at h
    · simp only [Res.ok.injEq] at h; subst h; exact ⟨utf8_trimSpace hs, rfl⟩
    · rename_i p ps hne heq
      rw [heq] at hp
      simp only [Res.ok.injEq] at h; subst h
      exact ⟨utf8_join (by decide) fun x hx => hp x (by simp [hx]), hp p (by simp)⟩

theorem parseRoles_text {ss : List GoString} (hs : ∀ s ∈ ss, Utf8 s) {rs : List Role} (h : User.parseRoles ss = some rs) :
    ∀ r ∈ rs, r.Ok := by
  intro r hr
  have hm := parseRoles_map h
  have h1 : Res.ok r ∈ ss.map newRole := by rw [hm]; exact List.mem_map.2 ⟨r, hr, rfl⟩
  obtain ⟨s, hs', he⟩ := List.mem_map.1 h1
  exact newRole_text (hs s hs') he

omit [Ext] in
theorem dedupRoles_mem {a b : List Role} {r : Role} (h : r ∈ User.dedupRoles a b) : r ∈ a ∨ r ∈ b := by
  induction b generalizing a with
  | nil => exact .inl h
  | cons x b ih =>
    unfold User.dedupRoles at h
    rcases ih h with h | h
    · split at h
      · exact .inl h
      · rcases List.mem_append.1 h with h | h
        · exact .inl h
        · simp at h; subst h; exact .inr (by simp)
    · exact .inr (by simp [h])

theorem parseName_text {s : GoString} (hs : Utf8 s) {n : Name} (h : parseName s = .ok n) : n.Ok := by
  have h1 := utf8_split (sep := 32) (by decide) hs
  have h2 := utf8_split (sep := 44) (by decide) hs
  unfold parseName at h
  dsimp only at h
  have key : ∀ a b : GoString, Utf8 a → Utf8 b → ({ Name.zero with last := trimSpace a, first := trimSpace b } : Name).Ok :=
    fun a b ha hb => ⟨utf8_trimSpace hb, utf8_trimSpace ha, rfl, rfl⟩
  repeat' split at h
  all_goals first
    | (simp at h; done)
    | (rename_i heq
       simp only [Res.ok.injEq] at h
       subst h
       first
         | (rw [heq] at h1; exact key _ _ (h1 _ (by simp)) (h1 _ (by simp)))
         | (rw [heq] at h2; exact key _ _ (h2 _ (by simp)) (h2 _ (by simp))))

omit [Ext] in
theorem atext_ascii : ∀ n : Fin 256, isAtext (UInt8.ofNat n.val) = true → n.val < 128 := by decide +kernel
omit [Ext] in
theorem label_ascii : ∀ n : Fin 256, isLabelChar (UInt8.ofNat n.val) = true → n.val < 128 := by decide +kernel

theorem newEmailAddress_text {s : GoString} {e : EmailAddress} (h : newEmailAddress s = .ok e) : e.Strings := by
  have hu : ∀ b : UInt8, UInt8.ofNat (⟨b.toNat, b.toNat_lt⟩ : Fin 256).val = b := fun b => by simp
  unfold newEmailAddress at h
  split at h
  · simp at h
  rename_i hm
  have hs : Utf8 s := by
    have hm : emailMatch s = true := by simpa using hm
    unfold emailMatch at hm
    dsimp only at hm
    split at hm
    · cases hm
    · rename_i x dom heq
      simp only [Bool.and_eq_true, List.all_eq_true] at hm
      obtain ⟨⟨_, h1⟩, h2⟩ := hm
      have hx : x = 64 := by
        have := List.head?_dropWhile_not (fun b => b != (64 : UInt8)) s
        rw [heq] at this
        simpa using this
      rw [← List.takeWhile_append_dropWhile (p := fun b => b != (64 : UInt8)) (l := s), heq, hx]
      refine validUTF8_append (validUTF8_ascii fun b hb => ?_) ((utf8_ascii_cons (by decide)).2 ?_)
      · have := h1 b hb
        rw [← hu b] at this
        exact atext_ascii _ this
      · have : joinWith [46] (splitByte 46 dom) = dom := join_split _ _
        rw [← this]
        refine utf8_join (by decide) fun p hp => validUTF8_ascii fun b hb => ?_
        have := h2 p hp
        simp only [isLabel, Bool.and_eq_true, List.all_eq_true] at this
        have := this.1.1.2 b hb
        rw [← hu b] at this
        exact label_ascii _ this
  split at h
  · rename_i a d t heq
    simp only [Res.ok.injEq] at h
    subst h
    exact ⟨hs, utf8_split (sep := 64) (by decide) hs d (by rw [heq]; simp)⟩
  · simp at h

theorem newPassword_text {now : Clock} {salt s} {p : Password} (h : newPassword now salt s = .ok p) :
    p.Strings := by
  obtain ⟨_, _, _, rfl⟩ := newPassword_ok h
  exact ⟨by show Utf8 (gs! "generic"); decide, by show Utf8 (gs! "bcrypt"); decide, validUTF8_ascii (bcryptText_ascii _ _ _)⟩

theorem newAPIKey_text {now : Clock} {id : GoString} {k : ReqKey} {key : APIKey} (hid : Utf8 id) (hp : Utf8 k.pfx)
    (hc : Utf8 k.comment) (hpl : Utf8 k.payload) (h : newAPIKey now id k = .ok key) : key.Strings := by
  unfold newAPIKey at h
  split at h
  · simp at h
  split at h
  · simp at h
  split at h
  · simp at h
  rename_i hu
  split at h
  · simp at h
  simp only [Res.ok.injEq] at h
  subst h
  exact ⟨hid, hp, by simp only [Classical.not_not] at hu; dsimp only; rw [hu]; decide, hc, hpl⟩

/-! ## Public keys -/

omit [Ext] in
theorem indexBlank_cut {s : GoString} (hs : Utf8 s) {i : Nat} (h : indexBlank s = some i) : Utf8 (s.take i) ∧ Utf8 (s.drop i) := by
  refine utf8_cut hs _ _ (List.take_append_drop i s).symm fun c hc => ?_
  unfold indexBlank at h
  obtain ⟨hlt, hp, _⟩ := List.findIdx?_eq_some_iff_getElem.1 h
  rw [List.head?_drop, List.getElem?_eq_getElem hlt] at hc
  simp only [Option.some.injEq] at hc
  subst hc
  simp only [Bool.or_eq_true, beq_iff_eq] at hp
  rcases hp with hp | hp <;> rw [hp] <;> decide

omit [Ext] in
theorem splitOpenSSH_text {s : GoString} (hs : Utf8 s) :
    Utf8 (splitOpenSSH s).2.1 ∧ Utf8 (splitOpenSSH s).2.2 := by
  unfold splitOpenSSH
  dsimp only
  have hb := utf8_trimSpace hs
  split
  · have hd : Utf8 (trimSpace ((trimSpace s).drop ((indexBlank (trimSpace s)).getD (trimSpace s).length))) := by
      refine utf8_trimSpace ?_
      cases hi : indexBlank (trimSpace s) with
      | none => simp only [Option.getD_none, List.drop_length]; rfl
      | some i => exact (indexBlank_cut hb hi).2
    split
    · rename_i i hi
      have := indexBlank_cut hd hi
      exact ⟨utf8_trimSpace this.2, this.1⟩
    · exact ⟨rfl, hd⟩
  · exact ⟨rfl, rfl⟩

/-! ## What is stored of a key -/

theorem joinWith_mem {sep : GoString} {ps : List GoString} {x : UInt8} (h : x ∈ joinWith sep ps) : x ∈ sep ∨ ∃ p ∈ ps, x ∈ p := by
  induction ps with
  | nil => simp [joinWith] at h
  | cons p ps ih =>
    cases ps with
    | nil => exact .inr ⟨p, by simp, by simpa [joinWith] using h⟩
    | cons q qs =>
      rw [joinWith, List.mem_append, List.mem_append] at h
      rcases h with (h | h) | h
      · exact .inr ⟨p, by simp, h⟩
      · exact .inl h
      · rcases ih h with h | ⟨r, hr, h⟩
        · exact .inl h
        · exact .inr ⟨r, List.mem_cons_of_mem _ hr, h⟩
      · intro h; cases h

theorem md5_text (k : SshPub) : Utf8 k.md5 := by
  refine validUTF8_ascii fun x hx => ?_
  rcases joinWith_mem hx with h | ⟨p, hp, h⟩
  · simp only [List.mem_cons, List.not_mem_nil, or_false] at h
    subst h; decide
  · obtain ⟨b, _, rfl⟩ := List.mem_map.1 hp
    have key : ∀ n : Fin 256, (hexDigit (n.val / 16)).toNat < 128 ∧ (hexDigit (n.val % 16)).toNat < 128 := by decide +kernel
    have := key ⟨b.toNat, b.toNat_lt⟩
    simp only [List.mem_cons, List.not_mem_nil, or_false] at h
    rcases h with rfl | rfl
    · exact this.1
    · exact this.2

theorem pkixToSsh_text {der : GoString} {k : SshPub} (h : pkixToSsh der = some (some k)) : Utf8 k.type := by
  rcases pkixToSsh_type h with h | ⟨kind, h⟩
  · rw [h]; decide
  · rw [h]; cases kind <;> decide

theorem wrap64_mem {n : Nat} {l : GoString} {x : UInt8} (h : x ∈ wrap64 n l) : x = 10 ∨ x ∈ l := by
  induction n generalizing l with
  | zero => simp [wrap64] at h
  | succ n ih =>
    cases l with
    | nil => simp [wrap64] at h
    | cons b t =>
      rw [wrap64, List.mem_append, List.mem_cons] at h
      rcases h with h | h | h
      · exact .inr (List.mem_of_mem_take h)
      · exact .inl h
      · rcases ih h with h | h
        · exact .inl h
        · exact .inr (List.mem_of_mem_drop h)

theorem rsaPem_text (e : Nat) (n : Int) : Utf8 (rsaPem e n) := by
  refine validUTF8_ascii fun x hx => ?_
  rw [rsaPem, pemEncode_core, rsaPemCore] at hx
  simp only [List.mem_append] at hx
  rcases hx with ((hx | hx) | hx) | hx
  · have : ∀ x ∈ gs! "-----BEGIN RSA PUBLIC KEY-----\n", x.toNat < 128 := by decide
    exact this x hx
  · rcases wrap64_mem hx with rfl | h
    · decide
    · exact (b64Encode_plain _ x h).2.1
  · have : ∀ x ∈ gs! "-----END RSA PUBLIC KEY-----", x.toNat < 128 := by decide
    exact this x hx
  · have : ∀ x ∈ ([10] : GoString), x.toNat < 128 := by decide
    exact this x hx

theorem parsePublicKey_text (hE : ExtText) {p q : PublicKey} (hp : p.Strings) (h : parsePublicKey p = .ok q) : q.Strings := by
  unfold parsePublicKey at h
  split at h
  · simp at h
  split at h
  · simp at h
  split at h
  · rw [parsePublicKeyRSA_eq] at h
    split at h
    · simp at h
    split at h
    · simp at h
    split at h
    · simp at h
    split at h
    · simp at h
    · simp at h
    rename_i key hkey
    simp only [Res.ok.injEq] at h
    subst h
    exact { hp with
      type := pkixToSsh_text hkey
      fingerprintMD5 := md5_text key
      fingerprint := validUTF8_ascii fun x hx => (sha256_text key x hx).2.1
      openSSH := validUTF8_append (validUTF8_ascii fun x hx => (b64Encode_plain _ x hx).2.1) (by decide) }
  split at h
  · rw [parsePublicKeyOpenSSH_eq] at h
    have hso := splitOpenSSH_text hp.payload
    revert h
    generalize splitOpenSSH p.payload = x at hso ⊢
    obtain ⟨b64, comment, openSSH⟩ := x
    intro h
    dsimp only at h hso
    split at h
    · simp at h
    split at h
    · simp at h
    · simp at h
    · rename_i e n _
      simp only [Res.ok.injEq] at h
      subst h
      exact { hp with
        type := (by decide : Utf8 (gs! "ssh-rsa"))
        fingerprintMD5 := md5_text _
        fingerprint := validUTF8_append (by decide) (validUTF8_ascii fun x hx => (sha256_text _ x hx).2.1)
        openSSH := hso.2
        payload := rsaPem_text e n
        comment := by
          dsimp only
          split
          · exact hp.comment
          · exact hso.1 }
  split at h
  · unfold parsePublicKeyPGP at h
    dsimp only at h
    split at h
    · simp at h
    split at h
    · simp at h
    split at h
    · simp at h
    · rename_i e he
      have hk := hE.pgp _ _ he e (by simp)
      split at h
      · simp at h
      split at h
      · simp at h
      rename_i user rest hid
      split at h
      · simp at h
      rename_i algo type halgo
      have ha : Utf8 algo ∧ Utf8 type := by
        unfold pgpAlgo at halgo
        repeat' split at halgo
        all_goals first
          | (simp only [Option.some.injEq, Prod.mk.injEq] at halgo
             obtain ⟨rfl, rfl⟩ := halgo
             exact ⟨by decide, by decide⟩)
          | simp at halgo
      have hc : Utf8 (user ++ gs! ", algo " ++ algo ++ gs! ", created " ++ e.created) :=
        validUTF8_append (validUTF8_append (validUTF8_append (validUTF8_append (hk.identities user (by rw [hid]; simp))
          (by decide)) ha.1) (by decide)) hk.created
      simp only [Res.ok.injEq] at h
      subst h
      exact { hp with
        id := hk.keyIdHex
        fingerprint := hk.fingerprintHex
        type := ha.2
        payload := utf8_trimSpace hp.payload
        comment := by
          dsimp only
          split
          · exact validUTF8_append (validUTF8_append (validUTF8_append hp.comment (by decide)) hc) (by decide)
          · exact hc }
    · simp at h
  · simp at h

theorem newPublicKey_text (hE : ExtText) {now : Clock} {id : GoString} {k : ReqKey} {key : PublicKey} (hid : Utf8 id)
    (hc : Utf8 k.comment) (hpl : Utf8 k.payload) (h : newPublicKey now id k = .ok key) : key.Strings := by
  unfold newPublicKey at h
  split at h
  · rename_i p hp
    have hus : Utf8 k.usage := by
      unfold parsePublicKey at hp
      split at hp
      · simp at hp
      · rename_i hu
        simp only [Classical.not_not] at hu
        rcases hu with hu | hu <;> rw [hu] <;> decide
    have := parsePublicKey_text hE (p := _) ⟨hid, hus, rfl, rfl, rfl, hc, hpl, rfl⟩ hp
    simp only [Res.ok.injEq] at h
    subst h
    split
    · exact { this with }
    · exact this
  · simp at h
  · simp at h

/-! ## Tokens -/

omit [Ext] in
theorem mapInsert_text {k v : GoString} {m : List (GoString × GoString)} (hk : Utf8 k) (hv : Utf8 v)
    (h : ∀ p ∈ m, Utf8 p.1 ∧ Utf8 p.2) : ∀ p ∈ mapInsert k v m, Utf8 p.1 ∧ Utf8 p.2 := by
  intro p hp
  rcases mem_mapInsert hp with rfl | hp
  · exact ⟨hk, hv⟩
  · exact h p hp

omit [Ext] in
theorem mapGet_mem {α : Type} {k : GoString} {m : List (GoString × α)} {v : α} (h : mapGet k m = some v) : (k, v) ∈ m := by
  induction m with
  | nil => simp [mapGet] at h
  | cons x m ih =>
    obtain ⟨k', w⟩ := x
    unfold mapGet at h
    split at h
    · rename_i hk; simp only [Option.some.injEq] at h; subst hk h; simp
    · exact List.mem_cons_of_mem _ (ih h)

omit [Ext] in
theorem optString_text {m : List (GoString × Json)} {k x : GoString} (hm : ∀ p ∈ m, p.2.Valid)
    (h : optString (mapGet k m) = .ok x) : Utf8 x := by
  unfold optString at h
  split at h
  · simp only [Res.ok.injEq] at h; subst h; rfl
  · rename_i s hs
    simp only [Res.ok.injEq] at h; subst h
    have := hm _ (mapGet_mem hs)
    exact this
  · simp at h

theorem checkCoseKey_text {m : List (GoString × Json)} (hm : ∀ p ∈ m, p.2.Valid) {c x y : GoString}
    (h : checkCoseKey m = .ok (c, x, y)) : Utf8 c ∧ Utf8 x ∧ Utf8 y := by
  unfold checkCoseKey at h
  split at h
  · simp at h
  split at h
  · simp at h
  · simp at h
  · simp at h
  split at h
  · simp at h
  split at h
  · simp at h
  · simp at h
  · simp at h
  dsimp only at h
  split at h
  · simp at h
  · simp at h
  rename_i curve hcurve
  have hc : Utf8 curve := by
    repeat' split at hcurve
    all_goals first
      | (simp only [Res.ok.injEq] at hcurve; subst hcurve; decide)
      | simp at hcurve
  split at h
  · simp at h
  · simp at h
  rename_i x' hx
  split at h
  · simp at h
  · simp at h
  rename_i y' hy
  simp only [Res.ok.injEq, Prod.mk.injEq] at h
  obtain ⟨rfl, rfl, rfl⟩ := h
  exact ⟨hc, optString_text hm hx, optString_text hm hy⟩

theorem u2fFromRegister_text {p t : MfaToken} {r : RegisterRequest} (hp : p.Strings) (hr : r.Decoded)
    (h : u2fFromRegister p r = .ok t) : t.Strings := by
  unfold u2fFromRegister at h
  split at h
  · simp at h
  split at h
  · simp at h
  split at h
  · simp at h
  split at h
  · simp at h
  · simp at h
  split at h
  · simp at h
  rename_i ao hao
  split at h
  · simp at h
  rename_i ad had
  split at h
  · simp at h
  split at h
  · simp at h
  rename_i flags hfl
  split at h
  · simp at h
  rename_i cd hcd
  split at h
  · simp at h
  rename_i pk hpk
  split at h
  · simp at h
  · simp at h
  rename_i curve x y hck
  have hd := hr.attestationObject ao hao ad had
  obtain ⟨h1, h2, h3⟩ := checkCoseKey_text ((hd.credentialData cd hcd pk hpk).1) hck
  simp only [Res.ok.injEq] at h
  subst h
  exact { hp with
    flags := (hd.flagsOrder flags hfl).1
    parameters := by
      dsimp only
      refine mapInsert_text (by decide) h3 <| mapInsert_text (by decide) h2 <| mapInsert_text (by decide) h1 <|
        mapInsert_text (by decide) (by decide) <| mapInsert_text (by decide) (by decide) <|
        mapInsert_text (by decide) (utf8_join (by decide) hr.transports) <|
        mapInsert_text (by decide) hr.type <| mapInsert_text (by decide) hr.id <|
        mapInsert_text (by decide) hd.relyingPartyID (by simp) }

theorem newMfaToken_text {nd : Nondet} {req req' : Request} (hr : req.Text) {t : MfaToken}
    (h : newMfaToken nd req = (.ok t, req')) : t.Strings := by
  have h0 : ∀ p : MfaToken, p.id = getRandomString nd.seedRand 0 40 → p.comment = req.mfaToken.comment → Utf8 p.type →
      Utf8 p.algorithm → Utf8 p.secret → p.device = none → p.parameters = [] → p.flags = [] → p.Strings := by
    intro p h1 h2 h3 h4 h5 h6 h7 h8
    refine ⟨h1 ▸ randomString_text _ _ _, h3, h4, h2 ▸ hr.tokenComment, h5, ?_, ?_, ?_⟩
    all_goals simp [h6, h7, h8]
  unfold newMfaToken at h
  dsimp only at h
  split at h
  · rename_i hty
    simp only [Prod.mk.injEq] at h
    obtain ⟨h, _⟩ := h
    unfold newTotp at h
    dsimp only at h
    split at h
    · simp at h
    · rename_i alg halg
      have ha : Utf8 alg := by
        split at halg
        · rename_i h3
          simp only [Option.some.injEq] at halg
          subst halg
          rcases h3 with h3 | h3 | h3 <;> rw [h3] <;> decide
        · split at halg
          · simp only [Option.some.injEq] at halg; subst halg; decide
          · simp at halg
      split at h
      · simp at h
      · generalize (if req.mfaToken.digits = 0 then (6 : Int) else req.mfaToken.digits) = dg at h
        split at h
        · simp at h
        · split at h
          · simp only [Res.ok.injEq] at h
            subst h
            exact h0 _ rfl rfl (by dsimp only; rw [hty]; decide) ha hr.tokenSecret rfl rfl rfl
          · simp at h
          · simp at h
  · split at h
    · rename_i hty
      simp only [Prod.mk.injEq] at h
      obtain ⟨h, _⟩ := h
      unfold newU2F at h
      split at h
      · simp at h
      split at h
      · simp at h
      split at h
      · simp at h
      split at h
      · simp at h
      · simp at h
      rename_i r hr'
      exact u2fFromRegister_text (h0 _ rfl rfl (by dsimp only; rw [hty]; decide) rfl hr.challenge rfl rfl rfl)
        (registerRequest_decoded hr') h
    · split at h <;> simp at h

/-! ## Users -/

theorem loadedUser_text {u : User} (h : u.Strings) : (loadedUser u).Strings := by
  refine { h with passwords := ?_ }
  intro p hp
  obtain ⟨q, hq, rfl⟩ := List.mem_map.1 hp
  have := h.passwords q hq
  unfold Database.fixAlgorithm
  split
  · exact { this with algorithm := by show Utf8 (gs! "bcrypt"); decide }
  · exact this

omit [Ext] in
theorem pickID_text {db : Database} {cur : GoString} {ids : List GoString} (hc : Utf8 cur) (h : ∀ id ∈ ids, Utf8 id) :
    Utf8 (db.pickID ids cur) := by
  unfold Database.pickID
  split
  · rename_i id hid
    exact h id (List.mem_of_mem_take (List.mem_of_find?_eq_some hid))
  · exact hc

theorem userOp_text (hE : ExtText) {c : Call} {nd : Nondet} {db : Database} {req : Request} (hr : req.Text) {u u' : User}
    (hu : u.Strings) (hop : UserOp nd req db u c u') : u'.Strings := by
  cases hop with
  | addPublicKey key hk hnew =>
    refine { hu with publicKeys := ?_ }
    intro a ha
    rcases List.mem_append.1 ha with ha | ha
    · exact hu.publicKeys a ha
    · simp at ha; subst ha; exact newPublicKey_text hE (randomString_text _ _ _) hr.keyComment hr.keyPayload hk
  | deletePublicKey hex => exact { hu with publicKeys := fun a ha => hu.publicKeys a (List.mem_filter.1 ha).1 }
  | addAPIKey s n hk key hs hnone hhash hkey =>
    refine { hu with apiKeys := ?_ }
    intro a ha
    rcases List.mem_append.1 ha with ha | ha
    · exact hu.apiKeys a ha
    · simp at ha; subst ha
      exact newAPIKey_text (k := { req.key with payload := hk.hash, pfx := s.take 24 }) (randomString_text _ _ _)
        (validUTF8_ascii fun b hb => fromRange_text hs b (List.mem_of_mem_take hb)) hr.keyComment
        (newPassword_text hhash).hash hkey
  | deleteAPIKey hex => exact { hu with apiKeys := fun a ha => hu.apiKeys a (List.mem_filter.1 ha).1 }
  | changeUserPassword p hpol hold hp =>
    refine { hu with passwords := ?_ }
    intro a ha
    rcases List.mem_cons.1 ha with rfl | ha
    · exact newPassword_text hp
    · obtain ⟨q, hq, rfl | ⟨_, _, rfl⟩⟩ := keepLoop_mem ha
      · exact hu.passwords _ hq
      · exact { hu.passwords _ hq with }
  | addMfaToken t req' ht hnew =>
    refine { hu with mfaTokens := ?_ }
    intro a ha
    rcases List.mem_append.1 ha with ha | ha
    · exact hu.mfaTokens a ha
    · simp at ha; subst ha; exact newMfaToken_text hr ht
  | deleteMfaToken hex => exact { hu with mfaTokens := fun a ha => hu.mfaTokens a (List.mem_filter.1 ha).1 }

theorem exec_text (hE : ExtText) {c : Call} {nd : Nondet} {db : Database} {fs : FS} {req : Request} (hn : nd.Text)
    (hr : req.Text) (h : db.toDBData.Strings) : (exec c nd db fs req).db.toDBData.Strings := by
  rcases exec_spec c nd db fs req with h1 | ⟨db', m, h1⟩
  · rw [h1.db_eq]; exact h
  · rw [h1.db_eq]
    have hver : db'.version = db.version := by cases m <;> rfl
    refine ⟨by show Utf8 db'.version; rw [hver]; exact h.version, ?_⟩
    show ∀ u ∈ db'.users, u.Strings
    have hm := m.users'
    have key : ∀ us, UsersChange' nd req db c us → c ≠ .addUser → ∀ u ∈ us, u.Strings := by
      intro us hus hc
      cases hus with
      | save => exact h.users
      | copy => exact h.users
      | appended => exact absurd rfl hc
      | modified _ i u u' hv hop =>
        intro v hv'
        rcases List.mem_or_eq_of_mem_set hv' with h2 | h2
        · exact h.users v h2
        · subst h2; exact userOp_text hE hr (h.users u (List.mem_of_getElem? (validate_users hv))) hop
    cases m with
    | addUser user emails hpol hnew hname hemails =>
      obtain ⟨p, e, roles, name, hpw, h2, h3, h4, h5, h6, rfl⟩ := User.newWithRoles_ok hnew
      intro u hu
      rcases List.mem_append.1 hu with hu | hu
      · exact h.users u hu
      · simp only [List.mem_singleton] at hu
        subst hu
        have hname : ∀ a, name = some a → a.Ok := by
          intro a ha
          rcases h4 with ⟨_, h4⟩ | ⟨_, n, hn, h4⟩
          · rw [h4] at ha; cases ha
          · rw [h4] at ha; cases ha; exact parseName_text (utf8_trimSpace hr.fullName) hn
        have he := newEmailAddress_text h2
        exact {
          id := pickID_text hn.userID hn.ids
          username := hr.username
          title := rfl
          name := hname
          organization := by simp [User.zero]
          names := fun a ha => hname a (by simpa using ha)
          organizations := by simp [User.zero]
          streetAddress := by simp [User.zero]
          emailAddress := fun a ha => by cases ha; exact he
          emailAddresses := fun a ha => by simp at ha; subst ha; exact he
          passwords := fun a ha => by simp at ha; subst ha; exact newPassword_text hpw
          publicKeys := by simp [User.zero]
          apiKeys := by simp [User.zero]
          mfaTokens := by simp [User.zero]
          avatar := by simp [User.zero]
          roles := fun a ha => by
            rcases dedupRoles_mem ha with ha | ha
            · simp at ha
            · exact parseRoles_text hr.roles h3 a ha }
    | _ => exact key _ hm (by simp)

/-! ## Databases -/

theorem commit_text {nd : Nondet} {db db' : Database} {fs fs' : FS} {e : Option GoErr}
    (h : db.toDBData.Strings) (hc : db.commit nd fs = (db', fs', e)) : db'.toDBData.Strings := by
  have : db' = { db with revision := (db.revision + 1) % 2 ^ 64, lastModified := nd.commitTime } := by
    unfold Database.commit at hc
    dsimp only at hc
    split at hc <;> (simp only [Prod.mk.injEq] at hc; exact hc.1.symm)
  subst this
  exact ⟨h.version, h.users⟩

theorem opened_text (hE : ExtText) {nd : Nondet} {fs fs' : FS} {fp : GoString} {db : Database}
    (h : newDatabase nd fs fp = (.ok db, fs')) : db.toDBData.Strings := by
  obtain ⟨d, hd, _, hdata, _⟩ := newDatabase_data h
  have hs : d.toDBData.Strings := by
    rcases openFile_ok hd with ⟨_, hc⟩ | ⟨b, data, _, _, hb, h1 | h1⟩
    · exact commit_text ⟨hE.appVersion, by simp [Database.empty, DBData.zero]⟩ hc
    · obtain ⟨_, _, rfl⟩ := h1
      exact { (unmarshal_ok hb).strings with }
    · exact commit_text { (unmarshal_ok hb).strings with } h1.2
  rw [hdata]
  refine ⟨hE.appVersion, ?_⟩
  intro u hu
  obtain ⟨v, hv, rfl⟩ := List.mem_map.1 hu
  exact loadedUser_text (hs.users v hv)

/-- Requests and libraries that deal in text store text. -/
theorem reach_text (hE : ExtText) {db : Database} (h : ReachText db) : db.toDBData.Strings := by
  induction h with
  | init nd fs fp fs' hnd h => exact opened_text hE h
  | step h c nd fs req hnd hfresh htn htr ih => exact exec_text hE htn htr ih

end GoIdentity
