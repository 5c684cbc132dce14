import Verif.Lemmas.KeyFormats
/-!
# PEM text: decoding inverts encoding
-/
set_option linter.unusedSectionVars false
namespace GoIdentity
variable [Ext]

/-! ## Characters of base64 text -/

theorem b64Encode_alphabet (s : GoString) : ∀ x ∈ b64Encode s, x = 61 ∨ ∃ n < 64, x = b64Char n := by
  induction s using b64Encode.induct with
  | case1 => simp [b64Encode]
  | case2 a =>
    have ha := a.toNat_lt
    intro x hx
    simp only [b64Encode, List.mem_cons, List.not_mem_nil, or_false] at hx
    rcases hx with rfl | rfl | rfl | rfl
    · exact .inr ⟨_, by omega, rfl⟩
    · exact .inr ⟨_, by omega, rfl⟩
    · exact .inl rfl
    · exact .inl rfl
  | case3 a b =>
    have ha := a.toNat_lt
    have hb := b.toNat_lt
    intro x hx
    simp only [b64Encode, List.mem_cons, List.not_mem_nil, or_false] at hx
    rcases hx with rfl | rfl | rfl | rfl
    · exact .inr ⟨_, by omega, rfl⟩
    · exact .inr ⟨_, by omega, rfl⟩
    · exact .inr ⟨_, by omega, rfl⟩
    · exact .inl rfl
  | case4 a b c t ih =>
    have ha := a.toNat_lt
    have hb := b.toNat_lt
    have hc := c.toNat_lt
    intro x hx
    simp only [b64Encode, List.mem_cons] at hx
    rcases hx with rfl | rfl | rfl | rfl | hx
    · exact .inr ⟨_, by omega, rfl⟩
    · exact .inr ⟨_, by omega, rfl⟩
    · exact .inr ⟨_, by omega, rfl⟩
    · exact .inr ⟨_, by omega, rfl⟩
    · exact ih x hx

/-- Visible ASCII without dash and colon. -/
theorem b64Encode_plain (s : GoString) : ∀ x ∈ b64Encode s, 33 ≤ x.toNat ∧ x.toNat < 128 ∧ x ≠ 45 ∧ x ≠ 58 := by
  intro x hx
  rcases b64Encode_alphabet s x hx with rfl | ⟨n, hn, rfl⟩
  · decide
  · have : ∀ n : Fin 64, 33 ≤ (b64Char n.val).toNat ∧ (b64Char n.val).toNat < 128 ∧ b64Char n.val ≠ 45 ∧ b64Char n.val ≠ 58 := by
      decide
    exact this ⟨n, hn⟩

theorem b64Encode_ne_nil {s : GoString} (h : s ≠ []) : b64Encode s ≠ [] := by
  cases s with
  | nil => exact absurd rfl h
  | cons a t => cases t with
    | nil => simp [b64Encode]
    | cons b t => cases t <;> simp [b64Encode]

theorem b64Encode_inj {s t : GoString} (h : b64Encode s = b64Encode t) : s = t := by
  have h1 := b64_groups s
  rw [h, b64_groups] at h1
  exact (Option.some.inj h1).symm

/-! ## Lines -/

theorem wrap64_spec (fuel : Nat) (l : GoString) (hne : l ≠ []) (hf : l.length ≤ fuel)
    (hc : ∀ x ∈ l, x ≠ 10 ∧ x ≠ 13) :
    ∃ w, wrap64 fuel l = w ++ [10] ∧ w.head? = l.head? ∧ (∀ x ∈ w, x = 10 ∨ x ∈ l) ∧
      w.filter (fun b => !(b == 10 || b == 13)) = l := by
  induction fuel generalizing l with
  | zero => exact absurd (List.length_eq_zero_iff.1 (by omega)) hne
  | succ fuel ih =>
    cases l with
    | nil => exact absurd rfl hne
    | cons b t =>
      rw [wrap64]
      have hft : (List.take 64 (b :: t)).filter (fun b => !(b == 10 || b == 13)) = List.take 64 (b :: t) := by
        rw [List.filter_eq_self]
        intro x hx
        have := hc x (List.mem_of_mem_take hx)
        simp [this.1, this.2]
      by_cases hd : (b :: t).drop 64 = []
      · refine ⟨(b :: t).take 64, ?_, by simp, fun x hx => .inr (List.mem_of_mem_take hx), ?_⟩
        · rw [hd]
          have : wrap64 fuel [] = [] := by cases fuel <;> rfl
          rw [this]
        · rw [hft]
          have := List.take_append_drop 64 (b :: t)
          rw [hd, List.append_nil] at this
          exact this
      · obtain ⟨w, h1, h2, h3, h4⟩ := ih ((b :: t).drop 64) hd (by
          rw [List.length_drop]; simp only [List.length_cons] at hf ⊢; omega) (fun x hx => hc x (List.mem_of_mem_drop hx))
        refine ⟨(b :: t).take 64 ++ 10 :: w, by rw [h1]; simp, by simp, ?_, ?_⟩
        · intro x hx
          rw [List.mem_append, List.mem_cons] at hx
          rcases hx with hx | hx | hx
          · exact .inr (List.mem_of_mem_take hx)
          · exact .inl hx
          · rcases h3 x hx with h | h
            · exact .inl h
            · exact .inr (List.mem_of_mem_drop h)
        · rw [List.filter_append, hft, List.filter_cons]
          simp only [beq_self_eq_true, Bool.true_or, Bool.not_true, Bool.false_eq_true, if_false]
          rw [h4, List.take_append_drop]

theorem pemLine_append {a r : GoString} (h : (10 : UInt8) ∉ a) (hs : hasSuffix a [13] = false) :
    pemLine (a ++ 10 :: r) = (trimRightBlank a, r) := by
  have hi : (a ++ 10 :: r).findIdx? (· == 10) = some a.length := by
    rw [List.findIdx?_append, List.findIdx?_eq_none_iff.2]
    · simp [List.findIdx?_cons]
    · intro x hx
      simp only [beq_eq_false_iff_ne]
      rintro rfl; exact h hx
  unfold pemLine
  rw [hi]
  dsimp only
  have h1 : (a ++ 10 :: r).take a.length = a := by simp
  rw [h1, hs]
  simp

theorem mem_trimRightBlank {s : GoString} {x : UInt8} (h : x ∈ trimRightBlank s) : x ∈ s := by
  unfold trimRightBlank at h
  rw [List.mem_reverse] at h
  exact List.mem_reverse.1 ((List.dropWhile_sublist _).mem h)

theorem mem_pemLine {s : GoString} {x : UInt8} (h : x ∈ (pemLine s).1) : x ∈ s := by
  unfold pemLine at h
  split at h
  · exact mem_trimRightBlank h
  · dsimp only at h
    have := mem_trimRightBlank h
    split at this
    · exact List.mem_of_mem_take (List.mem_of_mem_take this)
    · exact List.mem_of_mem_take this

/-- The first occurrence of a text that starts with a newline and a dash. -/
theorem indexSub_first {w p r : GoString} (h : ∀ x ∈ w, x ≠ 45) :
    indexSub (10 :: 45 :: p) (w ++ 10 :: 45 :: p ++ r) = some w.length := by
  induction w with
  | nil =>
    simp only [List.nil_append, List.cons_append, indexSub]
    rw [if_pos]
    · rfl
    · rw [List.isPrefixOf_iff_prefix]
      exact ⟨r, by simp⟩
  | cons b w ih =>
    have ih := ih (fun x hx => h x (List.mem_cons_of_mem _ hx))
    rw [List.cons_append, List.cons_append, indexSub, if_neg, ih]
    · rfl
    · rw [List.isPrefixOf_iff_prefix]
      rintro ⟨q, hq⟩
      simp only [List.cons_append, List.cons.injEq] at hq
      cases w with
      | nil => simp at hq
      | cons c w =>
        simp only [List.cons_append, List.cons.injEq] at hq
        exact h c (by simp) hq.2.1.symm

/-- The PEM text without its last newline, which is what is left after `TrimSpace`. -/
def rsaPemCore (bytes : GoString) : GoString :=
  gs! "-----BEGIN RSA PUBLIC KEY-----\n" ++ wrap64 (b64Encode bytes).length (b64Encode bytes) ++ gs! "-----END RSA PUBLIC KEY-----"

theorem pemEncode_core (bytes : GoString) : pemEncode (gs! "RSA PUBLIC KEY") bytes = rsaPemCore bytes ++ [10] := by
  simp [pemEncode, rsaPemCore]

/-- Decoding inverts encoding. -/
theorem pemDecode_core {bytes : GoString} (h : bytes ≠ []) : pemDecode (rsaPemCore bytes) = some (gs! "RSA PUBLIC KEY", bytes) := by
  obtain ⟨w, hw, hhead, hmem, hfil⟩ := wrap64_spec (b64Encode bytes).length (b64Encode bytes) (b64Encode_ne_nil h) (Nat.le_refl _)
    (b64Encode_chars bytes)
  have hplain := b64Encode_plain bytes
  have hw45 : ∀ x ∈ w, x ≠ 45 := by
    intro x hx
    rcases hmem x hx with rfl | hx
    · decide
    · exact (hplain x hx).2.2.1
  have hw58 : ∀ x ∈ w, x ≠ 58 := by
    intro x hx
    rcases hmem x hx with rfl | hx
    · decide
    · exact (hplain x hx).2.2.2
  have hwbl : ∀ x ∈ w, x ≠ 32 ∧ x ≠ 9 := by
    intro x hx
    rcases hmem x hx with rfl | hx
    · decide
    · have := (hplain x hx).1
      exact ⟨by rintro rfl; simp at this, by rintro rfl; simp at this⟩
  -- the text in the parts that the decoder sees
  have htext : rsaPemCore bytes = gs! "-----BEGIN " ++ (gs! "RSA PUBLIC KEY-----" ++ 10 :: (w ++ 10 :: 45 :: gs! "----END " ++ gs! "RSA PUBLIC KEY-----")) := by
    simp [rsaPemCore, hw]
  generalize hrest : w ++ 10 :: 45 :: gs! "----END " ++ gs! "RSA PUBLIC KEY-----" = rest at htext
  have hbegin : pemBegin (rsaPemCore bytes) = some (gs! "RSA PUBLIC KEY-----" ++ 10 :: rest) := by
    rw [htext, pemBegin, if_pos]
    · simp
    · rw [hasPrefix, List.isPrefixOf_iff_prefix]; exact List.prefix_append ..
  have hline : pemLine (gs! "RSA PUBLIC KEY-----" ++ 10 :: rest) = (gs! "RSA PUBLIC KEY-----", rest) := by
    rw [pemLine_append (by decide) (by decide)]
    rfl
  have hne : ∃ b t, rest = b :: t := by
    cases hr : rest with
    | nil => rw [hr] at hrest; simp at hrest
    | cons b t => exact ⟨b, t, rfl⟩
  have hcolon : containsByte 58 (pemLine rest).1 = false := by
    unfold containsByte
    rw [List.any_eq_false]
    intro x hx
    have := mem_pemLine hx
    rw [← hrest, List.mem_append, List.mem_append] at this
    simp only [beq_iff_eq]
    rcases this with (h1 | h1) | h1
    · exact hw58 x h1
    · have hd : ∀ x ∈ (10 : UInt8) :: 45 :: gs! "----END ", x ≠ 58 := by decide
      exact hd x h1
    · have hd : ∀ x ∈ gs! "RSA PUBLIC KEY-----", x ≠ 58 := by decide
      exact hd x h1
  have hheaders : pemHeaders (rest.length + 1) false rest = some (false, rest) := by
    obtain ⟨b, t, hbt⟩ := hne
    rw [hbt] at hcolon ⊢
    rw [pemHeaders]
    split
    rename_i line next hl
    rw [hl] at hcolon
    rw [hcolon]; rfl
  have hendm : pemEndMark false rest = some (w, gs! "RSA PUBLIC KEY-----") := by
    unfold pemEndMark
    rw [if_neg]
    · have : indexSub (gs! "\n-----END ") rest = some w.length := by
        rw [← hrest]; exact indexSub_first (p := gs! "----END ") hw45
      rw [this, Option.map_some, ← hrest]
      simp
    · simp only [Bool.not_false, Bool.true_and, hasPrefix]
      rw [List.isPrefixOf_iff_prefix]
      rintro ⟨q, hq⟩
      rw [← hrest] at hq
      cases hwc : w with
      | nil =>
        rw [hwc] at hhead
        cases hb : b64Encode bytes with
        | nil => exact b64Encode_ne_nil h hb
        | cons c t => rw [hb] at hhead; simp at hhead
      | cons c t =>
        rw [hwc] at hq
        simp only [List.cons_append, List.cons.injEq] at hq
        exact hw45 c (by rw [hwc]; simp) hq.1.symm
  have hbody : pemBody (gs! "RSA PUBLIC KEY") false rest = some bytes := by
    unfold pemBody
    rw [hendm]
    dsimp only
    rw [if_pos (by decide)]
    have : w.filter (fun b => !(b == 32 || b == 9)) = w := by
      rw [List.filter_eq_self]
      intro x hx
      have := hwbl x hx
      simp [this.1, this.2]
    rw [this, b64Decode, hfil, b64_groups]
  unfold pemDecode
  rw [pemDecodeAux, hbegin]
  dsimp only
  rw [hline]
  dsimp only
  rw [if_pos (by decide), hheaders]
  dsimp only
  have htype : (gs! "RSA PUBLIC KEY-----").take ((gs! "RSA PUBLIC KEY-----").length - 5) = gs! "RSA PUBLIC KEY" := by decide
  rw [htype, hbody]

/-! ## `TrimSpace` on text with white space around it -/

theorem leadLen_pat {pats : List GoString} (hpf : ∀ p ∈ pats, ∀ q ∈ pats, p <+: q → p = q) {p : GoString} (hp : p ∈ pats)
    (t : GoString) : leadLen pats (p ++ t) = p.length := by
  unfold leadLen
  cases hf : pats.find? (fun q => q.isPrefixOf (p ++ t)) with
  | none => exact absurd (List.isPrefixOf_iff_prefix.2 (List.prefix_append p t)) (List.find?_eq_none.1 hf p hp)
  | some q =>
    have hq := List.mem_of_find?_eq_some hf
    have hpre' := List.find?_some hf
    have hpre := List.isPrefixOf_iff_prefix.1 hpre'
    have : q = p := by
      rcases List.prefix_or_prefix_of_prefix hpre (List.prefix_append p t) with h | h
      · exact hpf q hq p hp h
      · exact (hpf p hp q hq h).symm
    simp [this]

theorem dropPats_pats {pats : List GoString} (hpf : ∀ p ∈ pats, ∀ q ∈ pats, p <+: q → p = q) (hnil : ∀ p ∈ pats, p ≠ [])
    {ps : List GoString} (hps : ∀ p ∈ ps, p ∈ pats) {t : GoString} (ht : Clear pats t) (n : Nat)
    (hn : (ps.flatten ++ t).length ≤ n) : dropPats pats n (ps.flatten ++ t) = t := by
  induction ps generalizing n with
  | nil => exact dropPats_of_clear hnil ht n
  | cons p ps ih =>
    have hp := hps p (by simp)
    have hne := hnil p hp
    obtain ⟨k, hk⟩ : ∃ k, p.length = k + 1 := ⟨p.length - 1, by have := List.length_pos_iff.2 hne; omega⟩
    cases n with
    | zero =>
      simp only [List.flatten_cons, List.append_assoc, List.length_append] at hn
      omega
    | succ n =>
      have h := ih (fun q hq => hps q (by simp [hq])) n (by
        simp only [List.flatten_cons, List.append_assoc, List.length_append] at hn ⊢; omega)
      rw [← h, List.flatten_cons, List.append_assoc]
      conv => lhs; unfold dropPats
      rw [leadLen_pat hpf hp, hk]
      dsimp only
      rw [← hk]
      simp [h]

theorem spaceRunesRev_prefixFree : ∀ p ∈ spaceRunes.map List.reverse, ∀ q ∈ spaceRunes.map List.reverse, p <+: q → p = q := by
  have : ∀ p ∈ spaceRunes.map List.reverse, ∀ q ∈ spaceRunes.map List.reverse, p.isPrefixOf q = true → p = q := by decide +kernel
  intro p hp q hq h
  exact this p hp q hq (List.isPrefixOf_iff_prefix.2 h)

/-- Trimming text that starts and ends with a visible ASCII character removes the white space around it. -/
theorem trimSpace_around {a b s : GoString} (ha : Blank a) (hb : Blank b) (h1 : ∀ t, ClearStart (s ++ t)) (h2 : ClearEnd s) :
    trimSpace (a ++ s ++ b) = s := by
  have e1 : trimLeft (a ++ s ++ b) = s ++ b := by
    obtain ⟨ps, hps, rfl⟩ := ha
    unfold trimLeft
    rw [List.append_assoc]
    exact dropPats_pats spaceRunes_prefixFree spaceRunes_ne hps (h1 b) _ (by simp)
  unfold trimSpace
  rw [e1]
  obtain ⟨ps, hps, rfl⟩ := hb
  unfold trimRight
  have e2 : (s ++ ps.flatten).reverse = ((ps.map List.reverse).reverse).flatten ++ s.reverse := by
    rw [List.reverse_append, List.reverse_flatten]
  rw [e2, dropPats_pats spaceRunesRev_prefixFree spaceRunesRev_ne _ (clearEnd_iff.1 h2) _ (by rw [← e2, List.length_reverse]; exact Nat.le_refl _), List.reverse_reverse]
  intro p hp
  rw [List.mem_reverse, List.mem_map] at hp
  obtain ⟨q, hq, rfl⟩ := hp
  exact List.mem_map.2 ⟨q, hps q hq, rfl⟩

theorem blank_newline : Blank [10] := ⟨[[10]], by decide, rfl⟩

theorem pemDecode_encode {bytes a b : GoString} (h : bytes ≠ []) (ha : Blank a) (hb : Blank b) :
    pemDecode (trimSpace (a ++ pemEncode (gs! "RSA PUBLIC KEY") bytes ++ b)) = some (gs! "RSA PUBLIC KEY", bytes) := by
  have h1 : ∀ t, ClearStart (rsaPemCore bytes ++ t) := by
    intro t
    rw [rsaPemCore, List.append_assoc, List.append_assoc]
    exact clearStart_cons (by decide)
  have h2 : ClearEnd (rsaPemCore bytes) := by
    have : rsaPemCore bytes = (gs! "-----BEGIN RSA PUBLIC KEY-----\n" ++ wrap64 (b64Encode bytes).length (b64Encode bytes) ++
      gs! "-----END RSA PUBLIC KEY----") ++ [45] := by simp [rsaPemCore]
    rw [this]
    exact clearEnd_concat (by decide)
  have e : a ++ (rsaPemCore bytes ++ [10]) ++ b = a ++ rsaPemCore bytes ++ ([10] ++ b) := by simp
  rw [pemEncode_core, e, trimSpace_around ha (blank_newline.append hb) h1 h2, pemDecode_core h]

/-! ## What the two parsers compute, in closed form -/

theorem removeSub_none {pat : GoString} {c : UInt8} (hc : c ∈ pat) (s : GoString) (h : c ∉ s) : removeSub pat 0 s = s := by
  induction s with
  | nil => rfl
  | cons b t ih =>
    rw [removeSub, if_neg, ih (fun hm => h (List.mem_cons_of_mem _ hm))]
    rw [hasPrefix, List.isPrefixOf_iff_prefix]
    intro hp
    exact h (hp.mem hc)

theorem sha256_text (k : SshPub) : ∀ x ∈ k.sha256, 33 ≤ x.toNat ∧ x.toNat < 128 ∧ x ≠ 45 ∧ x ≠ 58 := by
  intro x hx
  exact b64Encode_plain _ x (List.mem_filter.1 hx).1

theorem fingerprint_plain (k : SshPub) : removeSub (gs! "SHA256:") 0 (gs! "SHA256:" ++ k.sha256) = k.sha256 := by
  have h58 : (58 : UInt8) ∉ k.sha256 := fun h => (sha256_text k 58 h).2.2.2 rfl
  have e : removeSub (gs! "SHA256:") 0 (gs! "SHA256:" ++ k.sha256) = removeSub (gs! "SHA256:") 0 k.sha256 := by
    simp only [List.cons_append, List.nil_append, removeSub, hasPrefix, List.isPrefixOf, beq_self_eq_true, Bool.true_and, if_true,
      List.length_cons, List.length_nil, Nat.reduceAdd, Nat.reduceSub]
  rw [e, removeSub_none (c := 58) (by decide) _ h58]

/-- The types of keys that come out of an X.509 key. -/
theorem pkixToSsh_type {der : GoString} {k : SshPub} (h : pkixToSsh der = some (some k)) :
    k.type = gs! "ssh-rsa" ∨ ∃ kind : PkixKind, k.type = kind.name := by
  unfold pkixToSsh at h
  split at h
  · simp at h
  · simp only [Option.some.injEq] at h
    rw [← h]; exact .inl rfl
  · split at h
    · simp at h
    · simp at h
    · rename_i kind rest _
      simp only [Option.some.injEq] at h
      rw [← h]; exact .inr ⟨kind, rfl⟩

theorem pkixToSsh_other_wire {der : GoString} {k : SshPub} (h : pkixToSsh der = some (some k)) :
    ∃ r, k.wire = sshString k.type ++ r := by
  cases k with
  | rsa e n => exact ⟨_, by rw [SshPub.wire, List.append_assoc]; rfl⟩
  | other t r => exact ⟨r, rfl⟩

/-- The base64 text starts with an `A`. -/
theorem base64_head {k : SshPub} {r : GoString} (h : k.wire = sshString k.type ++ r) (hl : k.type.length < 256) :
    ∃ t, k.base64 = 65 :: t := by
  have e : ∃ a b, sshString k.type ++ r = 0 :: a :: b := by
    have e0 : sshString k.type ++ r = UInt8.ofNat (k.type.length / 256 ^ 3) :: UInt8.ofNat (k.type.length / 256 ^ 2) ::
        (Sha.natBE 2 k.type.length ++ k.type ++ r) := rfl
    have h0 : UInt8.ofNat (k.type.length / 256 ^ 3) = 0 := by
      rw [Nat.div_eq_of_lt (by omega)]; rfl
    rw [h0] at e0
    exact ⟨_, _, e0⟩
  obtain ⟨a, b, e⟩ := e
  rw [SshPub.base64, h, e]
  cases b with
  | nil => exact ⟨_, rfl⟩
  | cons c t => exact ⟨_, rfl⟩

theorem openSSH_plain {der : GoString} {k : SshPub} (h : pkixToSsh der = some (some k)) :
    trimLeftSet (k.type ++ [32]) k.line = k.base64 ++ [10] := by
  have hty : k.type.length < 256 ∧ (65 : UInt8) ∉ k.type ++ [32] := by
    rcases pkixToSsh_type h with h | ⟨kind, h⟩
    · rw [h]; decide
    · rw [h]; cases kind <;> decide
  obtain ⟨r, hr⟩ := pkixToSsh_other_wire h
  obtain ⟨t, ht⟩ := base64_head hr hty.1
  unfold trimLeftSet SshPub.line
  have hw : ∀ l : GoString, (∀ x ∈ l, (k.type ++ [32]).contains x = true) →
      l.dropWhile (fun b => (k.type ++ [32]).contains b) = [] := by
    intro l hl
    induction l with
    | nil => rfl
    | cons b t ih =>
      rw [List.dropWhile_cons_of_pos (hl b (by simp))]
      exact ih fun x hx => hl x (by simp [hx])
  rw [List.append_assoc, List.dropWhile_append, if_pos, ht]
  · rw [List.cons_append, List.dropWhile_cons_of_neg]
    simpa using hty.2
  · rw [hw _ (fun x hx => by simpa using hx)]
    rfl

theorem parsePublicKeyRSA_eq (p : PublicKey) :
    parsePublicKeyRSA p =
      if p.usage ≠ gs! "ssh" then .err (.withV .publicKeyUsagePayloadMismatch [p.usage] [])
      else
        match pemDecode (trimSpace p.payload) with
        | none => .err (.withV .publicKeyBlockType [[]] [])
        | some (type, bytes) =>
          if type ≠ gs! "RSA PUBLIC KEY" then .err (.withV .publicKeyBlockType [type] [])
          else
            match pkixToSsh bytes with
            | none => .err (.withE .publicKeyParse [] (.ext (gs! "x509")))
            | some none => .err (.ext (gs! "failed ssh.NewPublicKey"))
            | some (some key) =>
              .ok { p with type := key.type, fingerprintMD5 := key.md5, fingerprint := key.sha256, openSSH := key.base64 ++ [10] } := by
  unfold parsePublicKeyRSA
  split
  · rfl
  cases pemDecode (trimSpace p.payload) with
  | none => rfl
  | some x =>
    obtain ⟨type, bytes⟩ := x
    dsimp only
    split
    · rfl
    cases hk : pkixToSsh bytes with
    | none => rfl
    | some o =>
      cases o with
      | none => rfl
      | some key =>
        dsimp only
        rw [fingerprint_plain, openSSH_plain hk]

theorem parsePublicKeyOpenSSH_eq (p : PublicKey) :
    parsePublicKeyOpenSSH p =
      match b64Decode (splitOpenSSH p.payload).1 with
      | none => .err (.withE .publicKeyParse [] (.ext (gs! "base64")))
      | some k =>
        match sshParse k with
        | none => .err (.withE .publicKeyParse [] (.ext (gs! "ssh")))
        | some (.other t _) => .err (.withV .publicKeyTypeUnsupported [t] [])
        | some (.rsa e n) =>
          .ok { p with
            type := gs! "ssh-rsa"
            comment := if (splitOpenSSH p.payload).2.1 = [] then p.comment else (splitOpenSSH p.payload).2.1
            fingerprintMD5 := (SshPub.rsa e n).md5
            fingerprint := gs! "SHA256:" ++ (SshPub.rsa e n).sha256
            openSSH := (splitOpenSSH p.payload).2.2
            payload := rsaPem e n } := by
  unfold parsePublicKeyOpenSSH
  generalize splitOpenSSH p.payload = x
  obtain ⟨b64, comment, openSSH⟩ := x
  dsimp only
  cases b64Decode b64 with
  | none => rfl
  | some k =>
    dsimp only
    cases hk : sshParse k with
    | none => rfl
    | some key =>
      dsimp only
      cases key with
      | rsa e n =>
        rw [if_pos (show (SshPub.rsa e n).type = gs! "ssh-rsa" from rfl), sshParse_again hk]
        rfl
      | other t r =>
        rw [if_neg]
        · rfl
        · rcases sshParse_type hk with h | h
          · obtain ⟨e, n, h⟩ := h.2; cases h
          · exact h.2

end GoIdentity
