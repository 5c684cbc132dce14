import Verif.Lemmas.Frame
import Verif.Lemmas.Quote
import Verif.Lemmas.StructTag
import Verif.Props.ErrorText
import Verif.Props.TagText
/-!
# The texts of errors, and quoting: C75 and C114
-/
namespace GoIdentity
open Toy

/-! ## C75 -/

/-- C75: exactly which text a format and its arguments give, and which give none. -/
theorem C75_sprintf_iff (quote : GoString → GoString) (f : GoString) (as : List FmtArg) (o : GoString) :
    sprintf quote f as = some o ↔ Formats quote f as o := sprintf_iff

/-- C75: exactly which text an error says. -/
theorem C75_text_iff (quote : GoString → GoString) (e : GoErr) (t : GoString) : e.text quote = some t ↔ ErrSays quote e t := text_iff

/-- C75: so every error of every call says exactly one text. -/
theorem C75_call_errors_say [Ext] (quote : GoString → GoString) (c : Call) (nd : Nondet) (db : Database) (fs : FS)
    (req : Request) (e : GoErr) (h : (exec c nd db fs req).out = .fail e) : ∃ t, ∀ u, ErrSays quote e u ↔ u = t := by
  obtain ⟨t, ht⟩ := C75_call_errors_format quote c nd db fs req e h
  refine ⟨t, fun u => ?_⟩
  rw [← text_iff, ht, Option.some.injEq]
  exact eq_comm

example : Formats id (gs! "a %s, %q and %d") [.str (gs! "b"), .str (gs! "c"), .int (-120)] (gs! "a b, c and -120") :=
  sprintf_iff.1 (by decide)
example : SignedText (-120) (gs! "-120") ∧ SignedText 0 (gs! "0") ∧ ¬ SignedText 7 (gs! "07") ∧ ¬ SignedText 7 (gs! "+7") := by
  simp only [← fmtInt_iff]; decide
/-- A verb without argument, an argument without verb, a verb of another kind. -/
example : (∀ o, ¬ Formats id (gs! "%v") [] o) ∧ (∀ o, ¬ Formats id (gs! "x") [.int 1] o) ∧ ∀ o, ¬ Formats id (gs! "%d") [.str [97]] o := by
  have no : ∀ {f as}, sprintf id f as = none → ∀ o, ¬ Formats id f as o := fun h o h' => by
    rw [← sprintf_iff, h] at h'; cases h'
  exact ⟨no (by decide), no (by decide), no (by decide)⟩
example : ErrSays (fun s => 39 :: s ++ [39]) (.withE .deleteUser [gs! "joe"] (.withV .userIDInvalidLength [] [3]))
    (gs! "failed deleting user 'joe': invalid user id length: 3") := text_iff.1 (by decide)

/-! ## C114 -/

/-- C114: what `%q` writes for a string: printable characters as they are, the others as escapes, and bytes that are no character
as `\x` with two digits. -/
theorem C114_quote_iff (q : QuoteTables) (s o : GoString) : q.quote s = o ↔ ∃ body, o = 34 :: (body ++ [34]) ∧ Quotes q s body := by
  constructor
  · rintro rfl
    exact ⟨_, rfl, body_sound s⟩
  · rintro ⟨body, rfl, h⟩
    rw [← body_iff.2 h]
    rfl

theorem hexText_bytes {ds : GoString} {n : Nat} (h : HexText ds n) : ∀ b ∈ ds, 48 ≤ b.toNat ∧ b.toNat ≤ 102 ∧ b ≠ 92 := by
  obtain ⟨xs, h1, rfl, _⟩ := h
  intro b hb
  obtain ⟨x, hx, rfl⟩ := List.mem_map.1 hb
  have : ∀ m : Fin 16, 48 ≤ ((gs! "0123456789abcdef").getD m.val 0).toNat ∧ ((gs! "0123456789abcdef").getD m.val 0).toNat ≤ 102 ∧
      (gs! "0123456789abcdef").getD m.val 0 ≠ 92 := by decide
  exact this ⟨x, h1 x hx⟩

theorem rawText_append {s t : GoString} (h : ∀ b ∈ s, b ≠ 34 ∧ b ≠ 92) (ht : Tag.RawText t) : Tag.RawText (s ++ t) := by
  induction s with
  | nil => exact ht
  | cons b s ih => exact .plain (h b (by simp)).1 (h b (by simp)).2 (ih fun x hx => h x (by simp [hx]))

theorem quotes_raw {q : QuoteTables} {s o : GoString} (h : Quotes q s o) : Tag.RawText o := by
  have hex : ∀ {ds n}, HexText ds n → ∀ b ∈ ds, b ≠ 34 ∧ b ≠ 92 := by
    intro ds n hd b hb
    obtain ⟨h1, h2, h3⟩ := hexText_bytes hd b hb
    exact ⟨by rintro rfl; revert h1; decide, h3⟩
  induction h with
  | nil => exact .nil
  | @plain r t o hr hp h1 h2 _ ih =>
    refine rawText_append (fun b hb => ?_) ih
    by_cases h128 : r < 128
    · rw [encodeRune_ascii h128] at hb
      obtain rfl := List.mem_singleton.1 hb
      have e : (UInt8.ofNat r).toNat = r := u8_toNat (by omega)
      constructor
      · intro h; rw [h] at e; exact h1 e.symm
      · intro h; rw [h] at e; exact h2 e.symm
    · have := encodeRune_high (by omega) b hb
      constructor <;> (rintro rfl; revert this; decide)
  | symbol _ _ ih => exact .escape ih
  | control _ _ _ hd _ ih => exact .escape (rawText_append (hex hd) ih)
  | noCharacter _ _ hd _ ih => exact .escape (rawText_append (hex hd) ih)
  | short _ _ _ _ _ _ hd _ ih => exact .escape (rawText_append (hex hd) ih)
  | long _ _ _ _ hd _ ih => exact .escape (rawText_append (hex hd) ih)

/-- C114: nothing is lost: `strconv.Unquote` gives back every byte, of any string. -/
theorem C114_unquote_quote (q : QuoteTables) (s : GoString) :
    ∃ body, q.quote s = 34 :: (body ++ [34]) ∧ Tag.RawText body ∧ Tag.unquote body = some s := by
  have h := body_sound (q := q) s
  exact ⟨_, rfl, quotes_raw h, (Tag.C96_unquote_iff _ _).2 (quotes_unquotes h)⟩

/-- C114: and the place where it ends can be seen: no text starts with the quoted forms of two different strings. -/
theorem C114_quote_ends (q : QuoteTables) {s s' r r' : GoString} (h : q.quote s ++ r = q.quote s' ++ r') : s = s' ∧ r = r' := by
  obtain ⟨b, hb, h1, h2⟩ := C114_unquote_quote q s
  obtain ⟨b', hb', h1', h2'⟩ := C114_unquote_quote q s'
  rw [hb, hb'] at h
  simp only [List.cons_append, List.append_assoc, List.nil_append, List.cons.injEq, true_and] at h
  have e := Tag.scanQuoted_of h1 r
  rw [h, Tag.scanQuoted_of h1' r'] at e
  simp only [Option.some.injEq, Prod.mk.injEq] at e
  obtain ⟨rfl, rfl⟩ := e
  rw [h2] at h2'
  exact ⟨Option.some.inj h2', rfl⟩

/-- C114: a quoted string is valid UTF-8 and all its characters are printable, whatever bytes were given. -/
theorem C114_quote_printable (q : QuoteTables) (s : GoString) :
    validUTF8 (q.quote s) = true ∧ ∀ c ∈ codePoints (q.quote s), q.Printable c := by
  have rune : ∀ {r t}, IsScalar r → q.Printable r → (validUTF8 t = true ∧ ∀ c ∈ codePoints t, q.Printable c) →
      validUTF8 (encodeRune r ++ t) = true ∧ ∀ c ∈ codePoints (encodeRune r ++ t), q.Printable c := by
    intro r t hr hp ht
    rw [validUTF8_encodeRune hr, codePoints_encodeRune hr]
    refine ⟨ht.1, fun c hc => ?_⟩
    rcases List.mem_cons.1 hc with rfl | hc
    · exact hp
    · exact ht.2 c hc
  have byte : ∀ {b : UInt8} {t}, 32 ≤ b.toNat → b.toNat ≤ 126 → (validUTF8 t = true ∧ ∀ c ∈ codePoints t, q.Printable c) →
      validUTF8 (b :: t) = true ∧ ∀ c ∈ codePoints (b :: t), q.Printable c := by
    intro b t h1 h2 ht
    have := rune (r := b.toNat) (scalar_small (by omega)) (.inl ⟨h1, h2⟩) ht
    rwa [encodeRune_byte (by omega)] at this
  have bytes : ∀ {ds t n}, HexText ds n → (validUTF8 t = true ∧ ∀ c ∈ codePoints t, q.Printable c) →
      validUTF8 (ds ++ t) = true ∧ ∀ c ∈ codePoints (ds ++ t), q.Printable c := by
    intro ds t n hd ht
    have hb := hexText_bytes hd
    clear hd
    induction ds with
    | nil => exact ht
    | cons b ds ih =>
      have := hb b (by simp)
      exact byte (by omega) (by omega) (ih fun x hx => hb x (by simp [hx]))
  rw [show q.quote s = 34 :: (q.body s ++ [34]) from rfl]
  refine byte (by decide) (by decide) ?_
  have h := body_sound (q := q) s
  generalize q.body s = o at h
  induction h with
  | nil => exact byte (by decide) (by decide) ⟨rfl, by simp [codePoints, runes_nil]⟩
  | plain hr hp _ _ _ ih => rw [List.append_assoc]; exact rune hr hp ih
  | @symbol b c t o hc _ ih =>
    have : 32 ≤ c.toNat ∧ c.toNat ≤ 126 := by
      have all : ∀ p ∈ quoteSymbols, 32 ≤ p.2.toNat ∧ p.2.toNat ≤ 126 := by decide
      exact all _ hc
    exact byte (by decide) (by decide) (byte this.1 this.2 ih)
  | control _ _ _ hd _ ih => rw [List.cons_append, List.cons_append, List.append_assoc]; exact byte (by decide) (by decide) (byte (by decide) (by decide) (bytes hd ih))
  | noCharacter _ _ hd _ ih => rw [List.cons_append, List.cons_append, List.append_assoc]; exact byte (by decide) (by decide) (byte (by decide) (by decide) (bytes hd ih))
  | short _ _ _ _ _ _ hd _ ih => rw [List.cons_append, List.cons_append, List.append_assoc]; exact byte (by decide) (by decide) (byte (by decide) (by decide) (bytes hd ih))
  | long _ _ _ _ hd _ ih => rw [List.cons_append, List.cons_append, List.append_assoc]; exact byte (by decide) (by decide) (byte (by decide) (by decide) (bytes hd ih))

/-- A control character of ASCII, such as a line end. -/
def Control (b : UInt8) : Prop := b.toNat < 32 ∨ b.toNat = 127

theorem quote_no_control (q : QuoteTables) (s : GoString) : ∀ b ∈ q.quote s, ¬ Control b := by
  obtain ⟨h1, h2⟩ := C114_quote_printable q s
  obtain ⟨rs, h3, h4⟩ := validUTF8_iff.1 h1
  rw [h4] at h2 ⊢
  clear h1 h4
  induction rs with
  | nil => simp
  | cons r rs ih =>
    have hr := h3 r (by simp)
    rw [List.flatMap_cons, codePoints_encodeRune hr] at h2
    intro b hb
    rw [List.flatMap_cons] at hb
    rcases List.mem_append.1 hb with hb | hb
    · have hp := h2 r (by simp)
      unfold Control
      by_cases h128 : r < 128
      · rw [encodeRune_ascii h128] at hb
        obtain rfl := List.mem_singleton.1 hb
        rw [u8_toNat (by omega)]
        unfold QuoteTables.Printable at hp
        omega
      · have := encodeRune_high (by omega) b hb
        omega
    · exact ih (fun c hc => h2 c (by simp [hc])) (fun x hx => h3 x (by simp [hx])) b hb

theorem text_no_control (e : StdErr) : ∀ b ∈ e.text, 32 ≤ b.toNat ∧ b.toNat ≤ 126 := by
  cases e <;> decide

theorem verbs_byte {b : UInt8} (hb : b ≠ 37) (f : GoString) : verbs (b :: f) = verbs f := by
  cases f with
  | nil => rfl
  | cons v f => rw [verbs, if_neg hb]

theorem signedText_no_control {i : Int} {s : GoString} (h : SignedText i s) : ∀ b ∈ s, ¬ Control b := by
  have hd : ∀ {n t}, DecimalText n t → ∀ b ∈ t, ¬ Control b := by
    intro n t h b hb
    have := h.2.1 b hb
    unfold Control
    omega
  unfold SignedText at h
  split at h
  · obtain ⟨t, rfl, h⟩ := h
    intro b hb
    rcases List.mem_cons.1 hb with rfl | hb
    · unfold Control; decide
    · exact hd h b hb
  · exact hd h

/-- The strings among the arguments, up to the first integer. -/
theorem formats_control {q : QuoteTables} {f o : GoString} {as : List FmtArg} (h : Formats q.quote f as o) :
    ∀ {ss : List GoString} {is : List Int}, as = ss.map .str ++ is.map .int → (∀ b ∈ f, ¬ Control b) → ∀ b ∈ o, Control b →
      ∃ s ∈ rawArgs f ss, b ∈ s := by
  induction h with
  | nil => intro ss is _ _ b hb; simp at hb
  | @byte x f o as hx _ ih =>
    intro ss is ha hf b hb hc
    rcases List.mem_cons.1 hb with rfl | hb
    · exact absurd hc (hf b (by simp))
    · obtain ⟨s, hs, h⟩ := ih ha (fun y hy => hf y (by simp [hy])) b hb hc
      refine ⟨s, ?_, h⟩
      rw [rawArgs, verbs_byte hx]
      exact hs
  | @string v f x o as hv _ ih =>
    intro ss is ha hf b hb hc
    cases ss with
    | nil => cases is <;> simp at ha
    | cons s ss =>
      simp only [List.map_cons, List.cons_append, List.cons.injEq, FmtArg.str.injEq] at ha
      obtain ⟨rfl, ha⟩ := ha
      have hr : rawArgs (37 :: v :: f) (x :: ss) = x :: rawArgs f ss := by
        have : v ≠ 113 := by rintro rfl; revert hv; decide
        rw [rawArgs, verbs, if_pos rfl, List.zip_cons_cons, List.filterMap_cons]
        simp only [if_neg this]
        rfl
      rw [hr]
      rcases List.mem_append.1 hb with hb | hb
      · exact ⟨x, by simp, hb⟩
      · obtain ⟨s, hs, h⟩ := ih ha (fun y hy => hf y (by simp [hy])) b hb hc
        exact ⟨s, by simp [hs], h⟩
  | @quoted f x o as _ ih =>
    intro ss is ha hf b hb hc
    cases ss with
    | nil => cases is <;> simp at ha
    | cons s ss =>
      simp only [List.map_cons, List.cons_append, List.cons.injEq, FmtArg.str.injEq] at ha
      obtain ⟨rfl, ha⟩ := ha
      have hr : rawArgs (37 :: 113 :: f) (x :: ss) = rawArgs f ss := by
        rw [rawArgs, verbs, if_pos rfl, List.zip_cons_cons, List.filterMap_cons]
        simp only [if_true]
        rfl
      rw [hr]
      rcases List.mem_append.1 hb with hb | hb
      · exact absurd hc (quote_no_control q x b hb)
      · exact ih ha (fun y hy => hf y (by simp [hy])) b hb hc
  | @integer v i f x o as hv hs _ ih =>
    intro ss is ha hf b hb hc
    cases ss with
    | cons s ss => simp at ha
    | nil =>
      rcases List.mem_append.1 hb with hb | hb
      · exact absurd hc (signedText_no_control hs b hb)
      · cases is with
        | nil => simp at ha
        | cons j is =>
          simp only [List.map_nil, List.nil_append, List.map_cons, List.cons.injEq] at ha
          obtain ⟨s, hs, _⟩ := ih (ss := []) (is := is) (by simpa using ha.2) (fun y hy => hf y (by simp [hy])) b hb hc
          simp [rawArgs] at hs

theorem rawArgs_mono (f : GoString) (ss : List GoString) (u s : GoString) (h : s ∈ rawArgs f (ss ++ [u])) : s ∈ rawArgs f ss ∨ s = u := by
  unfold rawArgs at *
  generalize verbs f = vs at *
  induction ss generalizing vs with
  | nil =>
    cases vs with
    | nil => simp at h
    | cons v vs =>
      rw [List.nil_append, List.zip_cons_cons, List.filterMap_cons] at h
      split at h
      · simp at h
      · rename_i hx
        simp only [List.zip_nil_right, List.filterMap_nil, List.mem_singleton] at h
        split at hx
        · cases hx
        · injection hx with hx
          exact .inr (h.trans hx.symm)
  | cons a ss ih =>
    cases vs with
    | nil => simp at h
    | cons v vs =>
      rw [List.cons_append, List.zip_cons_cons, List.filterMap_cons] at h
      rw [List.zip_cons_cons, List.filterMap_cons]
      split at h
      · exact ih vs h
      · rcases List.mem_cons.1 h with rfl | h
        · exact .inl (by simp)
        · exact (ih vs h).imp (fun h => by simp [h]) id

/-- C114: a line end or another control character in the text of an error comes from a string that stands there under `%s` or `%v`; none
comes from a quoted string or from the constants. -/
theorem C114_control_is_raw (q : QuoteTables) {e : GoErr} {t : GoString} (h : e.text q.quote = some t) :
    ∀ b ∈ t, Control b → ∃ s ∈ e.raw, b ∈ s := by
  rw [text_iff] at h
  induction h with
  | std e =>
    intro b hb hc
    have := text_no_control e b hb
    unfold Control at hc
    omega
  | ext s => intro b hb _; exact ⟨s, by simp [GoErr.raw], hb⟩
  | @withV e ss is t h =>
    intro b hb hc
    exact formats_control h rfl (fun x hx hc => by have := text_no_control e x hx; unfold Control at hc; omega) b hb hc
  | @withE e ss inner u t hi h ih =>
    intro b hb hc
    obtain ⟨s, hs, hb'⟩ := formats_control (ss := ss ++ [u]) (is := []) h (by simp)
      (fun x hx hc => by have := text_no_control e x hx; unfold Control at hc; omega) b hb hc
    rcases rawArgs_mono _ _ _ _ hs with hs | rfl
    · exact ⟨s, by simp [GoErr.raw, hs], hb'⟩
    · obtain ⟨s', h1, h2⟩ := ih b hb' hc
      exact ⟨s', by simp [GoErr.raw, h1], h2⟩

/-- C114: but the usage of a key that is added stands in every error of `AddPublicKey` as it was sent. -/
theorem C114_usage_is_shown_raw [Ext] (quote : GoString → GoString) (nd : Nondet) (db : Database) (fs : FS) (req : Request) (e : GoErr)
    (h : (exec .addPublicKey nd db fs req).out = .fail e) :
    ∃ rest, e.text quote = some (gs! "failed adding " ++ req.key.usage ++ gs! " public key: " ++ rest) := by
  obtain ⟨t, ht⟩ := C75_call_errors_format quote _ _ _ _ _ _ h
  have fmt : ∀ u x : GoString, sprintf quote StdErr.addPublicKey.text [.str u, .str x] =
      some (gs! "failed adding " ++ u ++ gs! " public key: " ++ x) := by
    intro u x
    refine sprintf_iff.2 ?_
    have : Formats quote StdErr.addPublicKey.text [.str u, .str x]
        (gs! "failed adding " ++ (u ++ (gs! " public key: " ++ (x ++ [])))) := by
      repeat (first | exact .nil | refine .byte (by decide) ?_ | refine .string (by decide) ?_)
    simpa using this
  have hE : ∀ i : GoErr, (GoErr.withE .addPublicKey [req.key.usage] i).text quote = some t →
      ∃ rest, some t = some (gs! "failed adding " ++ req.key.usage ++ gs! " public key: " ++ rest) := by
    intro i hi
    rw [GoErr.text] at hi
    cases hu : i.text quote with
    | none => rw [hu] at hi; cases hi
    | some u =>
      rw [hu] at hi
      refine ⟨u, ?_⟩
      rw [← hi]
      exact fmt _ _
  rw [ht]
  simp only [exec, Database.addPublicKey] at h
  split at h
  · injection h with h
    injection h with h
    subst h
    exact hE _ ht
  · split at h
    · rename_i e' he
      injection h with h
      injection h with h
      subst h
      unfold User.addPublicKey at he
      split at he
      · injection he with he
        subst he
        exact hE _ ht
      · cases he
      · split at he
        · injection he with he
          subst he
          refine ⟨gs! "already exists", ?_⟩
          rw [← ht]
          exact fmt _ _
        · cases he
    · cases h
    · unfold Database.finish at h
      split at h
      · cases h
      · injection h with h
        injection h with h
        subst h
        exact hE _ ht

/-- C114: so anyone who can send a request can put any line into the error text, and from there into a log: every database answers
every request with such a usage this way, also for an unknown user. -/
theorem C114_forged_line [Ext] (quote : GoString → GoString) (nd : Nondet) (db : Database) (fs : FS) (req : Request) (line : GoString)
    (hu : req.key.usage = 10 :: (line ++ [10])) :
    ∃ e t a b, (exec .addPublicKey nd db fs req).out = .fail e ∧ e.text quote = some t ∧ t = a ++ 10 :: (line ++ 10 :: b) := by
  have hf : ∃ e, (exec .addPublicKey nd db fs req).out = .fail e := by
    have hbad : ¬ (req.key.usage = gs! "ssh" ∨ req.key.usage = gs! "gpg") := by rw [hu]; simp
    simp only [exec, Database.addPublicKey]
    split
    · exact ⟨_, rfl⟩
    · rename_i i user _
      have : User.addPublicKey nd req.key user = .err (.withE .addPublicKey [req.key.usage] (.withV .publicKeyInvalidUsage [req.key.usage] [])) := by
        unfold User.addPublicKey newPublicKey parsePublicKey
        simp only [if_pos hbad]
      rw [this]
      exact ⟨_, rfl⟩
  obtain ⟨e, he⟩ := hf
  obtain ⟨rest, hr⟩ := C114_usage_is_shown_raw quote nd db fs req e he
  refine ⟨e, _, gs! "failed adding ", gs! " public key: " ++ rest, he, hr, ?_⟩
  rw [hu]
  simp

/-- C114: `AddAPIKey` shows the usage the same way to a caller who names no stored user; so any line can be forged there, too, without
an account. -/
theorem C114_forged_line_without_account [Ext] (quote : GoString → GoString) (nd : Nondet) {db : Database} (hdb : Reach Opened db) (fs : FS)
    (req : Request) (line : GoString) (hu : req.key.usage = 10 :: (line ++ [10]))
    (hno : ∀ u ∈ db.users, ¬ NamesUser req.user.username u) :
    ∃ e t a b, (exec .addAPIKey nd db fs req).out = .fail e ∧ e.text quote = some t ∧ t = a ++ 10 :: (line ++ 10 :: b) := by
  have fmt : ∀ u x : GoString, sprintf quote StdErr.addAPIKey.text [.str u, .str x] =
      some (gs! "failed adding " ++ u ++ gs! " key: " ++ x) := by
    intro u x
    refine sprintf_iff.2 ?_
    have : Formats quote StdErr.addAPIKey.text [.str u, .str x]
        (gs! "failed adding " ++ (u ++ (gs! " key: " ++ (x ++ [])))) := by
      repeat (first | exact .nil | refine .byte (by decide) ?_ | refine .string (by decide) ?_)
    simpa using this
  cases hv : db.validateUserIdentity req.user.username req.user.email with
  | ok p =>
    obtain ⟨i, u⟩ := p
    obtain ⟨h1, h2, _⟩ := (validate_iff (reach_inv hdb)).1 hv
    exact absurd h2 (hno u (List.mem_of_getElem? h1))
  | error e =>
    have hf : (exec .addAPIKey nd db fs req).out = .fail (.withE .addAPIKey [req.key.usage] e) := by
      simp only [exec, Database.addAPIKey, hv]
      rfl
    obtain ⟨t, ht⟩ := C75_call_errors_format quote _ _ _ _ _ _ hf
    have ht' := ht
    rw [GoErr.text] at ht'
    cases hi : e.text quote with
    | none => rw [hi] at ht'; cases ht'
    | some x =>
      rw [hi] at ht'
      have ht2 : some (gs! "failed adding " ++ req.key.usage ++ gs! " key: " ++ x) = some t := (fmt _ _).symm.trans ht'
      injection ht2 with ht2
      refine ⟨_, t, gs! "failed adding ", gs! " key: " ++ x, hf, ht, ?_⟩
      rw [← ht2, hu]
      simp

/-! ## Concrete cases -/

/-- Tables in which every character above U+00FF is printable. -/
def wideTables : QuoteTables := { wide := fun _ => true, shortDel := true }
/-- Tables in which none is, and DEL is written in the long form. -/
def narrowTables : QuoteTables := { wide := fun _ => false, shortDel := false }

/-- The comments of strconv: `Quote("\"Fran & Freddie's Diner\t☺\"")`; an `é` is printable, U+00A0 and U+00AD are not. -/
example : wideTables.quote (gs! "\"Fran\t☺é\"") = gs! "\"\\\"Fran\\t☺é\\\"\"" ∧
    narrowTables.quote (gs! "☺\u00a0\u00ad😀") = gs! "\"\\u263a\\u00a0\\u00ad\\U0001f600\"" := by decide +kernel
/-- Bytes that are no character, control characters and DEL. -/
example : wideTables.quote [255, 0, 7, 127, 10, 195] = gs! "\"\\xff\\x00\\a\\x7f\\n\\xc3\"" ∧
    narrowTables.quote [127] = gs! "\"\\u007f\"" := by decide +kernel
/-- The replacement character in the text is a character, unlike the byte it may stand for. -/
example : wideTables.quote (gs! "\ufffd") = gs! "\"\ufffd\"" ∧ wideTables.quote [0xEF] = gs! "\"\\xef\"" := by decide +kernel
/-- The usage is shown twice in this error: once as it is and once in quotes. -/
example : ∃ e, (exec .addPublicKey nd db1 fs2 { reqJoe with key := { reqJoe.key with usage := gs! "x\nfatal: disk full\n" } }).out = .fail e ∧
    e.text wideTables.quote = some (gs! "failed adding x\nfatal: disk full\n public key: public key usage \"x\\nfatal: disk full\\n\" is invalid") ∧
    e.raw = [gs! "x\nfatal: disk full\n"] :=
  ⟨_, rfl, by decide +kernel, by decide +kernel⟩

/-- A stranger asks for an API key. -/
example : (∀ u ∈ db1.users, ¬ NamesUser (gs! "eve") u) ∧ ∃ e, (exec .addAPIKey nd db1 fs2
      { reqJoe with user := { reqJoe.user with username := gs! "eve" }, key := { reqJoe.key with usage := gs! "\nfatal: disk full\n" } }).out = .fail e ∧
    e.text wideTables.quote = some (gs! "failed adding \nfatal: disk full\n key: user not found") :=
  ⟨by unfold NamesUser; decide +kernel, _, rfl, by decide +kernel⟩

end GoIdentity
