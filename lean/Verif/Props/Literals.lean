import Verif.Lemmas.Float64
import Verif.Props.WebAuthn
/-!
# The numbers of a registration: C83

The members of a WebAuthn public key are decoded as `interface{}`, so a number becomes the float64 nearest to it
(`LiteralValue`, `RoundsTo`, `HasNumber` in Lemmas/Float64.lean).
-/
namespace GoIdentity
open Toy

/-- C83: a literal of up to 9000 characters passes for the integer `n` exactly if `n` is the float64 nearest to its value. -/
theorem C83_number_is_iff {l : GoString} {v : ℚ} (h : LiteralValue l v) (hl : l.length ≤ 9000) {n : ℤ} (hn : n ≠ 0)
    (hn2 : n.natAbs < 2 ^ 52) : floatIs l n = true ↔ RoundsTo v n := floatIs_iff h hl hn hn2

/-- C83: every literal of the grammar has exactly one value. -/
theorem C83_value_unique {l : GoString} (h : JsonGrammar.Number l) : ∃ v, LiteralValue l v ∧ ∀ w, LiteralValue l w → w = v := by
  obtain ⟨v, hv⟩ := literalValue_exists h
  exact ⟨v, hv, fun w hw => literalValue_unique hw hv⟩

/-- C83: a number is out of range exactly if its absolute value is `2 ^ 1024 - 2 ^ 970` or more. -/
theorem C83_out_of_range_iff {l : GoString} {v : ℚ} (h : LiteralValue l v) (hl : l.length ≤ 9000) :
    floatOverflow l = true ↔ (2 : ℚ) ^ 1024 - 2 ^ 970 ≤ |v| := floatOverflow_iff h hl

/-- C83: a value of unspecified type (a member of the public key, or the extensions) is taken exactly if every number in it, at
any depth, is in range. -/
theorem C83_any_depth {j : Json} (hj : ∀ l, HasNumber l j → JsonGrammar.Number l ∧ l.length ≤ 9000) :
    elemAny j = .ok j ↔ ∀ l v, HasNumber l j → LiteralValue l v → |v| < (2 : ℚ) ^ 1024 - 2 ^ 970 := by
  have h1 : elemAny j = .ok j ↔ j.floatsOk = true := by
    unfold elemAny
    split <;> simp_all [typeErr]
  rw [h1, floatsOk_iff]
  constructor
  · intro h l v hl hv
    have := floatOverflow_iff hv (hj l hl).2
    rw [h l hl] at this
    exact not_le.1 fun hle => Bool.false_ne_true (this.2 hle)
  · intro h l hl
    obtain ⟨v, hv⟩ := literalValue_exists (hj l hl).1
    have := floatOverflow_iff hv (hj l hl).2
    have hlt := h l v hl hv
    cases ho : floatOverflow l with
    | false => rfl
    | true => exact absurd (this.1 ho) (not_le.2 hlt)

/-- C83: a complete registration with numbers for key type, algorithm and curve, and texts as coordinates, is accepted exactly
if the numbers round to 2, -7 and 1. -/
theorem C83_registration_iff [Ext] (nd : Nondet) (req : Request) (ht : req.mfaToken.type = gs! "u2f")
    (h1 : req.webAuthn.register ≠ []) (h2 : req.webAuthn.challenge ≠ []) {r : RegisterRequest}
    (hr : IsRegistration req.webAuthn.register r) {ad : AuthData} {flags : List (GoString × Bool)} {pk : List (GoString × Json)}
    (hg : GoodRegistration r ad flags pk) {lt la lc x y : GoString} {vt va vc : ℚ}
    (kt : pk.lookup (gs! "key_type") = some (.num lt)) (ka : pk.lookup (gs! "algorithm") = some (.num la))
    (kc : pk.lookup (gs! "curve_type") = some (.num lc)) (kx : pk.lookup (gs! "curve_x") = some (.str x))
    (ky : pk.lookup (gs! "curve_y") = some (.str y))
    (hlt : LiteralValue lt vt ∧ lt.length ≤ 9000) (hla : LiteralValue la va ∧ la.length ≤ 9000)
    (hlc : LiteralValue lc vc ∧ lc.length ≤ 9000) :
    (∃ t, (newMfaToken nd req).1 = .ok t) ↔ RoundsTo vt 2 ∧ RoundsTo va (-7) ∧ RoundsTo vc 1 := by
  have e1 := floatIs_iff hlt.1 hlt.2 (n := 2) (by decide) (by decide)
  have e2 := floatIs_iff hla.1 hla.2 (n := -7) (by decide) (by decide)
  have e3 := floatIs_iff hlc.1 hlc.2 (n := 1) (by decide) (by decide)
  push_cast at e1 e2 e3
  rw [← e1, ← e2, ← e3, C35_registration_accepted_iff nd req ht]
  constructor
  · rintro ⟨-, -, r', ad', flags', pk', curve, x', y', ⟨doc', hd1, hd2⟩, hg', hk⟩
    obtain ⟨doc, hd3, hd4⟩ := hr
    rw [hd3] at hd1; cases hd1
    rw [hd4] at hd2; cases hd2
    have hpk : pk' = pk := by
      obtain ⟨-, -, -, ao, cd, a1, a2, -, -, a5, a6⟩ := hg
      obtain ⟨-, -, -, ao', cd', b1, b2, -, -, b5, b6⟩ := hg'
      rw [a1] at b1; cases b1
      rw [a2] at b2; cases b2
      rw [a5] at b5; cases b5
      rw [a6] at b6; cases b6
      rfl
    subst hpk
    obtain ⟨⟨l1, g1, f1⟩, ⟨l2, g2, f2⟩, hc, -, -⟩ := hk
    rw [kt] at g1; cases g1
    rw [ka] at g2; cases g2
    rcases hc with ⟨hc, -⟩ | ⟨l3, g3, f3, -⟩
    · rw [kc] at hc; cases hc
    · rw [kc] at g3; cases g3
      exact ⟨f1, f2, f3⟩
  · rintro ⟨f1, f2, f3⟩
    exact ⟨h1, h2, r, ad, flags, pk, _, x, y, hr, hg, ⟨⟨lt, kt, f1⟩, ⟨la, ka, f2⟩, .inr ⟨lc, kc, f3, rfl⟩, .inr kx, .inr ky⟩⟩

-- Several spellings of the key type 2, and numbers that are not 2.
example : ∀ l ∈ [gs! "2", gs! "2.0", gs! "0.2e1", gs! "200E-2", gs! "2.0000000000000001", gs! "1.9999999999999999"],
    floatIs l 2 = true ∧ (exec .addMfaToken nd db2 fs3 (reqU2F l)).Succeeded := by
  unfold Result.Succeeded; decide +kernel
example : ∀ l ∈ [gs! "-2", gs! "2.000000000000001", gs! "1.999999999999999", gs! "0.2", gs! "2e1", gs! "1e400", gs! "3"],
    floatIs l 2 = false ∧ (exec .addMfaToken nd db2 fs3 (reqU2F l)).out ≠ .done none := by
  decide +kernel
-- A number that nothing reads, out of range and in range, in an array in an object of the public key.
example : (exec .addMfaToken nd db2 fs3 (reqU2F (gs! "2, \"x\": {\"y\": [true, 1e400]}"))).out ≠ .done none ∧
    (exec .addMfaToken nd db2 fs3 (reqU2F (gs! "2, \"x\": {\"y\": [true, 1e300]}"))).Succeeded := by
  unfold Result.Succeeded; decide +kernel
-- The limit of the range.
example : floatOverflow (gs! "1e308") = false ∧ floatOverflow (gs! "1.7976931348623157e308") = false ∧
    floatOverflow (gs! "1.7976931348623159e308") = true ∧ floatOverflow (gs! "-1e309") = true ∧
    floatOverflow (gs! "0e999999999999") = false := by decide +kernel
example : LiteralValue (gs! "-12.5e-1") (-5 / 4) := by
  refine ⟨[0x2D], gs! "12", gs! ".5", gs! "e-1", gs! "5", -1, .inr rfl, ?_, ?_, ?_, by decide, ?_⟩
  · exact .inr ⟨⟨by decide, by decide⟩, by decide⟩
  · exact .inr ⟨⟨by decide, by decide⟩, by decide⟩
  · exact .inr ⟨0x65, [0x2D], gs! "1", .inl rfl, ⟨by decide, by decide⟩, by decide, .inr ⟨rfl, by decide⟩⟩
  · have : numeral (gs! "12") = 12 ∧ numeral (gs! "5") = 5 ∧ (gs! "5").length = 1 := by decide
    rw [this.1, this.2.1, this.2.2]
    norm_num

end GoIdentity
