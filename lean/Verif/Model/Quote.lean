import Verif.Model.Json
import Verif.Model.ErrorText
/-!
# `strconv.Quote`, the verb `%q` of an error text (pkg/errors/errors.go:63-65)
-/
namespace GoIdentity

/-- What differs between Go releases: the tables of printable characters above U+00FF, and whether DEL is written `\x7f` or
`\u007f`. -/
structure QuoteTables where
  wide : Nat → Bool
  shortDel : Bool

/-- `strconv.IsPrint`. -/
def QuoteTables.isPrint (q : QuoteTables) (r : Nat) : Bool :=
  if r ≤ 0xFF then decide (0x20 ≤ r ∧ r < 0x7F ∨ 0xA1 ≤ r ∧ r ≠ 0xAD) else q.wide r

/-- `n` written with `k` hexadecimal digits. -/
def hexPad : Nat → Nat → GoString
  | 0, _ => []
  | k + 1, n => hexPad k (n / 16) ++ [hexDigit (n % 16)]

/-- `strconv.appendEscapedRune` for double quotes. -/
def QuoteTables.rune (q : QuoteTables) (r : Nat) : GoString :=
  if r = 34 ∨ r = 92 then [92, UInt8.ofNat r]
  else if q.isPrint r then encodeRune r
  else if r = 7 then [92, 97]
  else if r = 8 then [92, 98]
  else if r = 12 then [92, 102]
  else if r = 10 then [92, 110]
  else if r = 13 then [92, 114]
  else if r = 9 then [92, 116]
  else if r = 11 then [92, 118]
  else if r < 32 ∨ (r = 0x7F ∧ q.shortDel) then 92 :: 120 :: hexPad 2 r
  else if r < 0x10000 then 92 :: 117 :: hexPad 4 r
  else 92 :: 85 :: hexPad 8 r

/-- The loop of `strconv.appendQuotedWith`; `fuel` bounds the number of characters. -/
def QuoteTables.loop (q : QuoteTables) : Nat → GoString → GoString
  | 0, _ => []
  | _ + 1, [] => []
  | fuel + 1, b :: t =>
    let (r, n) := decodeRune (b :: t)
    (if n = 1 ∧ r = runeError then 92 :: 120 :: hexPad 2 b.toNat else q.rune r) ++ q.loop fuel ((b :: t).drop n)

/-- `strconv.Quote`. -/
def QuoteTables.quote (q : QuoteTables) (s : GoString) : GoString := 34 :: (q.loop s.length s ++ [34])

end GoIdentity
