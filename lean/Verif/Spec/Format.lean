import Verif.Model.Quote
import Verif.Lemmas.Utf8
/-!
# The text of an error: vocabulary for C75 and C114
-/
namespace GoIdentity

/-- These digits write the number `n`, without leading zeros. -/
def DecimalText (n : Nat) (s : GoString) : Prop :=
  s ≠ [] ∧ (∀ b ∈ s, 48 ≤ b.toNat ∧ b.toNat ≤ 57) ∧ (s.head? = some 48 → s = [48]) ∧
    s.foldl (fun (a : Nat) b => 10 * a + (b.toNat - 48)) 0 = n

/-- This text writes the integer `i`, with a minus in front of a negative one. -/
def SignedText (i : Int) (s : GoString) : Prop :=
  if i < 0 then ∃ t, s = 45 :: t ∧ DecimalText i.natAbs t else DecimalText i.natAbs s

/-- Writing the arguments into a format: bytes other than `%` stand for themselves, `%v` and `%s` for a string as it is, `%q` for a
string in quotes, `%v` and `%d` for an integer.  The arguments are used up in order. -/
inductive Formats (quote : GoString → GoString) : GoString → List FmtArg → GoString → Prop
  | nil : Formats quote [] [] []
  | byte {b : UInt8} {f o : GoString} {as : List FmtArg} (hb : b ≠ 37) (h : Formats quote f as o) : Formats quote (b :: f) as (b :: o)
  | string {v : UInt8} {f s o : GoString} {as : List FmtArg} (hv : v = 118 ∨ v = 115) (h : Formats quote f as o) :
    Formats quote (37 :: v :: f) (.str s :: as) (s ++ o)
  | quoted {f s o : GoString} {as : List FmtArg} (h : Formats quote f as o) : Formats quote (37 :: 113 :: f) (.str s :: as) (quote s ++ o)
  | integer {v : UInt8} {i : Int} {f s o : GoString} {as : List FmtArg} (hv : v = 118 ∨ v = 100) (hs : SignedText i s)
    (h : Formats quote f as o) : Formats quote (37 :: v :: f) (.int i :: as) (s ++ o)

/-- The error says this text. -/
inductive ErrSays (quote : GoString → GoString) : GoErr → GoString → Prop
  | std (e : StdErr) : ErrSays quote (.std e) e.text
  | ext (s : GoString) : ErrSays quote (.ext s) s
  | withV {e : StdErr} {ss : List GoString} {is : List Int} {t : GoString} (h : Formats quote e.text (ss.map .str ++ is.map .int) t) :
    ErrSays quote (.withV e ss is) t
  | withE {e : StdErr} {ss : List GoString} {inner : GoErr} {u t : GoString} (hi : ErrSays quote inner u)
    (h : Formats quote e.text (ss.map .str ++ [.str u]) t) : ErrSays quote (.withE e ss inner) t

/-- The letters after the percent signs of a format. -/
def verbs : GoString → GoString
  | [] => []
  | [_] => []
  | b :: v :: f => if b = 37 then v :: verbs f else verbs (v :: f)

/-- The arguments that are written as they are. -/
def rawArgs (f : GoString) (ss : List GoString) : List GoString :=
  ((verbs f).zip ss).filterMap fun p => if p.1 = 113 then none else some p.2

/-- The strings that an error writes as they are, those of the errors it wraps included. -/
def GoErr.raw : GoErr → List GoString
  | .std _ => []
  | .ext s => [s]
  | .withV e ss _ => rawArgs e.text ss
  | .withE e ss inner => rawArgs e.text ss ++ inner.raw

/-- The escapes for single characters. -/
def quoteSymbols : List (UInt8 × UInt8) :=
  [(7, 97), (8, 98), (9, 116), (10, 110), (11, 118), (12, 102), (13, 114), (34, 34), (92, 92)]

/-- `ds` writes `n` in hexadecimal, in lower case. -/
def HexText (ds : GoString) (n : Nat) : Prop :=
  ∃ xs : List Nat, (∀ x ∈ xs, x < 16) ∧ ds = xs.map (fun x => (gs! "0123456789abcdef").getD x 0) ∧ xs.foldl (fun a x => 16 * a + x) 0 = n

/-- Printable: of the first 256 characters those from the space to `~` and those from U+00A1 on but the soft hyphen. -/
def QuoteTables.Printable (q : QuoteTables) (r : Nat) : Prop :=
  (0x20 ≤ r ∧ r ≤ 0x7E) ∨ (0xA1 ≤ r ∧ r ≤ 0xFF ∧ r ≠ 0xAD) ∨ (0x100 ≤ r ∧ q.wide r = true)

/-- What stands between the quotes for a string. -/
inductive Quotes (q : QuoteTables) : GoString → GoString → Prop
  | nil : Quotes q [] []
  | plain {r : Nat} {t o : GoString} (hr : IsScalar r) (hp : q.Printable r) (h1 : r ≠ 34) (h2 : r ≠ 92) (h : Quotes q t o) :
    Quotes q (encodeRune r ++ t) (encodeRune r ++ o)
  | symbol {b c : UInt8} {t o : GoString} (hc : (b, c) ∈ quoteSymbols) (h : Quotes q t o) : Quotes q (b :: t) (92 :: c :: o)
  | control {b : UInt8} {ds t o : GoString} (hb : b.toNat < 32 ∨ (b = 127 ∧ q.shortDel = true)) (hs : ∀ c, (b, c) ∉ quoteSymbols)
    (hl : ds.length = 2) (hd : HexText ds b.toNat) (h : Quotes q t o) : Quotes q (b :: t) (92 :: 120 :: (ds ++ o))
  | noCharacter {b : UInt8} {ds t o : GoString} (hb : ∀ r u, IsScalar r → b :: t ≠ encodeRune r ++ u)
    (hl : ds.length = 2) (hd : HexText ds b.toNat) (h : Quotes q t o) : Quotes q (b :: t) (92 :: 120 :: (ds ++ o))
  | short {r : Nat} {ds t o : GoString} (hr : IsScalar r) (hp : ¬ q.Printable r) (h1 : 127 ≤ r) (h2 : r = 127 → q.shortDel = false)
    (h3 : r < 0x10000) (hl : ds.length = 4) (hd : HexText ds r) (h : Quotes q t o) :
    Quotes q (encodeRune r ++ t) (92 :: 117 :: (ds ++ o))
  | long {r : Nat} {ds t o : GoString} (hr : IsScalar r) (hp : ¬ q.Printable r) (h1 : 0x10000 ≤ r) (hl : ds.length = 8)
    (hd : HexText ds r) (h : Quotes q t o) : Quotes q (encodeRune r ++ t) (92 :: 85 :: (ds ++ o))

end GoIdentity
