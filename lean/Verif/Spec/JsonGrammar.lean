import Verif.Model.Json
import Verif.Lemmas.Utf8
/-!
# The JSON grammar (RFC 8259)

Which texts denote which values, as inductive relations that follow the grammar of the RFC, without reference to a parser.
Two points go beyond the RFC and are taken from package `encoding/json`: a byte that is not part of a UTF-8 encoded character,
and an escaped surrogate that is not half of a pair, both stand for U+FFFD.
-/
namespace GoIdentity.JsonGrammar
open GoIdentity

/-- White space. -/
def Ws (w : GoString) : Prop := ∀ b ∈ w, b = 0x20 ∨ b = 0x09 ∨ b = 0x0A ∨ b = 0x0D

/-- A non-empty sequence of decimal digits. -/
def Digits (s : GoString) : Prop := s ≠ [] ∧ ∀ b ∈ s, 0x30 ≤ b ∧ b ≤ 0x39

/-- `int = zero / ( digit1-9 *DIGIT )` -/
def IntPart (s : GoString) : Prop := s = [0x30] ∨ Digits s ∧ s.head? ≠ some 0x30

/-- `[ frac ]`, `frac = decimal-point 1*DIGIT` -/
def Frac (s : GoString) : Prop := s = [] ∨ ∃ ds, Digits ds ∧ s = 0x2E :: ds

/-- `[ exp ]`, `exp = e [ minus / plus ] 1*DIGIT` -/
def Exp (s : GoString) : Prop :=
  s = [] ∨ ∃ e sign ds, (e = 0x65 ∨ e = 0x45) ∧ (sign = [] ∨ sign = [0x2B] ∨ sign = [0x2D]) ∧ Digits ds ∧ s = e :: (sign ++ ds)

/-- `number = [ minus ] int [ frac ] [ exp ]` -/
def Number (s : GoString) : Prop :=
  ∃ sign i f e, (sign = [] ∨ sign = [0x2D]) ∧ IntPart i ∧ Frac f ∧ Exp e ∧ s = sign ++ i ++ f ++ e

/-- A hexadecimal digit and its value. -/
def HexDigit (n : Nat) (b : UInt8) : Prop :=
  n < 16 ∧ (gs! "0123456789abcdef"[n]? = some b ∨ gs! "0123456789ABCDEF"[n]? = some b)

/-- `4HEXDIG` and its value. -/
def Hex4 (n : Nat) (s : GoString) : Prop :=
  ∃ w x y z a b c d, HexDigit w a ∧ HexDigit x b ∧ HexDigit y c ∧ HexDigit z d ∧
    n = ((w * 16 + x) * 16 + y) * 16 + z ∧ s = [a, b, c, d]

/-- The two-character escapes and what they stand for. -/
def shortEscapes : List (UInt8 × UInt8) :=
  [(0x22, 0x22), (0x5C, 0x5C), (0x2F, 0x2F), (0x62, 0x08), (0x66, 0x0C), (0x6E, 0x0A), (0x72, 0x0D), (0x74, 0x09)]

/-- A code point of the first half of a surrogate pair. -/
def High (n : Nat) : Prop := 0xD800 ≤ n ∧ n ≤ 0xDBFF
/-- A code point of the second half of a surrogate pair. -/
def Low (n : Nat) : Prop := 0xDC00 ≤ n ∧ n ≤ 0xDFFF

/-- `Str v t`: after an opening quotation mark, `t` (up to and including the closing one) denotes the string `v`. -/
inductive Str : GoString → GoString → Prop
  | close : Str [] [0x22]
  | char {r : Nat} {v t : GoString} (hr : IsScalar r) (h1 : 0x20 ≤ r) (h2 : r ≠ 0x22) (h3 : r ≠ 0x5C) (h : Str v t) :
      Str (encodeRune r ++ v) (encodeRune r ++ t)
  | bad {b : UInt8} {v t : GoString} (hb : 0x80 ≤ b.toNat) (hn : ∀ r u, IsScalar r → b :: t ≠ encodeRune r ++ u) (h : Str v t) :
      Str (encodeRune 0xFFFD ++ v) (b :: t)
  | short {c d : UInt8} {v t : GoString} (hc : (c, d) ∈ shortEscapes) (h : Str v t) : Str (d :: v) (0x5C :: c :: t)
  | unicode {n : Nat} {x v t : GoString} (hx : Hex4 n x) (hn : ¬ High n) (hl : ¬ Low n) (h : Str v t) :
      Str (encodeRune n ++ v) (0x5C :: 0x75 :: (x ++ t))
  | pair {n m : Nat} {x y v t : GoString} (hx : Hex4 n x) (hn : High n) (hy : Hex4 m y) (hm : Low m) (h : Str v t) :
      Str (encodeRune (0x10000 + (n - 0xD800) * 0x400 + (m - 0xDC00)) ++ v) (0x5C :: 0x75 :: (x ++ 0x5C :: 0x75 :: (y ++ t)))
  | lone {n : Nat} {x v t : GoString} (hx : Hex4 n x) (hs : High n ∨ Low n)
      (hn : High n → ∀ m y u, Hex4 m y → Low m → t ≠ 0x5C :: 0x75 :: (y ++ u)) (h : Str v t) :
      Str (encodeRune 0xFFFD ++ v) (0x5C :: 0x75 :: (x ++ t))

mutual
/-- `Value j t`: the text `t`, without surrounding white space, denotes the value `j`. -/
inductive Value : Json → GoString → Prop
  | null : Value .null (gs! "null")
  | true : Value (.bool true) (gs! "true")
  | false : Value (.bool false) (gs! "false")
  | num {l : GoString} (h : Number l) : Value (.num l) l
  | str {v t : GoString} (h : Str v t) : Value (.str v) (0x22 :: t)
  | emptyArr {w : GoString} (hw : Ws w) : Value (.arr []) (0x5B :: (w ++ [0x5D]))
  | arr {xs : List Json} {t : GoString} (h : Elems xs t) : Value (.arr xs) (0x5B :: t)
  | emptyObj {w : GoString} (hw : Ws w) : Value (.obj []) (0x7B :: (w ++ [0x7D]))
  | obj {m : List (GoString × Json)} {t : GoString} (h : Members m t) : Value (.obj m) (0x7B :: t)
/-- The elements of an array, up to and including the closing bracket. -/
inductive Elems : List Json → GoString → Prop
  | one {x : Json} {w t w' : GoString} (hw : Ws w) (h : Value x t) (hw' : Ws w') : Elems [x] (w ++ t ++ w' ++ [0x5D])
  | cons {x : Json} {xs : List Json} {w t w' u : GoString} (hw : Ws w) (h : Value x t) (hw' : Ws w') (hs : Elems xs u) :
      Elems (x :: xs) (w ++ t ++ w' ++ 0x2C :: u)
/-- The members of an object, up to and including the closing brace. -/
inductive Members : List (GoString × Json) → GoString → Prop
  | one {k : GoString} {x : Json} {w q w1 w2 t w' : GoString} (hw : Ws w) (hk : Str k q) (hw1 : Ws w1) (hw2 : Ws w2)
      (h : Value x t) (hw' : Ws w') :
      Members [(k, x)] (w ++ 0x22 :: (q ++ w1 ++ 0x3A :: (w2 ++ t ++ w' ++ [0x7D])))
  | cons {k : GoString} {x : Json} {m : List (GoString × Json)} {w q w1 w2 t w' u : GoString} (hw : Ws w) (hk : Str k q)
      (hw1 : Ws w1) (hw2 : Ws w2) (h : Value x t) (hw' : Ws w') (hs : Members m u) :
      Members ((k, x) :: m) (w ++ 0x22 :: (q ++ w1 ++ 0x3A :: (w2 ++ t ++ w' ++ 0x2C :: u)))
end

/-- `JSON-text = ws value ws` -/
def Doc (j : Json) (s : GoString) : Prop := ∃ w t w', Ws w ∧ Value j t ∧ Ws w' ∧ s = w ++ t ++ w'

/-- `Nests n j`: no more than `n` arrays and objects lie around any point of `j`. -/
inductive Nests : Nat → Json → Prop
  | null {n : Nat} : Nests n .null
  | bool {n : Nat} {b : Bool} : Nests n (.bool b)
  | num {n : Nat} {l : GoString} : Nests n (.num l)
  | str {n : Nat} {v : GoString} : Nests n (.str v)
  | arr {n : Nat} {xs : List Json} (h : ∀ x ∈ xs, Nests n x) : Nests (n + 1) (.arr xs)
  | obj {n : Nat} {m : List (GoString × Json)} (h : ∀ kv ∈ m, Nests n kv.2) : Nests (n + 1) (.obj m)

end GoIdentity.JsonGrammar
