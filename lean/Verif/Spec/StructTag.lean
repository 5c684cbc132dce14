import Verif.Model.StructTag
/-!
# The shape of a struct tag
-/
namespace GoIdentity.Tag

/-- The text between two double quotes: every quote in it follows a backslash, which hides one byte. -/
inductive RawText : GoString → Prop
  | nil : RawText []
  | plain {b : UInt8} {t : GoString} (h1 : b ≠ 34) (h2 : b ≠ 92) (h : RawText t) : RawText (b :: t)
  | escape {c : UInt8} {t : GoString} (h : RawText t) : RawText (92 :: c :: t)

/-- A key: printable characters other than quotes, colons and spaces. -/
def KeyText (k : GoString) : Prop := k ≠ [] ∧ ∀ b ∈ k, 32 < b.toNat ∧ b ≠ 58 ∧ b ≠ 34 ∧ b ≠ 127

/-- The tag starts with some pairs `key:"text"`, separated by any number of spaces; the first one with the key `k` stands for `v`. -/
inductive TagHas (k : GoString) : GoString → GoString → Prop
  | here {n : Nat} {raw v rest : GoString} (hk : KeyText k) (hr : RawText raw) (hv : unquote raw = some v) :
    TagHas k (List.replicate n 32 ++ k ++ 58 :: 34 :: (raw ++ 34 :: rest)) v
  | later {n : Nat} {name raw v rest : GoString} (hn : KeyText name) (hne : name ≠ k) (hr : RawText raw) (h : TagHas k rest v) :
    TagHas k (List.replicate n 32 ++ name ++ 58 :: 34 :: (raw ++ 34 :: rest)) v

/-- ASCII without quotes, backslashes and line ends. -/
def Plain (s : GoString) : Prop := ∀ b ∈ s, b.toNat < 128 ∧ b ≠ 34 ∧ b ≠ 92 ∧ b ≠ 10

/-- A tag in the usual form: pairs with one space between them. -/
def tagText (l : List (GoString × GoString)) : GoString := joinWith [32] (l.map fun p => p.1 ++ gs! ":\"" ++ p.2 ++ gs! "\"")

/-- What may follow a backslash, and the bytes it stands for. -/
inductive Escape : GoString → GoString → Prop
  | symbol {c v : UInt8} (h : (c, v) ∈ [(97, 7), (98, 8), (102, 12), (110, 10), (114, 13), (116, 9), (118, 11), (92, 92), ((34 : UInt8), (34 : UInt8))]) :
    Escape [c] [v]
  | byte {a b : UInt8} {x y : Nat} (ha : hexVal a = some x) (hb : hexVal b = some y) : Escape [120, a, b] [UInt8.ofNat (16 * x + y)]
  | octal {x y z : Nat} (hx : x < 4) (hy : y < 8) (hz : z < 8) :
    Escape [UInt8.ofNat (48 + x), UInt8.ofNat (48 + y), UInt8.ofNat (48 + z)] [UInt8.ofNat (64 * x + 8 * y + z)]
  | short {ds : GoString} {xs : List Nat} (hl : ds.length = 4) (hx : ds.mapM hexVal = some xs)
    (hs : ¬ (0xD800 ≤ xs.foldl (fun n x => 16 * n + x) 0 ∧ xs.foldl (fun n x => 16 * n + x) 0 ≤ 0xDFFF)) :
    Escape (117 :: ds) (encodeRune (xs.foldl (fun n x => 16 * n + x) 0))
  | long {ds : GoString} {xs : List Nat} (hl : ds.length = 8) (hx : ds.mapM hexVal = some xs)
    (hs : ¬ (0xD800 ≤ xs.foldl (fun n x => 16 * n + x) 0 ∧ xs.foldl (fun n x => 16 * n + x) 0 ≤ 0xDFFF))
    (hm : xs.foldl (fun n x => 16 * n + x) 0 ≤ 0x10FFFF) :
    Escape (85 :: ds) (encodeRune (xs.foldl (fun n x => 16 * n + x) 0))

/-- The text between two double quotes stands for these bytes: no quote or line end by itself; bytes that are no character stand for the
replacement character. -/
inductive Unquotes : GoString → GoString → Prop
  | nil : Unquotes [] []
  | ascii {b : UInt8} {t v : GoString} (h1 : b.toNat < 128) (h2 : b ≠ 34) (h3 : b ≠ 10) (h4 : b ≠ 92) (h : Unquotes t v) : Unquotes (b :: t) (b :: v)
  | other {b : UInt8} {t v : GoString} (h1 : 128 ≤ b.toNat) (h : Unquotes ((b :: t).drop (decodeRune (b :: t)).2) v) :
    Unquotes (b :: t) (encodeRune (decodeRune (b :: t)).1 ++ v)
  | escape {e x t v : GoString} (he : Escape e x) (h : Unquotes t v) : Unquotes (92 :: (e ++ t)) (x ++ v)

end GoIdentity.Tag
