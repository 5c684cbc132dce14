import Verif.Model.Json
/-!
# Struct encoding and decoding (package `encoding/json`, struct tags of /repo)

Decoding a struct visits the object's members in order and decodes each into the current value of the field, as Go does.
Simplifications: the decoder stops at the first type mismatch (Go records it, goes on, and returns it as an error, and every
caller in /repo then discards the value); a `null` element of an array of pointers is reported as `panic` (Go stores a nil
pointer, which NewDatabase dereferences for users, email addresses, passwords and API keys; documents with null elements in
the other arrays are outside the model); a repeated array member replaces the previous array (Go decodes into its
elements); a time written with escape sequences is read as if without them (Go rejects it).
-/
namespace GoIdentity

/-- How one struct field is written and read. -/
structure Field (σ : Type) where
  name : GoString
  enc : σ → Option Json
  dec : Json → σ → Res σ

/-- The error of a type mismatch. -/
def typeErr {α : Type} : Res α := .err (.ext (gs! "json"))

/-- Key comparison ignoring case, including the two non-ASCII letters that fold to `s` and `k`. -/
def foldKey : GoString → GoString
  | [] => []
  | 0xC5 :: 0xBF :: t => 115 :: foldKey t
  | 0xE2 :: 0x84 :: 0xAA :: t => 107 :: foldKey t
  | b :: t => lowerByte b :: foldKey t

/-- The field a member name selects: exact match first, then case-insensitive. -/
def findField {σ : Type} (fs : List (Field σ)) (k : GoString) : Option (Field σ) :=
  match fs.find? (fun f => f.name == k) with
  | some f => some f
  | none => fs.find? (fun f => foldKey f.name == foldKey k)

def encMembers {σ : Type} (fs : List (Field σ)) (x : σ) : List (GoString × Json) :=
  fs.filterMap fun f => (f.enc x).map fun j => (f.name, j)

def encStruct {σ : Type} (fs : List (Field σ)) (x : σ) : Json := .obj (encMembers fs x)

def decMembers {σ : Type} (fs : List (Field σ)) : List (GoString × Json) → σ → Res σ
  | [], s => .ok s
  | (k, v) :: m, s =>
    match findField fs k with
    | none => decMembers fs m s
    | some f =>
      match f.dec v s with
      | .ok s' => decMembers fs m s'
      | .err e => .err e
      | .panic => .panic

/-- Decodes into a struct value: `null` leaves it alone. -/
def decStruct {σ : Type} (fs : List (Field σ)) (j : Json) (s : σ) : Res σ :=
  match j with
  | .null => .ok s
  | .obj m => decMembers fs m s
  | _ => typeErr

/-- Decodes the elements of an array of struct pointers. -/
def decElems {σ : Type} (fs : List (Field σ)) (zero : σ) : List Json → Res (List σ)
  | [] => .ok []
  | .null :: _ => .panic
  | j :: js =>
    match decStruct fs j zero with
    | .ok x =>
      match decElems fs zero js with
      | .ok xs => .ok (x :: xs)
      | .err e => .err e
      | .panic => .panic
    | .err e => .err e
    | .panic => .panic

/-- Decodes the elements of a string array (`null` gives the empty string). -/
def decStrs : List Json → Res (List GoString)
  | [] => .ok []
  | .str s :: js => (match decStrs js with | .ok r => .ok (s :: r) | .err e => .err e | .panic => .panic)
  | .null :: js => (match decStrs js with | .ok r => .ok ([] :: r) | .err e => .err e | .panic => .panic)
  | _ :: _ => typeErr

/-- Lexicographic byte order of Go strings. -/
def bytesLt : GoString → GoString → Bool
  | [], [] => false
  | [], _ :: _ => true
  | _ :: _, [] => false
  | a :: s, b :: t => decide (a.toNat < b.toNat) || (a == b && bytesLt s t)

/-- `m[k] = v` on the ordered association list of a map. -/
def mapInsert {α : Type} (k : GoString) (v : α) : List (GoString × α) → List (GoString × α)
  | [] => [(k, v)]
  | (k', v') :: m =>
    if k = k' then (k, v) :: m
    else if bytesLt k k' then (k, v) :: (k', v') :: m
    else (k', v') :: mapInsert k v m

/-- `m[k]`. -/
def mapGet {α : Type} (k : GoString) : List (GoString × α) → Option α
  | [] => none
  | (k', v) :: m => if k = k' then some v else mapGet k m

/-- Decodes the members of an object into a map; `elem` decodes one value (from the element type's zero value). -/
def decMap {α : Type} (elem : Json → Res α) : List (GoString × Json) → List (GoString × α) → Res (List (GoString × α))
  | [], acc => .ok acc
  | (k, v) :: m, acc =>
    match elem v with
    | .ok a => decMap elem m (mapInsert k a acc)
    | .err e => .err e
    | .panic => .panic

def elemStr : Json → Res GoString
  | .str s => .ok s
  | .null => .ok []
  | _ => typeErr

def elemBool : Json → Res Bool
  | .bool b => .ok b
  | .null => .ok false
  | _ => typeErr

/-- `strconv.ParseUint(lit, 10, 64)` on a JSON number literal, with an upper bound. -/
def parseUintLit (bound : Nat) (lit : GoString) : Option Nat :=
  if lit ≠ [] ∧ lit.all isDigit ∧ decVal lit < bound then some (decVal lit) else none

/-- `strconv.ParseInt(lit, 10, 64)` on a JSON number literal. -/
def parseIntLit (lit : GoString) : Option Int :=
  match lit with
  | [] => none
  | b :: t =>
    if b = 45 then
      if t ≠ [] ∧ t.all isDigit ∧ decVal t ≤ 2 ^ 63 then some (-(decVal t : Int)) else none
    else if (b :: t).all isDigit ∧ decVal (b :: t) < 2 ^ 63 then some (decVal (b :: t)) else none

/-! ## time.Time -/

def isLeap (y : Nat) : Bool := y % 4 == 0 && (y % 100 != 0 || y % 400 == 0)

def daysIn (m y : Nat) : Nat :=
  if m = 2 then (if isLeap y then 29 else 28)
  else if m = 4 ∨ m = 6 ∨ m = 9 ∨ m = 11 then 30
  else 31

/-- Removes trailing zeros. -/
def dropTrailingZeros (s : GoString) : GoString := (s.reverse.dropWhile (· == 48)).reverse

/-- `Time.MarshalJSON` without the quotes: `2006-01-02T15:04:05.999999999Z07:00`.  A year above 9999, for which it returns an
error, is excluded by assumption on the clock. -/
def fmtTime (t : GoTime) : GoString :=
  padDec 4 t.year ++ [45] ++ padDec 2 t.month ++ [45] ++ padDec 2 t.day ++ [84] ++
    padDec 2 t.hour ++ [58] ++ padDec 2 t.min ++ [58] ++ padDec 2 t.sec ++
    (if t.nano = 0 then [] else 46 :: dropTrailingZeros (padDec 9 t.nano)) ++
    (if t.off = 0 then [90]
     else (if t.off < 0 then 45 else 43) :: (padDec 2 (t.off.natAbs / 60) ++ [58] ++ padDec 2 (t.off.natAbs % 60)))

/-- Reads exactly `n` digits. -/
def takeNum (n : Nat) (s : GoString) : Option (Nat × GoString) :=
  if n ≤ s.length ∧ (s.take n).all isDigit then some (decVal (s.take n), s.drop n) else none

/-- Expects one byte. -/
def expectByte (b : UInt8) (s : GoString) : Option GoString :=
  match s with
  | [] => none
  | c :: t => if c = b then some t else none

/-- Optional fraction of a second, in nanoseconds; digits after the ninth are ignored. -/
def parseNano (s : GoString) : Option (Nat × GoString) :=
  match s with
  | [] => some (0, [])
  | b :: t =>
    if b = 46 then
      let ds := spanDigits t
      if ds.1 = [] then none
      else some (decVal ((ds.1 ++ List.replicate 9 48).take 9), ds.2)
    else some (0, b :: t)

/-- Zone at the end of the text: `Z` or a signed offset. -/
def parseZone (s : GoString) : Option Int :=
  match s with
  | [] => none
  | b :: t =>
    if b = 90 then (if t = [] then some 0 else none)
    else if b = 43 ∨ b = 45 then do
      let (h, t) ← takeNum 2 t
      let t ← expectByte 58 t
      let (m, t) ← takeNum 2 t
      if t = [] ∧ h < 24 ∧ m < 60 then
        some (if b = 45 then -((h * 60 + m : Nat) : Int) else ((h * 60 + m : Nat) : Int))
      else none
    else none

/-- `Time.UnmarshalJSON` / `time.Parse(time.RFC3339, s)` for the strict layout (Go also accepts some lenient forms, such as
a one-digit hour, which nothing in /repo writes). -/
def parseTime (s : GoString) : Option GoTime := do
  let (y, s) ← takeNum 4 s
  let s ← expectByte 45 s
  let (mo, s) ← takeNum 2 s
  let s ← expectByte 45 s
  let (d, s) ← takeNum 2 s
  let s ← expectByte 84 s
  let (h, s) ← takeNum 2 s
  let s ← expectByte 58 s
  let (mi, s) ← takeNum 2 s
  let s ← expectByte 58 s
  let (se, s) ← takeNum 2 s
  let (ns, s) ← parseNano s
  let off ← parseZone s
  if 1 ≤ mo ∧ mo ≤ 12 ∧ 1 ≤ d ∧ d ≤ daysIn mo y ∧ h < 24 ∧ mi < 60 ∧ se < 60 then
    some ⟨y, mo, d, h, mi, se, ns, off⟩
  else none

/-! ## Field kinds -/

/-- `string` with omitempty -/
def fStr {σ : Type} (name : GoString) (get : σ → GoString) (set : σ → GoString → σ) : Field σ where
  name := name
  enc x := if get x = [] then none else some (.str (get x))
  dec j s := match j with | .str v => .ok (set s v) | .null => .ok s | _ => typeErr

/-- `bool` with omitempty -/
def fBool {σ : Type} (name : GoString) (get : σ → Bool) (set : σ → Bool → σ) : Field σ where
  name := name
  enc x := if get x = false then none else some (.bool (get x))
  dec j s := match j with | .bool v => .ok (set s v) | .null => .ok s | _ => typeErr

/-- `bool` without omitempty -/
def fBoolAlways {σ : Type} (name : GoString) (get : σ → Bool) (set : σ → Bool → σ) : Field σ where
  name := name
  enc x := some (.bool (get x))
  dec j s := match j with | .bool v => .ok (set s v) | .null => .ok s | _ => typeErr

def decInt {σ : Type} (set : σ → Int → σ) (j : Json) (s : σ) : Res σ :=
  match j with
  | .num l => (match parseIntLit l with | some v => .ok (set s v) | none => typeErr)
  | .null => .ok s
  | _ => typeErr

def decUint {σ : Type} (bound : Nat) (set : σ → Nat → σ) (j : Json) (s : σ) : Res σ :=
  match j with
  | .num l => (match parseUintLit bound l with | some v => .ok (set s v) | none => typeErr)
  | .null => .ok s
  | _ => typeErr

/-- `int` with omitempty -/
def fInt {σ : Type} (name : GoString) (get : σ → Int) (set : σ → Int → σ) : Field σ where
  name := name
  enc x := if get x = 0 then none else some (.num (intDec (get x)))
  dec := decInt set

/-- `int` without omitempty -/
def fIntAlways {σ : Type} (name : GoString) (get : σ → Int) (set : σ → Int → σ) : Field σ where
  name := name
  enc x := some (.num (intDec (get x)))
  dec := decInt set

/-- `uint64` / `uint32` with omitempty -/
def fUint {σ : Type} (bound : Nat) (name : GoString) (get : σ → Nat) (set : σ → Nat → σ) : Field σ where
  name := name
  enc x := if get x = 0 then none else some (.num (natDec (get x)))
  dec := decUint bound set

/-- `time.Time`: omitempty has no effect on a struct -/
def fTime {σ : Type} (name : GoString) (get : σ → GoTime) (set : σ → GoTime → σ) : Field σ where
  name := name
  enc x := some (.str (fmtTime (get x)))
  dec j s :=
    match j with
    | .str v => (match parseTime v with | some t => .ok (set s t) | none => typeErr)
    | .null => .ok s
    | _ => typeErr

/-- embedded struct value (omitempty has no effect) -/
def fStruct {σ τ : Type} (name : GoString) (fs : List (Field τ)) (get : σ → τ) (set : σ → τ → σ) : Field σ where
  name := name
  enc x := some (encStruct fs (get x))
  dec j s :=
    match decStruct fs j (get s) with
    | .ok v => .ok (set s v)
    | .err e => .err e
    | .panic => .panic

/-- pointer to struct with omitempty -/
def fPtr {σ τ : Type} (name : GoString) (fs : List (Field τ)) (zero : τ) (get : σ → Option τ)
    (set : σ → Option τ → σ) : Field σ where
  name := name
  enc x := (get x).map (encStruct fs)
  dec j s :=
    match j with
    | .null => .ok (set s none)
    | j =>
      match decStruct fs j ((get s).getD zero) with
      | .ok v => .ok (set s (some v))
      | .err e => .err e
      | .panic => .panic

/-- slice of struct pointers with omitempty -/
def fList {σ τ : Type} (name : GoString) (fs : List (Field τ)) (zero : τ) (get : σ → List τ)
    (set : σ → List τ → σ) : Field σ where
  name := name
  enc x := if (get x).isEmpty then none else some (.arr ((get x).map (encStruct fs)))
  dec j s :=
    match j with
    | .null => .ok (set s [])
    | .arr js =>
      (match decElems fs zero js with
       | .ok v => .ok (set s v)
       | .err e => .err e
       | .panic => .panic)
    | _ => typeErr

/-- slice of strings with omitempty -/
def fStrs {σ : Type} (name : GoString) (get : σ → List GoString) (set : σ → List GoString → σ) : Field σ where
  name := name
  enc x := if (get x).isEmpty then none else some (.arr ((get x).map .str))
  dec j s :=
    match j with
    | .null => .ok (set s [])
    | .arr js =>
      (match decStrs js with
       | .ok v => .ok (set s v)
       | .err e => .err e
       | .panic => .panic)
    | _ => typeErr

/-- map with string keys and omitempty -/
def fMap {σ α : Type} (name : GoString) (encElem : α → Json) (elem : Json → Res α) (get : σ → List (GoString × α))
    (set : σ → List (GoString × α) → σ) : Field σ where
  name := name
  enc x := if (get x).isEmpty then none else some (.obj ((get x).map fun kv => (kv.1, encElem kv.2)))
  dec j s :=
    match j with
    | .null => .ok (set s [])
    | .obj m =>
      (match decMap elem m (get s) with
       | .ok v => .ok (set s v)
       | .err e => .err e
       | .panic => .panic)
    | _ => typeErr

end GoIdentity
