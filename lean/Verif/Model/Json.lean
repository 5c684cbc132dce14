import Verif.Model.Types
/-!
# JSON text (package `encoding/json` as used by database.go:144,458, mfa_token.go:159,325,343, webauthn.go:112)

Go standard library code, modelled at byte level.  A parser call takes `fuel`, and `parseText`
supplies more than any parse can use.
-/
namespace GoIdentity

/-- A JSON value.  Numbers keep their literal text; strings hold the decoded bytes. -/
inductive Json
  | null
  | bool (b : Bool)
  | num (lit : GoString)
  | str (s : GoString)
  | arr (xs : List Json)
  | obj (kvs : List (GoString × Json))
  deriving Repr

/-! ## Printing: `json.MarshalIndent(v, "", "  ")` -/

/-- Lower-case hexadecimal digit. -/
def hexDigit (n : Nat) : UInt8 := if n < 10 then UInt8.ofNat (48 + n) else UInt8.ofNat (87 + n)

/-- `\u00XX`. -/
def escHex2 (n : Nat) : GoString := [92, 117, 48, 48, hexDigit (n / 16), hexDigit (n % 16)]

/-- `encodeState.string` with HTML escaping, for one rune and its width (Go 1.15-1.21: `\b` and `\f` are written as `\u00XX`). -/
def escRune (rw : Nat × Nat) : GoString :=
  let r := rw.1
  if r = runeError ∧ rw.2 = 1 then gs! "\\ufffd"
  else if r = 34 then [92, 34]
  else if r = 92 then [92, 92]
  else if r = 10 then [92, 110]
  else if r = 13 then [92, 114]
  else if r = 9 then [92, 116]
  else if r < 32 ∨ r = 60 ∨ r = 62 ∨ r = 38 then escHex2 r
  else if r = 0x2028 then gs! "\\u2028"
  else if r = 0x2029 then gs! "\\u2029"
  else encodeRune r

/-- A quoted JSON string. -/
def renderStr (s : GoString) : GoString := [34] ++ (runes s).flatMap escRune ++ [34]

/-- Newline and indentation at depth `d`. -/
def nl (d : Nat) : GoString := 10 :: List.replicate (2 * d) 32

mutual
/-- The indented text of a value whose opening line has depth `d`. -/
def render (d : Nat) : Json → GoString
  | .null => gs! "null"
  | .bool true => gs! "true"
  | .bool false => gs! "false"
  | .num lit => lit
  | .str s => renderStr s
  | .arr [] => gs! "[]"
  | .arr (x :: xs) => [91] ++ nl (d + 1) ++ render (d + 1) x ++ renderElems (d + 1) xs ++ nl d ++ [93]
  | .obj [] => gs! "{}"
  | .obj ((k, v) :: m) =>
    [123] ++ nl (d + 1) ++ renderStr k ++ [58, 32] ++ render (d + 1) v ++ renderMembers (d + 1) m ++ nl d ++ [125]
/-- The remaining elements of an array, each preceded by a comma. -/
def renderElems (d : Nat) : List Json → GoString
  | [] => []
  | x :: xs => [44] ++ nl d ++ render d x ++ renderElems d xs
/-- The remaining members of an object, each preceded by a comma. -/
def renderMembers (d : Nat) : List (GoString × Json) → GoString
  | [] => []
  | (k, v) :: m => [44] ++ nl d ++ renderStr k ++ [58, 32] ++ render d v ++ renderMembers d m
end

/-! ## Parsing -/

/-- JSON white space. -/
def isWs (b : UInt8) : Bool := b == 32 || b == 9 || b == 10 || b == 13

def skipWs (s : GoString) : GoString := s.dropWhile isWs

/-- Value of a hexadecimal digit of either case. -/
def hexVal (b : UInt8) : Option Nat :=
  let n := b.toNat
  if 48 ≤ n ∧ n ≤ 57 then some (n - 48)
  else if 97 ≤ n ∧ n ≤ 102 then some (n - 87)
  else if 65 ≤ n ∧ n ≤ 70 then some (n - 55)
  else none

/-- Four hexadecimal digits. -/
def hex4 : GoString → Option (Nat × GoString)
  | a :: b :: c :: d :: t =>
    match hexVal a, hexVal b, hexVal c, hexVal d with
    | some a, some b, some c, some d => some (a * 4096 + b * 256 + c * 16 + d, t)
    | _, _, _, _ => none
  | _ => none

/-- The low half of a surrogate pair, when the text continues with a matching `\uXXXX`. -/
def lowSurrogate (t : GoString) : Option (Nat × GoString) :=
  match t with
  | a :: b :: t' =>
    if a = 92 ∧ b = 117 then
      match hex4 t' with
      | some (r, t'') => if 0xDC00 ≤ r ∧ r ≤ 0xDFFF then some (r, t'') else none
      | none => none
    else none
  | _ => none

/-- What follows a backslash: the bytes it stands for and the remaining text. -/
def parseEsc : GoString → Option (GoString × GoString)
  | [] => none
  | c :: t =>
    if c = 34 ∨ c = 92 ∨ c = 47 then some ([c], t)
    else if c = 98 then some ([8], t)
    else if c = 102 then some ([12], t)
    else if c = 110 then some ([10], t)
    else if c = 114 then some ([13], t)
    else if c = 116 then some ([9], t)
    else if c = 117 then
      match hex4 t with
      | none => none
      | some (r, t') =>
        if 0xD800 ≤ r ∧ r ≤ 0xDFFF then
          match (if r ≤ 0xDBFF then lowSurrogate t' else none) with
          | some (r1, t'') => some (encodeRune (0x10000 + (r - 0xD800) * 1024 + (r1 - 0xDC00)), t'')
          | none => some (encodeRune runeError, t')
        else some (encodeRune r, t')
    else none

/-- The rest of a string literal after its opening quote: decoded bytes and remaining text. -/
def parseStr : Nat → GoString → Option (GoString × GoString)
  | 0, _ => none
  | _ + 1, [] => none
  | fuel + 1, b :: t =>
    if b = 34 then some ([], t)
    else if b = 92 then
      match parseEsc t with
      | none => none
      | some (bs, t') =>
        match parseStr fuel t' with
        | none => none
        | some (s, r) => some (bs ++ s, r)
    else if b.toNat < 32 then none
    else
      let rw := decodeRune (b :: t)
      match parseStr fuel ((b :: t).drop rw.2) with
      | none => none
      | some (s, r) => some (encodeRune rw.1 ++ s, r)

/-- Splits off the leading decimal digits. -/
def spanDigits (s : GoString) : GoString × GoString := (s.takeWhile isDigit, s.dropWhile isDigit)

/-- Integer part of a number: `0` or a digit string without leading zero. -/
def parseIntPart (s : GoString) : Option (GoString × GoString) :=
  match s with
  | [] => none
  | b :: t =>
    if b = 48 then some ([48], t)
    else if isDigit b then some (spanDigits (b :: t))
    else none

/-- Optional fraction. -/
def parseFrac (s : GoString) : Option (GoString × GoString) :=
  match s with
  | [] => some ([], [])
  | b :: t =>
    if b = 46 then
      let ds := spanDigits t
      if ds.1 = [] then none else some (46 :: ds.1, ds.2)
    else some ([], b :: t)

/-- Optional exponent. -/
def parseExp (s : GoString) : Option (GoString × GoString) :=
  match s with
  | [] => some ([], [])
  | b :: t =>
    if b = 101 ∨ b = 69 then
      match t with
      | [] => none
      | c :: t' =>
        if c = 43 ∨ c = 45 then
          let ds := spanDigits t'
          if ds.1 = [] then none else some (b :: c :: ds.1, ds.2)
        else
          let ds := spanDigits (c :: t')
          if ds.1 = [] then none else some (b :: ds.1, ds.2)
    else some ([], b :: t)

/-- An unsigned number. -/
def parseUNum (s : GoString) : Option (GoString × GoString) :=
  match parseIntPart s with
  | none => none
  | some (i, r) =>
    match parseFrac r with
    | none => none
    | some (f, r) =>
      match parseExp r with
      | none => none
      | some (e, r) => some (i ++ f ++ e, r)

/-- A number. -/
def parseNum (s : GoString) : Option (GoString × GoString) :=
  match s with
  | [] => none
  | b :: t =>
    if b = 45 then
      match parseUNum t with
      | none => none
      | some (l, r) => some (45 :: l, r)
    else parseUNum (b :: t)

mutual
/-- One value: the value and the text after it. -/
def parseValue : Nat → GoString → Option (Json × GoString)
  | 0, _ => none
  | fuel + 1, s =>
    match skipWs s with
    | [] => none
    | b :: t =>
      if b = 123 then
        match skipWs t with
        | [] => none
        | c :: t' =>
          if c = 125 then some (.obj [], t')
          else
            match parseMembers fuel (c :: t') with
            | none => none
            | some (m, r) => some (.obj m, r)
      else if b = 91 then
        match skipWs t with
        | [] => none
        | c :: t' =>
          if c = 93 then some (.arr [], t')
          else
            match parseElems fuel (c :: t') with
            | none => none
            | some (xs, r) => some (.arr xs, r)
      else if b = 34 then
        match parseStr fuel t with
        | none => none
        | some (x, r) => some (.str x, r)
      else if b = 110 then
        match t with
        | 117 :: 108 :: 108 :: r => some (.null, r)
        | _ => none
      else if b = 116 then
        match t with
        | 114 :: 117 :: 101 :: r => some (.bool true, r)
        | _ => none
      else if b = 102 then
        match t with
        | 97 :: 108 :: 115 :: 101 :: r => some (.bool false, r)
        | _ => none
      else
        match parseNum (b :: t) with
        | none => none
        | some (l, r) => some (.num l, r)
/-- A non-empty element list up to and including the closing bracket. -/
def parseElems : Nat → GoString → Option (List Json × GoString)
  | 0, _ => none
  | fuel + 1, s =>
    match parseValue fuel s with
    | none => none
    | some (v, r) =>
      match skipWs r with
      | [] => none
      | c :: r' =>
        if c = 44 then
          match parseElems fuel r' with
          | none => none
          | some (vs, r'') => some (v :: vs, r'')
        else if c = 93 then some ([v], r')
        else none
/-- A non-empty member list up to and including the closing brace. -/
def parseMembers : Nat → GoString → Option (List (GoString × Json) × GoString)
  | 0, _ => none
  | fuel + 1, s =>
    match skipWs s with
    | [] => none
    | q :: t =>
      if q = 34 then
        match parseStr fuel t with
        | none => none
        | some (k, r) =>
          match skipWs r with
          | [] => none
          | c :: r =>
            if c = 58 then
              match parseValue fuel r with
              | none => none
              | some (v, r) =>
                match skipWs r with
                | [] => none
                | c :: r' =>
                  if c = 44 then
                    match parseMembers fuel r' with
                    | none => none
                    | some (m, r'') => some ((k, v) :: m, r'')
                  else if c = 125 then some ([(k, v)], r')
                  else none
            else none
      else none
end

/-- A whole text: one value, surrounded by white space only. -/
def parseText (s : GoString) : Option Json :=
  match parseValue (2 * s.length + 2) s with
  | none => none
  | some (j, r) => if skipWs r = [] then some j else none

mutual
/-- How many brackets and braces are open at once: the greatest length of the scanner's `parseState`. -/
def Json.depth : Json → Nat
  | .arr xs => Json.depthElems xs + 1
  | .obj m => Json.depthMembers m + 1
  | _ => 0
/-- The greatest depth of an element. -/
def Json.depthElems : List Json → Nat
  | [] => 0
  | x :: xs => max x.depth (Json.depthElems xs)
/-- The greatest depth of a member. -/
def Json.depthMembers : List (GoString × Json) → Nat
  | [] => 0
  | (_, v) :: m => max v.depth (Json.depthMembers m)
end

/-- A document `json.Unmarshal` accepts: a text nested at most 10000 deep (`maxNestingDepth`, since Go 1.15). -/
def parseDoc (s : GoString) : Option Json :=
  match parseText s with
  | none => none
  | some j => if j.depth ≤ 10000 then some j else none

end GoIdentity
