import Verif.Lemmas.Utf8
/-!
# Regular expressions

The fragment of regular-expression syntax that occurs in the repository, with its text and its language over code points
(the usual denotational reading).  Nothing here is specific to the repository's patterns.
-/
namespace GoIdentity

/-- A member of a bracketed class: a range or a single character (ASCII only). -/
inductive ClsItem
  | range (lo hi : UInt8)
  | one (b : UInt8)
  deriving DecidableEq

/-- Regular expressions. -/
inductive Rx
  | cls (items : List ClsItem)
  | lit (b : UInt8)
  | esc (b : UInt8)
  | any
  | cat (a b : Rx)
  | group (r : Rx)
  | opt (r : Rx)
  | star (r : Rx)
  | plus (r : Rx)
  | rep (r : Rx) (lo hi : Int)

/-- The text of a class member. -/
def ClsItem.text : ClsItem → GoString
  | .range lo hi => [lo, 45, hi]
  | .one b => [b]

/-- The code points of a class member. -/
def ClsItem.has : ClsItem → Nat → Prop
  | .range lo hi, c => lo.toNat ≤ c ∧ c ≤ hi.toNat
  | .one b, c => c = b.toNat

instance (i : ClsItem) (c : Nat) : Decidable (i.has c) := by
  cases i <;> (simp only [ClsItem.has]; infer_instance)

namespace Rx

/-- The text of an expression. -/
def text : Rx → GoString
  | .cls items => gs! "[" ++ items.flatMap ClsItem.text ++ gs! "]"
  | .lit b => [b]
  | .esc b => [92, b]
  | .any => gs! "."
  | .cat a b => a.text ++ b.text
  | .group r => gs! "(?:" ++ r.text ++ gs! ")"
  | .opt r => r.text ++ gs! "?"
  | .star r => r.text ++ gs! "*"
  | .plus r => r.text ++ gs! "+"
  | .rep r lo hi => r.text ++ gs! "{" ++ intDec lo ++ gs! "," ++ intDec hi ++ gs! "}"

/-- A suffix operator applies to the preceding atom, so the operand must be one for the text to have this reading. -/
def isAtom : Rx → Bool
  | .cls _ | .lit _ | .esc _ | .any | .group _ => true
  | _ => false

/-- No single `-` stands between two other members where it would make a range of them. -/
def noFalseRange : List ClsItem → Bool
  | .one _ :: .one b :: c :: t => !(b == 45) && noFalseRange (.one b :: c :: t)
  | _ :: t => noFalseRange t
  | [] => true

/-- The text reads as this tree: suffix operators are applied to atoms only, literals are not operators, class members are
ordered ranges or characters that are not special in a class, and counts are not negative. -/
def wellFormed : Rx → Bool
  | .cls items =>
    items.head? != some (.one 94) && !items.isEmpty && noFalseRange items && items.all fun i =>
      match i with
      | .range lo hi => decide (lo ≤ hi) && isAlnum lo && isAlnum hi
      | .one b => !(gs! "[]\\").contains b
  | .lit b => !(gs! "\\.+*?()|[]{}^$").contains b
  | .esc b => (gs! "\\.+*?()|[]{}^$").contains b
  | .any => true
  | .cat a b => a.wellFormed && b.wellFormed
  | .group r => r.wellFormed
  | .opt r | .star r | .plus r => r.isAtom && r.wellFormed
  | .rep r lo hi => r.isAtom && r.wellFormed && decide (0 ≤ lo ∧ 0 ≤ hi)

/-- The language of an expression, over code points.  `.` does not match a newline. -/
def lang : Rx → List Nat → Prop
  | .cls items, s => ∃ c, s = [c] ∧ ∃ i ∈ items, i.has c
  | .lit b, s | .esc b, s => s = [b.toNat]
  | .any, s => ∃ c, s = [c] ∧ c ≠ 10
  | .cat a b, s => ∃ u v, s = u ++ v ∧ a.lang u ∧ b.lang v
  | .group r, s => r.lang s
  | .opt r, s => s = [] ∨ r.lang s
  | .star r, s => ∃ ls : List (List Nat), (∀ l ∈ ls, r.lang l) ∧ s = ls.flatten
  | .plus r, s => ∃ ls : List (List Nat), ls ≠ [] ∧ (∀ l ∈ ls, r.lang l) ∧ s = ls.flatten
  | .rep r lo hi, s => ∃ ls : List (List Nat), (lo ≤ ls.length ∧ (ls.length : Int) ≤ hi) ∧ (∀ l ∈ ls, r.lang l) ∧ s = ls.flatten

end Rx

/-- An anchored pattern with lookaheads at its start: `^(?=…)…$`. -/
structure Pattern where
  looks : List Rx := []
  body : Rx

namespace Pattern

def text (p : Pattern) : GoString :=
  gs! "^" ++ p.looks.flatMap (fun r => gs! "(?=" ++ r.text ++ gs! ")") ++ p.body.text ++ gs! "$"

/-- A string matches if the body matches all of its code points and each lookahead a prefix of them. -/
def Matches (p : Pattern) (s : GoString) : Prop :=
  p.body.lang (codePoints s) ∧ ∀ r ∈ p.looks, ∃ u v, codePoints s = u ++ v ∧ r.lang u

end Pattern

end GoIdentity
