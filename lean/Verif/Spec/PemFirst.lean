import Verif.Spec.PemKeys
import Verif.Lemmas.Split
/-!
# Which block of a text is read

Written without the functions of the model (but for base64).
-/
namespace GoIdentity

/-- The code points of Unicode that are white space: the property `White_Space`, as `unicode.IsSpace` has it. -/
def WhiteSpace (r : Nat) : Prop :=
  (9 ≤ r ∧ r ≤ 13) ∨ r = 0x20 ∨ r = 0x85 ∨ r = 0xA0 ∨ r = 0x1680 ∨ (0x2000 ≤ r ∧ r ≤ 0x200A) ∨ r = 0x2028 ∨ r = 0x2029 ∨ r = 0x202F ∨
    r = 0x205F ∨ r = 0x3000

/-- The text without white space (of Unicode) at its ends. -/
def Trimmed (s t : GoString) : Prop :=
  ∃ a b, s = a ++ t ++ b ∧ Blank a ∧ Blank b ∧ ∀ w ∈ spaceRunes, ¬ w <+: t ∧ ¬ w <:+ t

/-- Nothing, or whole lines. -/
def WholeLines (pre : GoString) : Prop := pre = [] ∨ pre.getLast? = some 10

/-- A block with the same label at both ends that begins at byte `n` of the text, which is the beginning of a line. -/
def BlockAt (text : GoString) (n : Nat) (label der : GoString) : Prop :=
  10 ∉ label ∧ ∃ pre e hdr body brk post,
    text = pre ++ gs! "-----BEGIN " ++ label ++ gs! "-----" ++ e ++ hdr ++ body ++ brk ++ gs! "-----END " ++ label ++ gs! "-----" ++ post ∧
    pre.length = n ∧ WholeLines pre ∧ LineEnd e ∧ HeaderLines hdr ∧ (brk = [10] ∨ brk = [] ∧ hdr = [] ∧ body = []) ∧
    RestBlank post ∧ b64Decode (body.filter fun b => !(b == 32 || b == 9)) = some der

/-- The first block of the text. -/
def FirstBlock (text label der : GoString) : Prop :=
  ∃ n, BlockAt text n label der ∧ ∀ m < n, ∀ l d, ¬ BlockAt text m l d

end GoIdentity
