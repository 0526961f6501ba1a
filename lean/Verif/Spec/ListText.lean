/-
Specification for C108: the texts that are flat Python lists of plain literals, and what they stand for.  The grammar is written down as such;
it does not mention the reader.
-/
import Verif.Spec.JsonText

namespace WG
variable [PyRuntime]

/-- White space between the tokens of a list. -/
def ListSpace (w : Str) : Prop := ∀ c ∈ w, c = ' ' ∨ c = '\t' ∨ c = '\n' ∨ c = '\u000c'

/-- A text between quotation marks that needs no escapes. -/
def PlainQuoted (q : Char) (s : Str) : Prop := ∀ c ∈ s, c ≠ q ∧ c ≠ '\\' ∧ c ≠ '\n' ∧ c ≠ '\r' ∧ c ≠ '\u0000'

/-- A plain literal of Python and its value.  A float stands for Python's float of that literal. -/
inductive LitText : V → Str → Prop
  | nothing : LitText .none c!"None"
  | yes : LitText (.bool true) c!"True"
  | no : LitText (.bool false) c!"False"
  | int {n : Nat} {d : Str} : DigitsText n d → NoLeadingZero d → LitText (.int n) d
  | float {n m : Nat} {d f : Str} {x} : DigitsText n d → DigitsText m f → PyRuntime.floatOfStr (d ++ '.' :: f) = some x →
      LitText (.flt x) (d ++ '.' :: f)
  | str {q : Char} {s : Str} : (q = '"' ∨ q = '\'') → PlainQuoted q s → LitText (.str s) (q :: (s ++ [q]))

/-- What follows the opening bracket: literals between white space, separated by commas, a comma behind the last one if one likes, and the
closing bracket. -/
inductive ListText : List V → Str → Prop
  | close {w : Str} : ListSpace w → ListText [] (w ++ c!"]")
  | last {w t w' : Str} {v : V} : ListSpace w → LitText v t → ListSpace w' → ListText [v] (w ++ (t ++ (w' ++ c!"]")))
  | more {w t w' u : Str} {v : V} {l : List V} : ListSpace w → LitText v t → ListSpace w' → ListText l u →
      ListText (v :: l) (w ++ (t ++ (w' ++ ',' :: u)))

end WG
