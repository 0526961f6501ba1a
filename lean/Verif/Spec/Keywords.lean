/-
What it means that a text has a word, for the check of the keywords of a query.
-/
import Verif.Model.Query

namespace WG

/-- The text has the word `w` between blanks (or at its ends). -/
def HasWord (w s : Str) : Prop :=
  ∃ a b, s = a ++ (w ++ b) ∧ (a = [] ∨ ∃ a', a = a' ++ [' ']) ∧ (b = [] ∨ ∃ b', b = ' ' :: b')

/-- The keywords of the query language. -/
def clauseWords : List Str :=
  [c!"make", c!"find", c!"adjust", c!"criteria", c!"report", c!"using"]

end WG
