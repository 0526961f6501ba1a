/-
What is left of a quoted text.
-/
import Verif.Spec.Literal

namespace WG
variable [PyRuntime]

/-- `t` is `s` without the characters with `P` at its ends. -/
def Strips (P : Char → Prop) (s t : Str) : Prop :=
  ∃ a b, s = a ++ (t ++ b) ∧ (∀ c ∈ a, P c) ∧ (∀ c ∈ b, P c) ∧ (∀ c, t.head? = some c → ¬ P c) ∧ ∀ c, t.getLast? = some c → ¬ P c

/-- `t` is `s` without double quotes, then without single quotes, then without white space at its ends. -/
def Trimmed (s t : Str) : Prop :=
  ∃ x y, Strips (· = '"') s x ∧ Strips (· = '\'') x y ∧ Strips (isSpace · = true) y t

/-- Words that are refused although they stand in quotes. -/
def refusedWords : List Str := [c!"Null", c!"None", c!"none", c!"true", c!"True", c!"false", c!"False"]

end WG
