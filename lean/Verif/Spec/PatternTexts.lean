/-
Words for C100: which clauses and names the pattern texts are made from, and the groups of a pattern.
-/
import Verif.Py.ReSyntax

namespace WG

/-- Words of ASCII letters. -/
def Letters (w : Str) : Prop := ∀ c ∈ w, c.isAlpha = true

/-- Identifiers of ASCII. -/
def Ident : Str → Prop
  | [] => False
  | c :: cs => isNameStart c = true ∧ ∀ d ∈ cs, (isNameStart d || d.isDigit) = true

/-- All groups with their names, in the order of the text. -/
def Pat.groups : Pat → List (Nat × Str)
  | .group n name p => (n, name) :: p.groups
  | .seq a b => a.groups ++ b.groups
  | .alt a b => a.groups ++ b.groups
  | .rep _ p => p.groups
  | _ => []

end WG
