/-
Specification for C104: when two patterns say the same, and when MAKE keeps the same of them.
-/
import Verif.Spec.Actual
import Verif.Spec.Total

namespace WG
variable [PyRuntime]

/-- The two property texts stand for the same properties. -/
def AlikeProps (p p' : Option Str) : Prop := ∃ o, PropsMean p o ∧ PropsMean p' o

/-- The same label and properties; handles and white space do not matter. -/
def AlikeNode (n n' : NodeText) : Prop := n.label = n'.label ∧ AlikeProps n.props n'.props

/-- The same name and properties. -/
def AlikeRel (r r' : RelText) : Prop := r.nameStr = r'.nameStr ∧ AlikeProps r.props r'.props

/-- The two patterns describe the same nodes and relationships. -/
def SameMade : ChainText → ChainText → Prop
  | .one n, .one n' => AlikeNode n n'
  | .two n r m, .two n' r' m' => AlikeNode n n' ∧ AlikeRel r r' ∧ r.toRight = r'.toRight ∧ AlikeNode m m'
  | .three n r m s k, .three n' r' m' s' k' => AlikeNode n n' ∧ AlikeRel r r' ∧ r.toRight = r'.toRight ∧ AlikeNode m m' ∧
      AlikeRel s s' ∧ s.toRight = s'.toRight ∧ AlikeNode k k'
  | _, _ => False

/-- The two patterns describe the same as far as MAKE keeps it: direction as MAKE sees it, nothing about a third node, and of the
relationship to it only whether it points there, and if so what it is. -/
def SameKept : ChainText → ChainText → Prop
  | .one n, .one n' => AlikeNode n n'
  | .two n r m, .two n' r' m' => AlikeNode n n' ∧ AlikeRel r r' ∧ r.seenRight = r'.seenRight ∧ AlikeNode m m'
  | .three n r m s _, .three n' r' m' s' _ => AlikeNode n n' ∧ AlikeRel r r' ∧ r.seenRight = r'.seenRight ∧ AlikeNode m m' ∧
      s.seenRight = s'.seenRight ∧ (s.seenRight = true → AlikeRel s s')
  | _, _ => False

/-- As many, and each like its counterpart. -/
def Each {α : Type} (R : α → α → Prop) : List α → List α → Prop
  | [], [] => True
  | a :: l, b :: l' => R a b ∧ Each R l l'
  | _, _ => False

/-- All patterns a GDBMS holds, those that ruined its index included. -/
def Held.all : Held → List ChainText
  | .whole cs => cs
  | .lost cs l => cs ++ l

end WG
