/-
The five places of a pattern, written independently of `ParsedPattern.parts`.
-/
import Verif.Model.Parsed

namespace WG

/-- The places of a pattern: three for nodes, two for relationships. -/
inductive Slot where
  | left | leftMiddle | middle | middleRight | right
deriving DecidableEq, Repr

/-- What is written at a place. -/
def partAt (p : ParsedPattern) : Slot → PartText
  | .left => p.left
  | .leftMiddle => p.leftMiddle
  | .middle => p.middle
  | .middleRight => p.middleRight
  | .right => p.right

/-- Two different places of the pattern have the same non-empty handle. -/
def DuplicateHandle (p : ParsedPattern) : Prop :=
  ∃ (a b : Slot) (h : Str), a ≠ b ∧ (partAt p a).handle = some h ∧ (partAt p b).handle = some h ∧ h ≠ []

end WG
