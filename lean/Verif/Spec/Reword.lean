/-
Texts in list literals whose words are changed.
-/
import Verif.Spec.Literal

namespace WG
variable [PyRuntime]

/-- `t` is `s` with every `true`, `false` and `null` in it, also inside other words, changed to `True`, `False` and `None`. -/
inductive Reworded : Str → Str → Prop where
  | nil : Reworded [] []
  | true {s t} : Reworded s t → Reworded (c!"true" ++ s) (c!"True" ++ t)
  | false {s t} : Reworded s t → Reworded (c!"false" ++ s) (c!"False" ++ t)
  | null {s t} : Reworded s t → Reworded (c!"null" ++ s) (c!"None" ++ t)
  | char {c s t} : ¬ c!"true" <+: c :: s → ¬ c!"false" <+: c :: s → ¬ c!"null" <+: c :: s → Reworded s t → Reworded (c :: s) (c :: t)

/-- The same for a literal: only texts change. -/
def Atom.Reworded : Atom → Atom → Prop
  | .str q s, b => ∃ t, b = .str q t ∧ WG.Reworded s t
  | a, b => b = a

/-- The same for the elements of a list. -/
def RewordedList : List (Str × Atom) → List (Str × Atom) → Prop
  | [], l' => l' = []
  | x :: l, l' => ∃ a l'', l' = (x.1, a) :: l'' ∧ x.2.Reworded a ∧ RewordedList l l''

/-- A literal that can stand in a list: no leading zeros; a text may have all characters of the list regex but its own quote, line breaks
and NULs. -/
def Atom.Plain : Atom → Prop
  | .int z _ => z = 0
  | .float d f => d ≠ [] ∧ d.all isDig = true ∧ f ≠ [] ∧ f.all isDig = true
  | .str q s => s.all isListChar = true ∧ ∀ c ∈ s, c ≠ quoteChar q ∧ c ≠ '\n' ∧ c ≠ '\r' ∧ c ≠ '\x00'
  | _ => True

/-- `{name: [a, b, ...]}` -/
def listProp (name : Str) (l : List (Str × Atom)) (sp : Str) : Str :=
  '{' :: (name ++ (c!": " ++ ((Lit.list l sp).render ++ ['}'])))

end WG
