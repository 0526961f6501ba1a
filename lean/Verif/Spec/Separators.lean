/-
Vocabulary for C72: a property block as a sequence of lists in square brackets with other text around them.
-/
import Verif.Py.Basic

namespace WG

/-- What may stand in a property block outside its lists. -/
def BlockChar [PyRuntime] (c : Char) : Prop := isWord c = true ∨ isSpace c = true ∨ c ∈ c!":,'\".]@"

/-- What may stand inside a list. -/
def ListChar [PyRuntime] (c : Char) : Prop := isWord c = true ∨ isSpace c = true ∨ c ∈ c!",'\".@"

/-- The inside of a property block: `text[list]text[list]...text`. -/
structure Block where
  lists : List (Str × Str)
  last : Str

/-- The block as it is written. -/
def Block.inside (b : Block) : Str := b.lists.flatMap (fun x => x.1 ++ ('[' :: (x.2 ++ [']']))) ++ b.last

/-- The block in its braces. -/
def Block.render (b : Block) : Str := '{' :: (b.inside ++ ['}'])

/-- The block without its lists. -/
def Block.outside (b : Block) : Str := b.lists.flatMap Prod.fst ++ b.last

structure Block.OK [PyRuntime] (b : Block) : Prop where
  text : ∀ x ∈ b.lists, ∀ c ∈ x.1, BlockChar c
  list : ∀ x ∈ b.lists, ∀ c ∈ x.2, ListChar c
  full : ∀ x ∈ b.lists, x.2 ≠ []
  last : ∀ c ∈ b.last, BlockChar c
  some : b.inside ≠ []

/-- One colon for every property, one comma between two properties: the number of colons outside lists is one more
than the number of commas. -/
def Block.Balanced (b : Block) : Prop := b.outside.count ':' = b.outside.count ',' + 1

instance (b : Block) : Decidable b.Balanced := inferInstanceAs (Decidable (_ = _))

/-- The block stands in the text. -/
def Block.In (b : Block) (s : Str) : Prop := ∃ u v, s = u ++ (b.render ++ v)

end WG
