/-
What the names with `*`, `?` and `[` mean when a GDBMS is deleted.
-/
import Verif.Py.Basic

namespace WG

/-- Characters that stand for themselves between `[` and `]`. -/
def InSet (c : Char) : Prop := c ∉ ['-', '\\', '[', ']', '^', '!', '&', '~', '|']

/-- Patterns whose `[` either open a non-empty set of such characters (perhaps after `!`), or are not followed by a `]`. -/
inductive Readable : Str → Prop where
  | nil : Readable []
  | char (c : Char) (p : Str) (hc : c ≠ '[') (h : Readable p) : Readable (c :: p)
  | alone (p : Str) (hp : ']' ∉ p) (h : Readable p) : Readable ('[' :: p)
  | set (cs p : Str) (hne : cs ≠ []) (hcs : ∀ c ∈ cs, InSet c) (h : Readable p) : Readable ('[' :: (cs ++ ']' :: p))
  | nset (cs p : Str) (hne : cs ≠ []) (hcs : ∀ c ∈ cs, InSet c) (h : Readable p) : Readable ('[' :: '!' :: (cs ++ ']' :: p))

/-- The pattern (first) matches the name. -/
inductive Wild : Str → Str → Prop where
  | nil : Wild [] []
  | char (c : Char) (p s : Str) (hc : c ∉ ['*', '?', '[']) (h : Wild p s) : Wild (c :: p) (c :: s)
  | any (c : Char) (p s : Str) (h : Wild p s) : Wild ('?' :: p) (c :: s)
  | star (p t s : Str) (h : Wild p s) : Wild ('*' :: p) (t ++ s)
  | alone (p s : Str) (hp : ']' ∉ p) (h : Wild p s) : Wild ('[' :: p) ('[' :: s)
  | set (cs : Str) (c : Char) (p s : Str) (hcs : ∀ c ∈ cs, InSet c) (hc : c ∈ cs) (h : Wild p s) :
      Wild ('[' :: (cs ++ ']' :: p)) (c :: s)
  | nset (cs : Str) (c : Char) (p s : Str) (hne : cs ≠ []) (hcs : ∀ c ∈ cs, InSet c) (hc : c ∉ cs) (h : Wild p s) :
      Wild ('[' :: '!' :: (cs ++ ']' :: p)) (c :: s)

/-- The directories whose files a deletion of `name` looks at: the directory itself, or, if the name has one of `*?[`,
all that match it, the hidden ones only if the name starts with a dot. -/
def LooksAt (name dir : Str) : Prop :=
  if ∃ c ∈ name, c ∈ ['*', '?', '['] then Wild name dir ∧ (dir.head? = some '.' → name.head? = some '.') else dir = name

end WG
