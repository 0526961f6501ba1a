/-
Paths, as the documentation of `pathlib` describes them (name patterns are in Spec/Wild).
-/
import Verif.Spec.Names

namespace WG

/-- What a component contributes to a path: nothing if it is empty or a dot. -/
inductive Kept : Str → List Str → Prop
  | empty : Kept [] []
  | dot : Kept c!"." []
  | part (x : Str) : x ≠ [] → x ≠ c!"." → Kept x [x]

/-- The components of a text: what is between its slashes. -/
inductive Components : Str → List Str → Prop
  | last {x : Str} {k : List Str} : '/' ∉ x → Kept x k → Components x k
  | more {x s : Str} {k l : List Str} : '/' ∉ x → Kept x k → Components s l → Components (x ++ '/' :: s) (k ++ l)

/-- Following the components from a place on: each step starts in a directory. -/
inductive Leads (t : Tree) : Place → List Str → Place → Prop
  | here (p : Place) : Leads t p [] p
  | down {p q : Place} {c : Str} {cs : List Str} : t.look p = some .dir → c ≠ c!".." → Leads t (p ++ [c]) cs q → Leads t p (c :: cs) q
  | up {p q : Place} {c : Str} {cs : List Str} : t.look (p ++ [c]) = some .dir → Leads t p cs q → Leads t (p ++ [c]) (c!".." :: cs) q
  | top {q : Place} {cs : List Str} : Leads t [] cs q → Leads t [] (c!".." :: cs) q

/-- The path stops on its way at something that is no directory. -/
def Stops (t : Tree) (p : List Str) (found : Option Entry) : Prop :=
  ∃ front c back q, p = front ++ c :: back ∧ Leads t [] front q ∧ t.look q = found ∧ found ≠ some .dir

/-- No component of the path has a NUL. -/
def NoNul (p : List Str) : Prop := ∀ c ∈ p, Char.ofNat 0 ∉ c

/-- A path that only goes down. -/
def Straight (p : List Str) : Prop := ∀ c ∈ p, c ≠ c!".."

/-- The second tree has an entry `e` at the place `q` and is the same everywhere else. -/
def PutAt (t u : Tree) (q : Place) (e : Entry) : Prop := u.look q = some e ∧ ∀ p, p ≠ q → u.look p = t.look p

/-- The second tree has directories all along the path and is the same everywhere else. -/
def PavedTo (t u : Tree) (p : Place) : Prop :=
  (∀ q, q <+: p → u.look q = some .dir) ∧ ∀ q, ¬ q <+: p → u.look q = t.look q

end WG
