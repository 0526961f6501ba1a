/-
Specification for C110: sets made of loaded values, and looking into a loaded value.
-/
import Verif.Spec.PyText
import Verif.Py.Value

namespace WG

/-- `u` are the elements of `l` in the order in which they first come. -/
inductive Firsts {α : Type} : List α → List α → Prop
  | nil : Firsts [] []
  | seen {l u : List α} {x : α} : Firsts l u → x ∈ l → Firsts (l ++ [x]) u
  | new {l u : List α} {x : α} : Firsts l u → x ∉ l → Firsts (l ++ [x]) (u ++ [x])

variable [PyRuntime]

/-- A value that can be changed, and so cannot be in a set: a list or a dict. -/
def Changeable (v : V) : Prop := (∃ l, v = .list l) ∨ ∃ d, v = .dict d

/-- What Python goes through when it iterates over a value. -/
inductive Iterates : V → List V → Prop
  | list {l : List V} : Iterates (.list l) l
  | dict {d : Dict V} : Iterates (.dict d) (d.map fun x => .str x.1)
  | str {s : Str} : Iterates (.str s) (s.map fun c => .str [c])

/-- `k in v`, where it has a meaning. -/
inductive Contains (k : Str) : V → Prop → Prop
  | dict {d : Dict V} : Contains k (.dict d) (∃ v, EntryOf d k v)
  | list {l : List V} : Contains k (.list l) (∃ a b, l = a ++ .str k :: b)
  | str {s : Str} : Contains k (.str s) (Occurs k s)

end WG
