/-
Operations on loaded JSON values, Python sets, and writing JSON to files.
-/
import Verif.Py.Json
import Verif.Py.Files

namespace WG

/-- Iteration order of Python sets: any permutation of the elements.  `list(s)` of a set whose
elements were inserted in the order `l` is `ord l`.  Different operations may use different
orders (hash randomisation), so the order is a parameter of each operation. -/
structure SetOrd [PyRuntime] where
  ord : List V → List V
  perm : ∀ l, (ord l).Perm l

/-- Elements of a set built by inserting a list: duplicates dropped, first occurrence kept.
(Python's `1 == True == 1.0` identification is not modelled: set elements in /repo are all `str`
or all `int`.) -/
def dedup {α : Type} [DecidableEq α] (l : List α) : List α :=
  l.foldl (fun acc x => if x ∈ acc then acc else acc ++ [x]) []

/-- Hashable values: everything except lists and dicts. -/
def hashable {F : Type} : Val F → Bool
  | .list _ | .dict _ => false
  | _ => true

/-- `set(v)` for a loaded JSON value. -/
def pySet [PyRuntime] : V → Except PyErr (List V)
  | .list l => if l.all hashable then .ok (dedup l) else .error .type
  | .dict d => .ok (d.map fun p => .str p.1)
  | .str s => .ok (dedup (s.map fun c => .str [c]))
  | _ => .error .type

/-- `v[k]` with a `str` key. -/
def getItem [PyRuntime] (v : V) (k : Str) : Except PyErr V :=
  match v with
  | .dict d => match dictGet k d with
    | some x => .ok x
    | none => .error .key
  | _ => .error .type

/-- `v[k] = x` with a `str` key. -/
def setItem [PyRuntime] (v : V) (k : Str) (x : V) : Except PyErr V :=
  match v with
  | .dict d => .ok (.dict (dictSet k x d))
  | _ => .error .type

/-- `k in v` for a `str` `k`. -/
def inVal [PyRuntime] (k : Str) : V → Except PyErr Bool
  | .dict d => .ok (dictHas k d)
  | .list l => .ok (l.any fun x => decide (x = .str k))
  | .str s => .ok (isSubstr k s)
  | _ => .error .type

/-- `json.load(file_handle)` on the text read. -/
def loads [PyRuntime] (s : Str) : Except PyErr V :=
  match jsonLoad s with
  | some v => .ok v
  | none => .error .jsonDecode

/-- `json.dump(v, file_handle, indent=4)` with the file position at `pos`; returns the new
position.  If the value is not serialisable, `json` has already produced the text before the
offending value; it reaches the disk when the `with` block closes the file, and `TypeError`
propagates. -/
def dumpTo [PyRuntime] (p : Path) (pos : Nat) (v : V) : Prog Nat := do
  unitOp (.write p pos (jsonDump v).1) .osError
  if (jsonDump v).2 then pure (pos + (jsonDump v).1.length) else .raise .type

end WG
