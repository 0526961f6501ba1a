/-
What the exports of a node should be, in terms of the stored records.
-/
import Verif.Model.Export
import Verif.Spec.History

namespace WG
variable [PyRuntime]

/-- The nodes MAKE builds when the counter is at `n`. -/
def BuiltNodes (n : Int) (pml : List ParsedMake) (ns : List NodeData) : Prop :=
  ∃ n' mps, processParsedMakeList n pml = .ok (n', mps) ∧ makeAllNodes mps = .ok ns

/-- A JSON object without its members that are `null`. -/
def dropNulls : V → V
  | .dict d => .dict (d.filter fun x => x.2 ≠ .none)
  | v => v

/-- Changes one member of a JSON object, if it is there. -/
def mapField (k : Str) (f : V → V) : V → V
  | .dict d => .dict (d.map fun x => if x.1 = k then (x.1, f x.2) else x)
  | v => v

/-- Changes every element of a JSON array. -/
def mapElems (f : V → V) : V → V
  | .list l => .list (l.map f)
  | v => v

/-- A stored node without `null` members, in the node, its metadata, its relationships and their
metadata; properties are left alone. -/
def pruneNode (v : V) : V :=
  dropNulls (mapField c!"node_metadata" dropNulls
    (mapField c!"relations" (mapElems fun r =>
      dropNulls (mapField c!"relationship_metadata" dropNulls r)) v))

/-- Only the wiggle number of the metadata. -/
def onlyWn : V → V
  | .dict d => .dict (d.filter fun x => x.1 = c!"wn")
  | v => v

/-- A stored node with only the numbers in its metadata and those of its relationships. -/
def bareNode (v : V) : V :=
  mapField c!"node_metadata" onlyWn
    (mapField c!"relations" (mapElems fun r => mapField c!"relationship_metadata" onlyWn r) v)

end WG
