/- Specifications for the storage layer: what the files mean, and what the operations should do. -/
import Verif.Model.Database
import Verif.Model.Indexes

namespace WG
variable [PyRuntime]

/-- The file `p` is a JSON object with the members `d`. -/
def Holds (fs : FS) (p : Path) (d : Dict V) : Prop :=
  ∃ text, fs.get p = some text ∧ jsonLoad text = some (.dict d)

/-- The file `p` exists but is not JSON. -/
def Unreadable (fs : FS) (p : Path) : Prop :=
  ∃ text, fs.get p = some text ∧ jsonLoad text = none

/-- The directory of `p` exists. -/
def DirOK (fs : FS) (p : Path) : Prop := (p.folder, p.dir) ∈ fs.dirs

instance (fs : FS) (p : Path) : Decidable (DirOK fs p) := by unfold DirOK; infer_instance

/-- Operations on a database file. -/
inductive DbOp where
  | add (items : Dict V)
  | wipe (imSure : Bool)

/-- Running one operation. -/
def DbOp.prog (p : Path) : DbOp → Prog Bool
  | .add items => addItemToDatabase p items
  | .wipe b => wipeDatabase p b

/-- What one operation should do to the records: a batch with a used key is refused, otherwise
it is appended. -/
def DbOp.spec (d : Dict V) : DbOp → Dict V
  | .add items => if ∃ k ∈ items.map Prod.fst, k ∈ d.map Prod.fst then d else d ++ items
  | .wipe true => []
  | .wipe false => d

/-- The batch is a Python dict of JSON-representable values. -/
def DbOp.OK : DbOp → Prop
  | .add items => (items.map Prod.fst).Nodup ∧ ∀ x ∈ items, ∃ s, jsonDump x.2 = (s, true) ∧ x.2.WF
  | .wipe _ => True

/-- Running a history of operations, whatever their outcome. -/
def runDbOps (p : Path) : List DbOp → FS → FS
  | [], fs => fs
  | o :: os, fs => runDbOps p os ((o.prog p).run fs).2

/-- The records of an index entry that is a list. -/
def listOf : V → List V
  | .list l => l
  | _ => []

/-- An index file of the expected shape: an object with the three indexes; the label and name
indexes are lists of strings, the relationship index maps nodes to lists of numbers. -/
structure IndexShape (D : Dict V) (labels names : List Str) (rels : Dict (List Int)) : Prop where
  labels : dictGet c!"node_labels" D = some (.list (labels.map Val.str))
  names : dictGet c!"relationship_names" D = some (.list (names.map Val.str))
  rels : dictGet c!"node_relationships" D =
    some (.dict (rels.map fun p => (p.1, Val.list (p.2.map Val.int))))

/-- The relationship numbers of a node in the relationship index. -/
def relsOf (rels : Dict (List Int)) (k : Str) : List Int := (dictGet k rels).getD []

/-- Additions to an index file; each has its own set iteration order. -/
inductive IdxOp where
  | labels (o : SetOrd) (items : List Str)
  | names (o : SetOrd) (items : List Str)
  | rels (o : SetOrd) (items : Dict (List Int))

/-- Running one addition. -/
def IdxOp.prog (p : Path) : IdxOp → Prog Bool
  | .labels o items => addItemsToNodeLabelsIndex o p items
  | .names o items => addItemsToRelationshipNamesIndex o p items
  | .rels o items =>
    addItemsToNodeRelationshipsIndex o p (items.map fun x => (x.1, x.2.map Val.int))

/-- The label is added by the operation. -/
def IdxOp.addsLabel (x : Str) : IdxOp → Prop
  | .labels _ items => x ∈ items
  | _ => False

/-- The relationship name is added by the operation. -/
def IdxOp.addsName (x : Str) : IdxOp → Prop
  | .names _ items => x ∈ items
  | _ => False

/-- The relationship number is added for the node by the operation. -/
def IdxOp.addsRel (k : Str) (n : Int) : IdxOp → Prop
  | .rels _ items => ∃ new, (k, new) ∈ items ∧ n ∈ new
  | _ => False

/-- Not an addition of nothing to the relationship index. -/
def IdxOp.NonEmpty : IdxOp → Prop
  | .rels _ items => items ≠ []
  | _ => True

/-- Running a history of additions. -/
def runIdxOps (p : Path) : List IdxOp → FS → FS
  | [], fs => fs
  | o :: os, fs => runIdxOps p os ((o.prog p).run fs).2

end WG
