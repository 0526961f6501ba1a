/-
/repo/wiggle_query_language/clauses/make/make.py, /repo/models/wql/data/*.py,
/repo/models/wigish/dbms.py.
-/
import Verif.Model.MakePre
import Verif.Model.Props
import Verif.Model.Database
import Verif.Model.Indexes
import Verif.Model.WiggleNumber

namespace WG
variable [PyRuntime]

/-- `GDBMSFilePath`, models/wigish/dbms.py 6-13. -/
structure GPath where
  db : Path
  idx : Path
  wn : Path
deriving DecidableEq, Repr

/-- What one operation gets from its process: set iteration order, the value of
`datetime.now().timestamp()` at the moment the module wiggle_metadata.py was imported
(the default of `created_at` is evaluated once, wiggle_metadata.py 9), and its value now (no code reads
the clock after the import). -/
structure Env where
  ord : SetOrd
  importTime : PyRuntime.F
  now : PyRuntime.F

/-- `WiggleGraphMetalData(wn=…).dict()`, wiggle_metadata.py 7-10. -/
def metaVal (env : Env) (wn : Int) : V :=
  .dict [(c!"wn", .int wn), (c!"created_at", .flt (.fin env.importTime)), (c!"updated_at", .none)]

/-- `Relationship`, models/wql/data/relationship.py 11-25. -/
structure RelData where
  wn : Int
  name : Option Str
  fromWn : Int
  toWn : Int
  props : Option (Dict V)

/-- `Node`, models/wql/data/node.py 12-24. -/
structure NodeData where
  wn : Int
  label : Str
  props : Option (Dict V)
  relations : Option (List RelData)

/-- `None` or a dict. -/
def optDictVal : Option (Dict V) → V
  | none => .none
  | some d => .dict d

/-- `None` or a `str`. -/
def optStrVal : Option Str → V
  | none => .none
  | some s => .str s

/-- `Relationship.dict()`: field order of relationship.py 18-25. -/
def relVal (env : Env) (r : RelData) : V :=
  .dict [(c!"relationship_metadata", metaVal env r.wn), (c!"relationship_name", optStrVal r.name),
    (c!"wn_from_node", .int r.fromWn), (c!"wn_to_node", .int r.toWn),
    (c!"properties", optDictVal r.props)]

/-- `Node.dict()`: field order of node.py 18-24. -/
def nodeVal (env : Env) (n : NodeData) : V :=
  .dict [(c!"node_metadata", metaVal env n.wn), (c!"node_label", .str n.label),
    (c!"properties", optDictVal n.props),
    (c!"relations", match n.relations with
      | none => .none
      | some rs => .list (rs.map (relVal env)))]

/-- `make_relationship`, make.py 76-92, with `Relationship.validate_from_to_wn`,
relationship.py 34-44. -/
def makeRelationship (r : RelPre) : Except PyErr RelData :=
  match getPropertyDict r.props with
  | .error e => .error e
  | .ok props =>
    if r.fromWn = r.toWn then .error .relToFrom
    else .ok { wn := r.wn, name := r.name, fromWn := r.fromWn, toWn := r.toWn, props := props }

/-- The list comprehension make.py 61-65 (a `RelationshipPre` is always truthy). -/
def makeRelationships : List RelPre → Except PyErr (List RelData)
  | [] => .ok []
  | r :: rs =>
    match makeRelationship r with
    | .error e => .error e
    | .ok d =>
      match makeRelationships rs with
      | .error e => .error e
      | .ok ds => .ok (d :: ds)

/-- `Node(…)` with `validate_relationships`, node.py 56-71. -/
def mkNode (wn : Int) (label : Str) (props : Option (Dict V)) (rels : Option (List RelData)) :
    Except PyErr NodeData :=
  if (rels.getD []).all (fun r => wn = r.fromWn ∨ wn = r.toWn) then
    .ok { wn := wn, label := label, props := props, relations := rels }
  else .error .nodeUnrelated

/-- `make_node`, make.py 51-73. -/
def makeNode (n : NodePre) : Except PyErr NodeData :=
  match getPropertyDict n.props with
  | .error e => .error e
  | .ok props =>
    if n.rels.isEmpty then mkNode n.wn n.label props none
    else match makeRelationships n.rels with
      | .error e => .error e
      | .ok rs => mkNode n.wn n.label props (some rs)

/-- `make_nodes`, make.py 33-48.  Line 46 builds the right node from `make_pre.left_node`. -/
def makeNodes (mp : MakePre) : Except PyErr (List NodeData) :=
  match makeNode mp.left with
  | .error e => .error e
  | .ok l =>
    match (match mp.middle with
      | none => Except.ok [l]
      | some m => match makeNode m with
        | .error e => .error e
        | .ok m => .ok [l, m]) with
    | .error e => .error e
    | .ok nodes =>
      match mp.right with
      | none => .ok nodes
      | some _ => match makeNode mp.left with
        | .error e => .error e
        | .ok r => .ok (nodes ++ [r])

/-- make.py 171-172: nodes of all patterns, flattened. -/
def makeAllNodes : List MakePre → Except PyErr (List NodeData)
  | [] => .ok []
  | mp :: mps =>
    match makeNodes mp with
    | .error e => .error e
    | .ok ns =>
      match makeAllNodes mps with
      | .error e => .error e
      | .ok ns' => .ok (ns ++ ns')

/-- The dict comprehension of `add_nodes_to_graph`, make.py 106. -/
def nodesToAdd (env : Env) (nodes : List NodeData) : List (Str × V) :=
  dictOf (nodes.map fun n => (intStr n.wn, nodeVal env n))

/-- `add_nodes_to_graph`, make.py 95-111. -/
def addNodesToGraph (env : Env) (nodes : List NodeData) (g : GPath) : Prog Bool := do
  let _ ← addItemToDatabase g.db (nodesToAdd env nodes)
  pure true

/-- The dict comprehension of `add_indexes`, make.py 127-131: nodes with a non-empty list of
relations. -/
def relIndexesToAdd (nodes : List NodeData) : List (Str × List V) :=
  dictOf (nodes.filterMap fun n =>
    match n.relations with
    | some (r :: rs) => some (intStr n.wn, (r :: rs).map fun r => Val.int r.wn)
    | _ => none)

/-- `add_indexes`, make.py 114-151. -/
def addIndexes (env : Env) (nodes : List NodeData) (mps : List MakePre) (g : GPath) : Prog Bool := do
  let _ ← addItemsToNodeRelationshipsIndex env.ord g.idx (relIndexesToAdd nodes)
  let _ ← addItemsToNodeLabelsIndex env.ord g.idx (mps.flatMap (·.labels))
  let _ ← addItemsToRelationshipNamesIndex env.ord g.idx (mps.flatMap (·.relNames))
  pure true

/-- `make`, make.py 154-192. -/
def make (env : Env) (pml : List ParsedMake) (g : GPath) : Prog Bool := do
  let n ← getCurrentWiggleNumber g.wn
  let r ← liftE (processParsedMakeList n pml)
  let nodes ← liftE (makeAllNodes r.2)
  let _ ← addNodesToGraph env nodes g
  let _ ← addIndexes env nodes r.2 g
  let _ ← updateWiggleNumber g.wn r.1
  pure true

end WG
