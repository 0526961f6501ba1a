/-
The exports of a node, /repo/models/wql/data/node.py 33-54, and `dict_to_json`,
/repo/wiggle_query_language/graph/database/indexes/node_relationships_index.py 16-17.
No code of the repository calls them; they are the interface a caller of the library sees.
-/
import Verif.Model.Make

namespace WG
variable [PyRuntime]

/-- `v is None`. -/
def isNoneV : V → Bool
  | .none => true
  | _ => false

/-- The fields `BaseModel.dict(exclude_none=…)` keeps (pydantic 1: a field of a model is dropped if
its value is `None`; the items of a dict that is a field's value are kept). -/
def keepFields (excludeNone : Bool) (fields : List (Str × V)) : List (Str × V) :=
  if excludeNone then fields.filter fun x => !isNoneV x.2 else fields

/-- `WiggleGraphMetalData(wn=…).dict(exclude_unset=…, exclude_none=…)`, wiggle_metadata.py 7-10.
Only `wn` is ever set (make.py 57, 82), so `exclude_unset` leaves only that. -/
def metaDict (env : Env) (excludeUnset excludeNone : Bool) (wn : Int) : V :=
  .dict (keepFields excludeNone ((c!"wn", .int wn) ::
    (if excludeUnset then []
    else [(c!"created_at", .flt (.fin env.importTime)), (c!"updated_at", .none)])))

/-- `Relationship.dict(exclude_unset=…, exclude_none=…)`, relationship.py 18-25.  make.py 86-92 sets
every field. -/
def relDict (env : Env) (excludeUnset excludeNone : Bool) (r : RelData) : V :=
  .dict (keepFields excludeNone
    [(c!"relationship_metadata", metaDict env excludeUnset excludeNone r.wn),
      (c!"relationship_name", optStrVal r.name),
      (c!"wn_from_node", .int r.fromWn), (c!"wn_to_node", .int r.toWn),
      (c!"properties", optDictVal r.props)])

/-- `Node.dict(exclude_unset=…, exclude_none=…)`, node.py 18-24.  make.py 68-73 sets every field. -/
def nodeDict (env : Env) (excludeUnset excludeNone : Bool) (n : NodeData) : V :=
  .dict (keepFields excludeNone
    [(c!"node_metadata", metaDict env excludeUnset excludeNone n.wn), (c!"node_label", .str n.label),
      (c!"properties", optDictVal n.props),
      (c!"relations", match n.relations with
        | none => .none
        | some rs => .list (rs.map (relDict env excludeUnset excludeNone)))])

/-- `Node.export_node`, node.py 38-45. -/
def exportNode (env : Env) (excludeUnset excludeNone : Bool) (n : NodeData) : Dict V :=
  [(intStr n.wn, nodeDict env excludeUnset excludeNone n)]

/-- `Node.export_relationship_indexes`, node.py 47-54.  The set is kept as a list without
duplicates. -/
def exportRelationshipIndexes (n : NodeData) : Option (Dict (List Int)) :=
  match n.relations with
  | some (r :: rs) => some [(intStr n.wn, dedup ((r :: rs).map (·.toWn)))]
  | _ => none

/-- `Node.node_relationship_names`, node.py 33-36. -/
def nodeRelationshipNames (n : NodeData) : Option (List (Option Str)) :=
  match n.relations with
  | some (r :: rs) => some ((r :: rs).map (·.name))
  | _ => none

/-- `dict_to_json`, node_relationships_index.py 16-17; `o` is the iteration order of the sets. -/
def dictToJson (o : SetOrd) (d : List (Str × List V)) : List (Str × V) :=
  d.map fun x => (x.1, .list (o.ord x.2))

end WG
