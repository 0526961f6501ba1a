/-
/repo/wiggle_query_language/graph/database/indexes/*.py
Their log is in Model/Log.
-/
import Verif.Py.Value

namespace WG
variable [PyRuntime]

/-- indexes/__init__.py 1 -/
def NODE_LABELS_INDEX_NAME : Str := c!"node_labels"
/-- indexes/__init__.py 2 -/
def NODE_RELATIONSHIPS_INDEX_NAME : Str := c!"node_relationships"
/-- indexes/__init__.py 3 -/
def RELATIONSHIP_NAMES_INDEX_NAME : Str := c!"relationship_names"

/-- `add_items_set_to_index_by_name`, index_helpers.py 8-27.  `items` is the set to add;
`o` the iteration order of `list(updated_index)`. -/
def addItemsSetToIndex (o : SetOrd) (p : Path) (items : List Str) (name : Str) : Prog Bool := do
  let text ← readFile p
  let idx ← liftE (loads text)
  let old ← liftE (getItem idx name)
  let oldSet ← liftE (pySet old)
  let updated := dedup (oldSet ++ items.map Val.str)
  let idx' ← liftE (setItem idx name (.list (o.ord updated)))
  let pos ← dumpTo p 0 idx'
  unitOp (.truncate p pos) .osError
  pure true

/-- `load_index_set_by_name`, index_helpers.py 30-50: only JSONDecodeError is swallowed. -/
def loadIndexSet (p : Path) (name : Str) : Prog (List V) :=
  Prog.tryCatch
    (do
      let text ← readFile p
      let idx ← liftE (loads text)
      let v ← liftE (getItem idx name)
      liftE (pySet v))
    fun e => if e = .jsonDecode then pure [] else .raise e

/-- `wipe_index_set_by_name`, index_helpers.py 53-74 (and, with `empty = {}`,
`wipe_node_relationships_index`, node_relationships_index.py 78-98). -/
def wipeIndexWith (empty : V) (p : Path) (name : Str) (imSure : Bool) : Prog Bool := do
  if imSure then
    let text ← readFile p
    let idx ← liftE (loads text)
    let idx' ← liftE (setItem idx name empty)
    let pos ← dumpTo p 0 idx'
    unitOp (.truncate p pos) .osError
    pure true
  else pure false

/-- `wipe_index_set_by_name`, index_helpers.py 53-74. -/
def wipeIndexSet (p : Path) (name : Str) (imSure : Bool) : Prog Bool :=
  wipeIndexWith (.list []) p name imSure

/-- `wipe_node_relationships_index`, node_relationships_index.py 78-98. -/
def wipeNodeRelationshipsIndex (p : Path) (imSure : Bool) : Prog Bool :=
  wipeIndexWith (.dict []) p NODE_RELATIONSHIPS_INDEX_NAME imSure

/-- `add_items_to_node_labels_index`, node_labels_index.py 11-25. -/
def addItemsToNodeLabelsIndex (o : SetOrd) (p : Path) (items : List Str) : Prog Bool :=
  addItemsSetToIndex o p items NODE_LABELS_INDEX_NAME

/-- `load_node_labels_index`, node_labels_index.py 28-36. -/
def loadNodeLabelsIndex (p : Path) : Prog (List V) := loadIndexSet p NODE_LABELS_INDEX_NAME

/-- `wipe_node_labels_index`, node_labels_index.py 39-51. -/
def wipeNodeLabelsIndex (p : Path) (imSure : Bool) : Prog Bool :=
  wipeIndexSet p NODE_LABELS_INDEX_NAME imSure

/-- `add_items_to_relationship_names_index`, relationship_names_index.py 11-24. -/
def addItemsToRelationshipNamesIndex (o : SetOrd) (p : Path) (items : List Str) : Prog Bool :=
  addItemsSetToIndex o p items RELATIONSHIP_NAMES_INDEX_NAME

/-- `load_relationship_names_index`, relationship_names_index.py 27-36. -/
def loadRelationshipNamesIndex (p : Path) : Prog (List V) :=
  loadIndexSet p RELATIONSHIP_NAMES_INDEX_NAME

/-- `wipe_relationship_names_index`, relationship_names_index.py 39-52. -/
def wipeRelationshipNamesIndex (p : Path) (imSure : Bool) : Prog Bool :=
  wipeIndexSet p RELATIONSHIP_NAMES_INDEX_NAME imSure

/-- One iteration of the loop in `add_items_to_node_relationships_index`,
node_relationships_index.py 34-40.  A non-dict index raises TypeError in every branch. -/
def relIndexStep (o : SetOrd) (idx : V) (nodeWn : Str) (new : List V) : Except PyErr V :=
  match idx with
  | .dict d =>
    match dictGet nodeWn d with
    | some old =>
      match pySet old with
      | .ok s => .ok (.dict (dictSet nodeWn (.list (o.ord (dedup (s ++ new)))) d))
      | .error e => .error e
    | none => .ok (.dict (dictSet nodeWn (.list (o.ord (dedup new))) d))
  | _ => .error .type

/-- The loop, node_relationships_index.py 34-42 (the `seek(0)` is accounted for below). -/
def relIndexLoop (o : SetOrd) : V → List (Str × List V) → Except PyErr V
  | idx, [] => .ok idx
  | idx, (k, new) :: items =>
    match relIndexStep o idx k new with
    | .ok idx' => relIndexLoop o idx' items
    | .error e => .error e

/-- `add_items_to_node_relationships_index`, node_relationships_index.py 20-49.  `seek(0)` is
executed inside the loop only, so with no items the position stays at the end of the file. -/
def addItemsToNodeRelationshipsIndex (o : SetOrd) (p : Path) (items : List (Str × List V)) :
    Prog Bool := do
  let text ← readFile p
  let idx ← liftE (loads text)
  let rel ← liftE (getItem idx NODE_RELATIONSHIPS_INDEX_NAME)
  let rel' ← liftE (relIndexLoop o rel items)
  let idx' ← liftE (setItem idx NODE_RELATIONSHIPS_INDEX_NAME rel')
  let pos ← dumpTo p (if items.isEmpty then text.length else 0) idx'
  unitOp (.truncate p pos) .osError
  pure true

/-- `json_to_dict`, node_relationships_index.py 10-13: every value becomes a set. -/
def jsonToDict : List (Str × V) → Except PyErr (List (Str × List V))
  | [] => .ok []
  | (k, v) :: d =>
    match pySet v with
    | .error e => .error e
    | .ok s =>
      match jsonToDict d with
      | .error e => .error e
      | .ok d' => .ok ((k, s) :: d')

/-- `load_node_relationships_index`, node_relationships_index.py 52-75.  A non-dict has no
`.items()` (AttributeError). -/
def loadNodeRelationshipsIndex (p : Path) : Prog (List (Str × List V)) :=
  Prog.tryCatch
    (do
      let text ← readFile p
      let idx ← liftE (loads text)
      let v ← liftE (getItem idx NODE_RELATIONSHIPS_INDEX_NAME)
      match v with
      | .dict d => liftE (jsonToDict d)
      | _ => .raise .attribute)
    fun e => if e = .jsonDecode then pure [] else .raise e

end WG
