/-
The log: /repo/wiggle_graph_logger/graph_logger.py and the calls of `graph_logger` in
/repo/wiggle_query_language/graph/database/*.py, graph/database/indexes/*.py, graph/state/wiggle_number.py and
clauses/parsing_helpers/parse_properties.py.

The functions below are those of Model/Database, Model/Indexes, Model/WiggleNumber, Model/Props, Model/Make, Model/Find,
Model/Query and Model/Shell once more, with what they log.  The logger is the root logger with two handlers, the file
graph_logger.log and the standard output; both get every entry that the level of the logger lets through.
Not modelled: the time in front of an entry, the traceback behind an entry of `graph_logger.exception`, the text of
a value in an entry (it is kept as a value), and that writing the log can fail (logging swallows such failures).
-/
import Verif.Model.Shell

namespace WG

/-- The levels that occur, as their numbers: `logging.DEBUG`, `INFO`, `WARNING`, `ERROR`. -/
inductive Level where
  | debug | info | warning | error
deriving DecidableEq, Repr

/-- The number of a level in `logging`. -/
def Level.num : Level → Nat
  | .debug => 10
  | .info => 20
  | .warning => 30
  | .error => 40

/-- One call of `graph_logger.debug`, `.info` or `.exception` (level ERROR): its text, and the value whose text is
put behind it. -/
structure LogEntry [PyRuntime] where
  level : Level
  text : Str
  value : Option V := none
deriving DecidableEq

/-- graph_logger.py 7 -/
def LOGGER_LEVEL : Level := .debug

/-- query.py 24: importing the module of `query` changes the level of the logger; so it is in the shell. -/
def SHELL_LEVEL : Level := .warning

variable [PyRuntime]

/-- The entries that reach the file and the screen: `isEnabledFor`; the level of both handlers is DEBUG, graph_logger.py 11, 15. -/
def visible (l : Level) (es : List LogEntry) : List LogEntry := es.filter fun e => decide (l.num ≤ e.level.num)

/-- A program that logs: what is logged is kept when it raises. -/
structure Lg (α : Type) where
  prog : Prog (Except PyErr α × List LogEntry)

namespace Lg

/-- Sequencing. -/
def bind {α β : Type} (s : Lg α) (f : α → Lg β) : Lg β :=
  ⟨s.prog >>= fun x => match x with
    | (.ok a, out) => (f a).prog >>= fun y => pure (y.1, out ++ y.2)
    | (.error e, out) => pure (.error e, out)⟩

instance : Monad Lg where
  pure a := ⟨pure (.ok a, [])⟩
  bind := bind

/-- Something that logs nothing. -/
def lift {α : Type} (p : Prog α) : Lg α :=
  ⟨Prog.tryCatch (p >>= fun a => pure (.ok a, [])) fun e => pure (.error e, [])⟩

/-- A call of the logger. -/
def put (e : LogEntry) : Lg Unit := ⟨pure (.ok (), [e])⟩

/-- `raise`. -/
def raise {α : Type} (e : PyErr) : Lg α := ⟨pure (.error e, [])⟩

/-- `try: s except …: h`. -/
def tryCatch {α : Type} (s : Lg α) (h : PyErr → Lg α) : Lg α :=
  ⟨s.prog >>= fun x => match x with
    | (.ok a, out) => pure (.ok a, out)
    | (.error e, out) => (h e).prog >>= fun y => pure (y.1, out ++ y.2)⟩

end Lg

/-- `graph_logger.debug(s)` -/
def logDebug (s : Str) : Lg Unit := Lg.put { level := .debug, text := s }
/-- `graph_logger.info(s)` -/
def logInfo (s : Str) : Lg Unit := Lg.put { level := .info, text := s }
/-- `graph_logger.exception(s)` -/
def logException (s : Str) : Lg Unit := Lg.put { level := .error, text := s }
/-- `graph_logger.debug(f"{s} was determined to be …{v}")` -/
def logValue (s : Str) (v : V) : Lg Unit := Lg.put { level := .debug, text := s, value := some v }

/-! ### database.py -/

/-- `load_database`, database.py 13-28. -/
def loadDatabaseL (p : Path) : Lg V := do
  logInfo c!"Attempting to loading database"
  Lg.tryCatch (do
    let text ← Lg.lift (readFile p)
    let db ← Lg.lift (liftE (loads text))
    logInfo c!"Successfully loaded database"
    pure db) fun e =>
      if e = .jsonDecode then do
        logException c!"Empty database, returning a new one"
        pure (.dict [])
      else Lg.raise e

/-- `add_item_to_database`, database.py 31-59. -/
def addItemToDatabaseL (p : Path) (items : List (Str × V)) : Lg Bool := do
  let text ← Lg.lift (readFile p)
  let db ← Lg.lift (liftE (loads text))
  logInfo c!"writing to db"
  let db' ← Lg.lift (liftE (addLoop db items))
  let _ ← Lg.lift (dumpTo p 0 db')
  logInfo (c!"Successfully added " ++ natStr items.length ++ c!" records to the database.")
  pure true

/-- `wipe_database`, database.py 62-79. -/
def wipeDatabaseL (p : Path) (imSure : Bool) : Lg Bool :=
  if imSure then do
    logInfo c!"Dropping database"
    Lg.lift (unitOp (.openW p) .fileNotFound)
    let pos ← Lg.lift (dumpTo p 0 (.dict []))
    Lg.lift (unitOp (.truncate p pos) .osError)
    logInfo c!"Database successfully dropped."
    pure true
  else do
    logDebug c!"Did not drop database as im_sure=False"
    pure false

/-! ### indexes/*.py -/

/-- `load_index_set_by_name`, index_helpers.py 30-50: "Successfully loaded" is logged before the value is made a set. -/
def loadIndexSetL (p : Path) (name : Str) : Lg (List V) := do
  logInfo (c!"Attempting to loading " ++ name ++ c!" indexes")
  Lg.tryCatch (do
    let text ← Lg.lift (readFile p)
    let idx ← Lg.lift (liftE (loads text))
    let v ← Lg.lift (liftE (getItem idx name))
    logInfo (c!"Successfully loaded " ++ name ++ c!" index")
    Lg.lift (liftE (pySet v))) fun e =>
      if e = .jsonDecode then do
        logException (c!"Empty " ++ name ++ c!" indexes, returning a new one")
        pure []
      else Lg.raise e

/-- `wipe_index_set_by_name`, index_helpers.py 53-74. -/
def wipeIndexSetL (p : Path) (name : Str) (imSure : Bool) : Lg Bool :=
  if imSure then do
    logInfo (c!"Dropping " ++ name ++ c!" indexes")
    let text ← Lg.lift (readFile p)
    let idx ← Lg.lift (liftE (loads text))
    let idx' ← Lg.lift (liftE (setItem idx name (.list [])))
    let pos ← Lg.lift (dumpTo p 0 idx')
    Lg.lift (unitOp (.truncate p pos) .osError)
    logInfo (name ++ c!" successfully dropped.")
    pure true
  else do
    logDebug c!"Did not drop relationship indexes as im_sure=False"
    pure false

/-- `load_node_relationships_index`, node_relationships_index.py 52-75. -/
def loadNodeRelationshipsIndexL (p : Path) : Lg (List (Str × List V)) := do
  logInfo c!"Attempting to loading Relationship indexes"
  Lg.tryCatch (do
    let text ← Lg.lift (readFile p)
    let idx ← Lg.lift (liftE (loads text))
    let v ← Lg.lift (liftE (getItem idx NODE_RELATIONSHIPS_INDEX_NAME))
    logInfo c!"Successfully loaded node_relationships index"
    match v with
    | .dict d => Lg.lift (liftE (jsonToDict d))
    | _ => Lg.raise .attribute) fun e =>
      if e = .jsonDecode then do
        logException c!"Empty relationship indexes, returning a new one"
        pure []
      else Lg.raise e

/-- `wipe_node_relationships_index`, node_relationships_index.py 78-98. -/
def wipeNodeRelationshipsIndexL (p : Path) (imSure : Bool) : Lg Bool :=
  if imSure then do
    logInfo c!"Dropping relationship indexes"
    let text ← Lg.lift (readFile p)
    let idx ← Lg.lift (liftE (loads text))
    let idx' ← Lg.lift (liftE (setItem idx NODE_RELATIONSHIPS_INDEX_NAME (.dict [])))
    let pos ← Lg.lift (dumpTo p 0 idx')
    Lg.lift (unitOp (.truncate p pos) .osError)
    logInfo c!"Relationship indexes successfully dropped."
    pure true
  else do
    logDebug c!"Did not drop relationship indexes as im_sure=False"
    pure false

/-! ### wiggle_number.py -/

/-- `get_current_wiggle_number`, wiggle_number.py 7-26 (lines 23, 24 stand behind a `raise`). -/
def getCurrentWiggleNumberL (p : Path) : Lg Int := do
  logDebug c!"Attempting getting WiggleNumber"
  let s ← Lg.lift (readFile p)
  if s.isEmpty then Lg.raise .exception
  else do
    logDebug c!"Wiggle number found, casting to int"
    match pyInt s with
    | some n => do
      logInfo (c!"Successfully got Wiggle number was " ++ intStr n)
      pure n
    | none => Lg.raise .value

/-- `update_wiggle_number`, wiggle_number.py 29-41. -/
def updateWiggleNumberL (p : Path) (n : Int) : Lg Int := do
  logDebug c!"Updating state for WiggleNumber"
  Lg.lift (unitOp (.openW p) .fileNotFound)
  Lg.lift (unitOp (.write p 0 (intStr n)) .osError)
  logDebug c!"Successfully updated state for WiggleNumber"
  pure n

/-! ### parse_properties.py -/

/-- A value that was found is logged; nothing is logged when it is refused. -/
def loggedValue (text : Str) (x : Except PyErr V) : Lg V := do
  let v ← Lg.lift (liftE x)
  logValue text v
  pure v

/-- `handle_null_property` to `handle_string_property`, parse_properties.py 82-200; the entries are those of lines 117,
133, 154, 178 and 199. -/
def handleTypeL (t : PropType) (s : Str) : Lg V :=
  match t with
  | .noneT => Lg.lift (liftE (handleNull s))
  | .boolT => loggedValue (s ++ c!" was determined to be ") (handleBool s)
  | .floatT => loggedValue (s ++ c!" was determined to be a float: ") (handleFloat s)
  | .intT => loggedValue (s ++ c!" was determined to be an int: ") (handleInt s)
  | .listT => loggedValue (s ++ c!" was determined to be a list: ") (handleList s)
  | .stringT => loggedValue (s ++ c!" was determined to be a string: ") (handleString s)

/-- `handle_extracted_property`, parse_properties.py 53-79. -/
def handleExtractedL (value : Str) (caps : Caps) : Lg V := do
  let t ← Lg.lift (liftE (extractedType caps))
  handleTypeL t (stripValue value)

/-- Body of the loop in `parse_properties`, parse_properties.py 35-48. -/
def parseOnePropL (caps : Caps) : Lg (Str × V) :=
  match capGet gName caps, capGet gValue caps with
  | some name, some value =>
    if (strip value).isEmpty then Lg.raise .illegalPropertyValue
    else do
      let v ← handleExtractedL value caps
      pure (name, v)
  | _, _ => Lg.raise .validation

/-- The loop of `parse_properties`, parse_properties.py 33-50. -/
def parsePropsLoopL : List (Str × Caps) → Dict V → Lg (Dict V)
  | [], d => pure d
  | m :: ms, d => do
    let kv ← parseOnePropL m.2
    parsePropsLoopL ms (dictSet kv.1 kv.2 d)

/-- `get_property_dict`, parse_properties.py 12-24, with `parse_properties`, 27-50. -/
def getPropertyDictL : Option Str → Lg (Option (Dict V))
  | none => pure none
  | some s =>
    if s.isEmpty then pure none
    else do
      let d ← parsePropsLoopL (propKV.finditer s) []
      pure (some d)

/-! ### make.py -/

/-- `make_relationship`, make.py 76-92, with `Relationship.validate_from_to_wn`, relationship.py 34-44. -/
def makeRelationshipL (r : RelPre) : Lg RelData := do
  let props ← getPropertyDictL r.props
  if r.fromWn = r.toWn then Lg.raise .relToFrom
  else pure { wn := r.wn, name := r.name, fromWn := r.fromWn, toWn := r.toWn, props := props }

/-- The list comprehension make.py 61-65. -/
def makeRelationshipsL : List RelPre → Lg (List RelData)
  | [] => pure []
  | r :: rs => do
    let d ← makeRelationshipL r
    let ds ← makeRelationshipsL rs
    pure (d :: ds)

/-- `make_node`, make.py 51-73. -/
def makeNodeL (n : NodePre) : Lg NodeData := do
  let props ← getPropertyDictL n.props
  if n.rels.isEmpty then Lg.lift (liftE (mkNode n.wn n.label props none))
  else do
    let rs ← makeRelationshipsL n.rels
    Lg.lift (liftE (mkNode n.wn n.label props (some rs)))

/-- `make_nodes`, make.py 33-48. -/
def makeNodesL (mp : MakePre) : Lg (List NodeData) := do
  let l ← makeNodeL mp.left
  let nodes ← match mp.middle with
    | none => pure [l]
    | some m => do
      let m ← makeNodeL m
      pure [l, m]
  match mp.right with
  | none => pure nodes
  | some _ => do
    let r ← makeNodeL mp.left
    pure (nodes ++ [r])

/-- make.py 171-172. -/
def makeAllNodesL : List MakePre → Lg (List NodeData)
  | [] => pure []
  | mp :: mps => do
    let ns ← makeNodesL mp
    let ns' ← makeAllNodesL mps
    pure (ns ++ ns')

/-- `make`, make.py 154-192, with `add_nodes_to_graph`, 95-111 (`add_indexes` logs nothing). -/
def makeL (env : Env) (pml : List ParsedMake) (g : GPath) : Lg Bool := do
  let n ← getCurrentWiggleNumberL g.wn
  let r ← Lg.lift (liftE (processParsedMakeList n pml))
  let nodes ← makeAllNodesL r.2
  let _ ← addItemToDatabaseL g.db (nodesToAdd env nodes)
  let _ ← Lg.lift (addIndexes env nodes r.2 g)
  let _ ← updateWiggleNumberL g.wn r.1
  pure true

/-! ### find.py -/

/-- Left and middle node, find_pre.py 57-71, 77-91. -/
def findNodeL (t : PartText) (c : Option Criteria) : Lg FindNodePre := do
  let props ← getPropertyDictL t.props
  let n ← Lg.lift (liftE (mkFindNode t.handle t.label props))
  Lg.lift (liftE (addCriteriaNode c t.handle n))

/-- The middle node, find_pre.py 76-94. -/
def findMiddleL (p : ParsedPattern) (c : Option Criteria) (f : FindPre) : Lg FindPre :=
  if truthy p.middle.text then do
    let m ← findNodeL p.middle c
    pure { f with middle := some m, labels := f.labels ++ [m.label] }
  else pure f

/-- The right node, find_pre.py 96-118. -/
def findRightL (p : ParsedPattern) (c : Option Criteria) (f : FindPre) : Lg FindPre :=
  if truthy p.middle.text then do
    let props ← getPropertyDictL p.left.props
    let props ← Lg.lift (liftE (updateWithModel props c p.middle.handle))
    let n ← Lg.lift (liftE (mkFindNode p.middle.handle p.right.label props))
    let r ← Lg.lift (liftE (addCriteriaNode c p.middle.handle n))
    pure { f with right := some r, labels := f.labels ++ [r.label] }
  else pure f

/-- A relationship, find_pre.py 122-137, 149-164. -/
def findRelL (t : PartText) (c : Option Criteria) : Lg FindRelPre := do
  let props ← getPropertyDictL t.props
  Lg.lift (liftE (addCriteriaRel c t.handle { name := t.label, handle := t.handle, yes := props, no := [] }))

/-- The left-middle relationship, find_pre.py 120-145. -/
def findLML (p : ParsedPattern) (c : Option Criteria) (f : FindPre) : Lg FindPre :=
  match p.leftMiddle.text with
  | some (ch :: cs) => do
    let r ← findRelL p.leftMiddle c
    let right ← Lg.lift (liftE (isLeftToRight (ch :: cs)))
    if right then
      pure { f with left := f.left.addRel r, relNames := addRelName f.relNames p.leftMiddle.label }
    else
      match f.middle with
      | none => Lg.raise .attribute
      | some m =>
        pure { f with middle := some (m.addRel r), relNames := addRelName f.relNames p.leftMiddle.label }
  | _ => pure f

/-- The middle-right relationship, find_pre.py 147-172. -/
def findMRL (p : ParsedPattern) (c : Option Criteria) (f : FindPre) : Lg FindPre :=
  match p.middleRight.text with
  | some (ch :: cs) => do
    let r ← findRelL p.middleRight c
    let right ← Lg.lift (liftE (isLeftToRight (ch :: cs)))
    if right then
      match f.middle with
      | none => Lg.raise .attribute
      | some m =>
        pure { f with middle := some (m.addRel r), relNames := addRelName f.relNames p.middleRight.label }
    else
      match f.right with
      | none => Lg.raise .attribute
      | some m =>
        pure { f with right := some (m.addRel r), relNames := addRelName f.relNames p.middleRight.label }
  | _ => pure f

/-- `process_parsed_find`, find_pre.py 42-176. -/
def processParsedFindL (pf : ParsedFind) (c : Option Criteria) : Lg FindPre :=
  if pf.clause ≠ .find then Lg.raise .exception
  else do
    let l ← findNodeL pf.pattern.left c
    let f1 ← findMiddleL pf.pattern c { left := l, middle := none, right := none, labels := [l.label], relNames := [] }
    let f2 ← findRightL pf.pattern c f1
    let f3 ← findLML pf.pattern c f2
    findMRL pf.pattern c f3

/-- `find_short_circuit`, find_short_circuits.py 17-34. -/
def findShortCircuitL (f : FindPre) (g : GPath) : Lg Bool := do
  let labels ← loadIndexSetL g.idx NODE_LABELS_INDEX_NAME
  let names ← loadIndexSetL g.idx RELATIONSHIP_NAMES_INDEX_NAME
  if ¬ nodeLabelIsInIndex f.labels labels = true then pure false
  else if relationshipNameIsInIndex f.relNames names = true then pure false
  else pure true

/-- `find`, find.py 11-25. -/
def findL (pf : ParsedFind) (g : GPath) (c : Option Criteria) : Lg Found := do
  let f ← processParsedFindL pf c
  let b ← findShortCircuitL f g
  if ¬ b = true then pure .noResults else pure .placeholder

/-! ### query.py and wiggleshell.py -/

/-- The MAKE step, query.py 54-55. -/
def executeMakesL (env : Env) (g : GPath) : Option (List ParsedMake) → Lg Bool
  | some (m :: ms) => makeL env (m :: ms) g
  | _ => pure true

/-- `execute_query`, query.py 53-71. -/
def executeQueryL (env : Env) (q : ParsedQuery) (g : GPath) : Lg Bool := do
  let _ ← executeMakesL env g q.make
  match q.find with
  | none => Lg.raise .exception
  | some f => do
    let found ← findL f g none
    let _ ← Lg.lift (executeReport found g q.report)
    pure true

/-- `query`, query.py 81-93. -/
def queryL (env : Env) (q : Str) (g : GPath) : Lg Bool :=
  if (!validQuery q && false) = true then Lg.raise .notAValidQuery
  else do
    let parsed ← Lg.lift (liftE (parseQueryString q))
    let _ ← executeQueryL env parsed g
    pure true

/-- The loop of `start_wiggle_shell`, wiggleshell.py 24-44. -/
def shellLoopL (env : Env) (g : GPath) : List Str → Lg (List Event)
  | [] => pure []
  | q :: rest =>
    if q = c!"q" then pure [.bye]
    else if isSubstr c!"help" (lower q) = true then do
      let l ← shellLoopL env g rest
      pure (.help :: l)
    else do
      let ev ← Lg.tryCatch (do
        let _ ← queryL env q g
        pure Event.done) fun e => pure (.failed e)
      let l ← shellLoopL env g rest
      pure (ev :: l)

/-- `start_wiggle_shell`, wiggleshell.py 7-44 (selecting and creating a GDBMS logs nothing). -/
def startWiggleShellL (env : Env) (inputs : List Str) : Lg (Option (List Event)) := do
  let sel ← Lg.lift (selectGdbms inputs)
  match sel with
  | none => pure none
  | some (g, rest) => do
    let l ← shellLoopL env g rest
    pure (some l)

end WG
