/-
The texts of the exceptions that a query raises behind the parser, and what the shell answers: the functions of Model/MakePre, Model/Make,
Model/Find, Model/Database, Model/Query and Model/Shell once more, with messages.

Not modelled: the texts of exceptions of Python and pydantic (`text = none`).
-/
import Verif.Model.Messages
import Verif.Model.Shell

namespace WG
variable [PyRuntime]

/-- A message for an exception of the project. -/
def says (e : PyErr) (m : List Piece) : Raised := ⟨e, some m⟩

/-- `relationship_is_left_to_right`, relationships.py 4-15. -/
def isLeftToRightR (s : Str) : Except Raised Bool :=
  if '<' ∈ s ∧ '>' ∈ s then .error (says .nonDirected [.words c!"Non directed relationship found: ", .quote s])
  else match s.getLast? with
    | none => .error (.lib .index)
    | some c => .ok (c == '>')

/-- `NodePre(…)`. -/
def mkNodePreR (wn : Int) (t : PartText) : Except Raised NodePre :=
  match t.label with
  | none => .error (.lib .validation)
  | some l => .ok { wn := wn, label := l, handle := t.handle, props := t.props, rels := [] }

/-- The left-middle relationship, make_pre.py 61-91. -/
def processLMR (n : Int) (p : ParsedPattern) (mp : MakePre) : Except Raised (Int × MakePre) :=
  match p.leftMiddle.text with
  | some (c :: cs) =>
    match isLeftToRightR (c :: cs) with
    | .error e => .error e
    | .ok ltr =>
      match mp.middle with
      | none => .error (.lib .attribute)
      | some m =>
        let r : RelPre :=
          { wn := n, name := p.leftMiddle.label, handle := p.leftMiddle.handle,
            props := p.leftMiddle.props,
            fromWn := if ltr then mp.left.wn else m.wn, toWn := if ltr then m.wn else mp.left.wn }
        .ok (n + 1,
          { mp with
            left := if ltr then mp.left.addRel r else mp.left
            middle := some (if ltr then m else m.addRel r)
            relNames := addRelName mp.relNames r.name })
  | _ => .ok (n, mp)

/-- The middle-right relationship, make_pre.py 93-123. -/
def processMRR (n : Int) (p : ParsedPattern) (mp : MakePre) : Except Raised (Int × MakePre) :=
  match p.middleRight.text with
  | some (c :: cs) =>
    match isLeftToRightR (c :: cs) with
    | .error e => .error e
    | .ok ltr =>
      match mp.middle, mp.right with
      | some m, some rt =>
        let r : RelPre :=
          { wn := n, name := p.middleRight.label, handle := p.middleRight.handle,
            props := p.middleRight.props,
            fromWn := if ltr then m.wn else rt.wn, toWn := if ltr then rt.wn else m.wn }
        .ok (n + 1,
          { mp with
            middle := some (if ltr then m.addRel r else m)
            right := some (if ltr then rt else rt.addRel r)
            relNames := addRelName mp.relNames r.name })
      | _, _ => .error (.lib .attribute)
  | _ => .ok (n, mp)

/-- The middle node, make_pre.py 35-46. -/
def processMiddleR (n : Int) (p : ParsedPattern) (mp : MakePre) : Except Raised (Int × MakePre) :=
  if truthy p.middle.text then
    match mkNodePreR n p.middle with
    | .error e => .error e
    | .ok m => .ok (n + 1, { mp with middle := some m, labels := mp.labels ++ [m.label] })
  else .ok (n, mp)

/-- The right node, make_pre.py 48-59. -/
def processRightR (n : Int) (p : ParsedPattern) (mp : MakePre) : Except Raised (Int × MakePre) :=
  if truthy p.right.text then
    match mkNodePreR n p.right with
    | .error e => .error e
    | .ok r => .ok (n + 1, { mp with right := some r, labels := mp.labels ++ [r.label] })
  else .ok (n, mp)

/-- Body of the inner loop, make_pre.py 22-126. -/
def processPatternR (n : Int) (p : ParsedPattern) : Except Raised (Int × MakePre) :=
  match mkNodePreR n p.left with
  | .error e => .error e
  | .ok l =>
    match processMiddleR (n + 1) p
      { left := l, middle := none, right := none, labels := [l.label], relNames := [] } with
    | .error e => .error e
    | .ok (n1, mp1) =>
      match processRightR n1 p mp1 with
      | .error e => .error e
      | .ok (n2, mp2) =>
        match processLMR n2 p mp2 with
        | .error e => .error e
        | .ok (n3, mp3) => processMRR n3 p mp3

/-- Inner loop over the patterns of one statement, make_pre.py 22-126. -/
def processPatternsR : Int → List ParsedPattern → Except Raised (Int × List MakePre)
  | n, [] => .ok (n, [])
  | n, p :: ps =>
    match processPatternR n p with
    | .error e => .error e
    | .ok (n1, mp) =>
      match processPatternsR n1 ps with
      | .error e => .error e
      | .ok (n2, mps) => .ok (n2, mp :: mps)

/-- `process_parsed_make_list`, make_pre.py 7-128: `{parsed_make.clause}` shows the member of the enumeration. -/
def processParsedMakeListR : Int → List ParsedMake → Except Raised (Int × List MakePre)
  | n, [] => .ok (n, [])
  | n, pm :: pms =>
    if pm.clause ≠ .make then .error (says .exception [.words (c!"Expecting MAKE but got Clause." ++ pm.clause.value)])
    else match processPatternsR n pm.patterns with
      | .error e => .error e
      | .ok (n1, mps) =>
        match processParsedMakeListR n1 pms with
        | .error e => .error e
        | .ok (n2, mps') => .ok (n2, mps ++ mps')

/-- `make_relationship`, make.py 76-92, with `Relationship.validate_from_to_wn`, relationship.py 34-44: `{cls.wn}` in the message is a
`property` object; its text is left out. -/
def makeRelationshipR (r : RelPre) : Except Raised RelData :=
  match getPropertyDictR r.props with
  | .error e => .error e
  | .ok props =>
    if r.fromWn = r.toWn then
      .error (says .relToFrom [.words c!"Self relationships are not allowed: WN", .words c!" to: WN", .words (intStr r.toWn),
        .words c!" from: WN", .words (intStr r.fromWn)])
    else .ok { wn := r.wn, name := r.name, fromWn := r.fromWn, toWn := r.toWn, props := props }

/-- The list comprehension make.py 61-65. -/
def makeRelationshipsR : List RelPre → Except Raised (List RelData)
  | [] => .ok []
  | r :: rs =>
    match makeRelationshipR r with
    | .error e => .error e
    | .ok d =>
      match makeRelationshipsR rs with
      | .error e => .error e
      | .ok ds => .ok (d :: ds)

/-- `Node(…)` with `validate_relationships`, node.py 56-71: the first unrelated relationship is named. -/
def mkNodeR (wn : Int) (label : Str) (props : Option (Dict V)) (rels : Option (List RelData)) :
    Except Raised NodeData :=
  match (rels.getD []).find? (fun r => !decide (wn = r.fromWn ∨ wn = r.toWn)) with
  | none => .ok { wn := wn, label := label, props := props, relations := rels }
  | some r => .error (says .nodeUnrelated [.words c!"Relationship WN", .words (intStr r.wn), .words c!" not associated with this node."])

/-- `make_node`, make.py 51-73. -/
def makeNodeR (n : NodePre) : Except Raised NodeData :=
  match getPropertyDictR n.props with
  | .error e => .error e
  | .ok props =>
    if n.rels.isEmpty then mkNodeR n.wn n.label props none
    else match makeRelationshipsR n.rels with
      | .error e => .error e
      | .ok rs => mkNodeR n.wn n.label props (some rs)

/-- `make_nodes`, make.py 33-48. -/
def makeNodesR (mp : MakePre) : Except Raised (List NodeData) :=
  match makeNodeR mp.left with
  | .error e => .error e
  | .ok l =>
    match (match mp.middle with
      | none => Except.ok [l]
      | some m => match makeNodeR m with
        | .error e => .error e
        | .ok m => .ok [l, m]) with
    | .error e => .error e
    | .ok nodes =>
      match mp.right with
      | none => .ok nodes
      | some _ => match makeNodeR mp.left with
        | .error e => .error e
        | .ok r => .ok (nodes ++ [r])

/-- make.py 171-172. -/
def makeAllNodesR : List MakePre → Except Raised (List NodeData)
  | [] => .ok []
  | mp :: mps =>
    match makeNodesR mp with
    | .error e => .error e
    | .ok ns =>
      match makeAllNodesR mps with
      | .error e => .error e
      | .ok ns' => .ok (ns ++ ns')

/-- The loop in `add_item_to_database`, database.py 44-50. -/
def addLoopR : V → List (Str × V) → Except Raised V
  | db, [] => .ok db
  | db, (k, node) :: items =>
    match inVal k db with
    | .error e => .error (.lib e)
    | .ok true => .error (says .nodeExists [.words c!"Node ", .words k, .words c!" already exists did you mean to update"])
    | .ok false =>
      match setItem db k node with
      | .error e => .error (.lib e)
      | .ok db' => addLoopR db' items

/-- Left and middle node, find_pre.py 57-71, 77-91. -/
def findNodeR (t : PartText) (c : Option Criteria) : Except Raised FindNodePre :=
  match getPropertyDictR t.props with
  | .error e => .error e
  | .ok props =>
    match mkFindNode t.handle t.label props with
    | .error e => .error (.lib e)
    | .ok n => (addCriteriaNode c t.handle n).mapError .lib

/-- The middle node, find_pre.py 76-94. -/
def findMiddleR (p : ParsedPattern) (c : Option Criteria) (f : FindPre) : Except Raised FindPre :=
  if truthy p.middle.text then
    match findNodeR p.middle c with
    | .error e => .error e
    | .ok m => .ok { f with middle := some m, labels := f.labels ++ [m.label] }
  else .ok f

/-- The right node, find_pre.py 96-118. -/
def findRightR (p : ParsedPattern) (c : Option Criteria) (f : FindPre) : Except Raised FindPre :=
  if truthy p.middle.text then
    match getPropertyDictR p.left.props with
    | .error e => .error e
    | .ok props =>
      match updateWithModel props c p.middle.handle with
      | .error e => .error (.lib e)
      | .ok props =>
        match mkFindNode p.middle.handle p.right.label props with
        | .error e => .error (.lib e)
        | .ok n =>
          match addCriteriaNode c p.middle.handle n with
          | .error e => .error (.lib e)
          | .ok r => .ok { f with right := some r, labels := f.labels ++ [r.label] }
  else .ok f

/-- A relationship, find_pre.py 122-137, 149-164. -/
def findRelR (t : PartText) (c : Option Criteria) : Except Raised FindRelPre :=
  match getPropertyDictR t.props with
  | .error e => .error e
  | .ok props => (addCriteriaRel c t.handle { name := t.label, handle := t.handle, yes := props, no := [] }).mapError .lib

/-- The left-middle relationship, find_pre.py 120-145. -/
def findLMR (p : ParsedPattern) (c : Option Criteria) (f : FindPre) : Except Raised FindPre :=
  match p.leftMiddle.text with
  | some (ch :: cs) =>
    match findRelR p.leftMiddle c with
    | .error e => .error e
    | .ok r =>
      match isLeftToRightR (ch :: cs) with
      | .error e => .error e
      | .ok true =>
        .ok { f with left := f.left.addRel r, relNames := addRelName f.relNames p.leftMiddle.label }
      | .ok false =>
        match f.middle with
        | none => .error (.lib .attribute)
        | some m =>
          .ok { f with middle := some (m.addRel r), relNames := addRelName f.relNames p.leftMiddle.label }
  | _ => .ok f

/-- The middle-right relationship, find_pre.py 147-172. -/
def findMRR (p : ParsedPattern) (c : Option Criteria) (f : FindPre) : Except Raised FindPre :=
  match p.middleRight.text with
  | some (ch :: cs) =>
    match findRelR p.middleRight c with
    | .error e => .error e
    | .ok r =>
      match isLeftToRightR (ch :: cs) with
      | .error e => .error e
      | .ok true =>
        match f.middle with
        | none => .error (.lib .attribute)
        | some m =>
          .ok { f with middle := some (m.addRel r), relNames := addRelName f.relNames p.middleRight.label }
      | .ok false =>
        match f.right with
        | none => .error (.lib .attribute)
        | some m =>
          .ok { f with right := some (m.addRel r), relNames := addRelName f.relNames p.middleRight.label }
  | _ => .ok f

/-- `process_parsed_find`, find_pre.py 42-176. -/
def processParsedFindR (pf : ParsedFind) (c : Option Criteria) : Except Raised FindPre :=
  if pf.clause ≠ .find then .error (says .exception [.words (c!"Expecting FIND but got Clause." ++ pf.clause.value)])
  else match findNodeR pf.pattern.left c with
    | .error e => .error e
    | .ok l =>
      match findMiddleR pf.pattern c { left := l, middle := none, right := none, labels := [l.label], relNames := [] } with
      | .error e => .error e
      | .ok f1 =>
        match findRightR pf.pattern c f1 with
        | .error e => .error e
        | .ok f2 =>
          match findLMR pf.pattern c f2 with
          | .error e => .error e
          | .ok f3 => findMRR pf.pattern c f3

/-! ### Programs whose exceptions have a text -/

/-- A program that ends with a value or with an exception and its text. -/
structure Tel (α : Type) where
  prog : Prog (Except Raised α)

namespace Tel

/-- Sequencing. -/
def bind {α β : Type} (s : Tel α) (f : α → Tel β) : Tel β :=
  ⟨s.prog >>= fun x => match x with
    | .ok a => (f a).prog
    | .error e => pure (.error e)⟩

instance : Monad Tel where
  pure a := ⟨pure (.ok a)⟩
  bind := bind

/-- File operations: their exceptions are those of Python. -/
def lift {α : Type} (p : Prog α) : Tel α :=
  ⟨Prog.tryCatch (p >>= fun a => pure (.ok a)) fun e => pure (.error (.lib e))⟩

/-- A computation without files. -/
def pureR {α : Type} (x : Except Raised α) : Tel α := ⟨pure x⟩

end Tel

/-- `add_item_to_database`, database.py 31-59. -/
def addItemToDatabaseR (p : Path) (items : List (Str × V)) : Tel Bool := do
  let text ← Tel.lift (readFile p)
  let db ← Tel.pureR ((loads text).mapError .lib)
  let db' ← Tel.pureR (addLoopR db items)
  let _ ← Tel.lift (dumpTo p 0 db')
  pure true

/-- `add_nodes_to_graph`, make.py 95-111. -/
def addNodesToGraphR (env : Env) (nodes : List NodeData) (g : GPath) : Tel Bool := do
  let _ ← addItemToDatabaseR g.db (nodesToAdd env nodes)
  pure true

/-- `get_current_wiggle_number`, wiggle_number.py 7-26. -/
def getCurrentWiggleNumberR (p : Path) : Tel Int := do
  let s ← Tel.lift (readFile p)
  if s.isEmpty then Tel.pureR (.error (says .exception [.words c!"HOLD FIRE on overwriting the issue!"]))
  else match pyInt s with
    | some n => pure n
    | none => Tel.pureR (.error (.lib .value))

/-- `make`, make.py 154-192. -/
def makeR (env : Env) (pml : List ParsedMake) (g : GPath) : Tel Bool := do
  let n ← getCurrentWiggleNumberR g.wn
  let r ← Tel.pureR (processParsedMakeListR n pml)
  let nodes ← Tel.pureR (makeAllNodesR r.2)
  let _ ← addNodesToGraphR env nodes g
  let _ ← Tel.lift (addIndexes env nodes r.2 g)
  let _ ← Tel.lift (updateWiggleNumber g.wn r.1)
  pure true

/-- `find`, find.py 11-25. -/
def findR (pf : ParsedFind) (g : GPath) (c : Option Criteria) : Tel Found := do
  let f ← Tel.pureR (processParsedFindR pf c)
  let b ← Tel.lift (findShortCircuit f g)
  if ¬ b = true then pure .noResults else pure .placeholder

/-- The MAKE step, query.py 54-55. -/
def executeMakesR (env : Env) (g : GPath) : Option (List ParsedMake) → Tel Bool
  | some (m :: ms) => makeR env (m :: ms) g
  | _ => pure true

/-- `execute_query`, query.py 53-71. -/
def executeQueryR (env : Env) (q : ParsedQuery) (g : GPath) : Tel Bool := do
  let _ ← executeMakesR env g q.make
  match q.find with
  | none => Tel.pureR (.error (says .exception [.words c!"You must provide a FIND with a RETURN! FUBAR"]))
  | some f =>
    let found ← findR f g none
    let _ ← Tel.lift (executeReport found g q.report)
    pure true

/-- `query`, query.py 81-93. -/
def queryR (env : Env) (q : Str) (g : GPath) : Tel Bool :=
  if (!validQuery q && false) = true then
    Tel.pureR (.error (says .notAValidQuery [.words c!"Query must contain MAKE, FIND, ADJUST, CRITERIA, REPORT, USING\n"]))
  else do
    let parsed ← Tel.pureR (parseQueryStringR q)
    let _ ← executeQueryR env parsed g
    pure true

/-- What the shell answers to a line. -/
inductive Answer where
  | help
  | done
  /-- `print(e)` -/
  | failed (r : Raised)
  | bye
deriving DecidableEq

/-- The answer without the text of the exception. -/
def Answer.event : Answer → Event
  | .help => .help
  | .done => .done
  | .failed r => .failed r.kind
  | .bye => .bye

/-- The loop of `start_wiggle_shell`, wiggleshell.py 24-44. -/
def shellLoopR (env : Env) (g : GPath) : List Str → Prog (List Answer)
  | [] => pure []
  | q :: rest =>
    if q = c!"q" then pure [.bye]
    else if isSubstr c!"help" (lower q) = true then do
      let l ← shellLoopR env g rest
      pure (.help :: l)
    else do
      let x ← (queryR env q g).prog
      let l ← shellLoopR env g rest
      pure ((match x with
        | .ok _ => Answer.done
        | .error r => .failed r) :: l)

end WG
