/-
/repo/wiggle_query_language/clauses/make/transform/make_pre.py,
/repo/wiggle_query_language/clauses/transform_helpers/relationships.py,
/repo/models/wql/clauses/make/make_pre.py.
-/
import Verif.Model.Parsed
import Verif.Py.Num

namespace WG

/-- `RelationshipPre`, models/wql/clauses/make/make_pre.py 6-12 (`wn_from_node`/`wn_to_node` are
always set by the only constructor call). -/
structure RelPre where
  wn : Int
  name : Option Str
  handle : Option Str
  props : Option Str
  fromWn : Int
  toWn : Int
deriving DecidableEq, Repr

/-- `NodePre`, models/wql/clauses/make/make_pre.py 15-20. -/
structure NodePre where
  wn : Int
  label : Str
  handle : Option Str
  props : Option Str
  rels : List RelPre
deriving DecidableEq, Repr

/-- `MakePre`, models/wql/clauses/make/make_pre.py 23-28.  The two sets are kept as lists; they
are only ever united and added to an index. -/
structure MakePre where
  left : NodePre
  middle : Option NodePre
  right : Option NodePre
  labels : List Str
  relNames : List Str
deriving DecidableEq, Repr

/-- `relationship_is_left_to_right`, relationships.py 4-15 (`[-1]` of an empty text would be an
IndexError; callers pass non-empty texts). -/
def isLeftToRight (s : Str) : Except PyErr Bool :=
  if '<' ∈ s ∧ '>' ∈ s then .error .nonDirected
  else match s.getLast? with
    | none => .error .index
    | some c => .ok (c == '>')

/-- `NodePre(wn=…, node_label=…, …)`: a label of `None` is a ValidationError. -/
def mkNodePre (wn : Int) (t : PartText) : Except PyErr NodePre :=
  match t.label with
  | none => .error .validation
  | some l => .ok { wn := wn, label := l, handle := t.handle, props := t.props, rels := [] }

/-- Attaches a relationship to a node (`relationships_pre.append`). -/
def NodePre.addRel (n : NodePre) (r : RelPre) : NodePre := { n with rels := n.rels ++ [r] }

/-- `relationship_names.add(name)` if the name is truthy, make_pre.py 88-89, 121-122. -/
def addRelName (names : List Str) (name : Option Str) : List Str :=
  match name with
  | some (c :: cs) => names ++ [c :: cs]
  | _ => names

/-- The left-middle relationship, make_pre.py 61-91. -/
def processLM (n : Int) (p : ParsedPattern) (mp : MakePre) : Except PyErr (Int × MakePre) :=
  match p.leftMiddle.text with
  | some (c :: cs) =>
    match isLeftToRight (c :: cs) with
    | .error e => .error e
    | .ok ltr =>
      match mp.middle with
      | none => .error .attribute
      | some m =>
        let r : RelPre :=
          { wn := n, name := p.leftMiddle.label, handle := p.leftMiddle.handle,
            props := p.leftMiddle.props,
            fromWn := if ltr then mp.left.wn else m.wn, toWn := if ltr then m.wn else mp.left.wn }
        .ok (n + 1,
          { mp with
            left := if ltr then mp.left.addRel r else mp.left
            middle := some (if ltr then m else m.addRel r)
            relNames := addRelName mp.relNames r.name })
  | _ => .ok (n, mp)

/-- The middle-right relationship, make_pre.py 93-123. -/
def processMR (n : Int) (p : ParsedPattern) (mp : MakePre) : Except PyErr (Int × MakePre) :=
  match p.middleRight.text with
  | some (c :: cs) =>
    match isLeftToRight (c :: cs) with
    | .error e => .error e
    | .ok ltr =>
      match mp.middle, mp.right with
      | some m, some rt =>
        let r : RelPre :=
          { wn := n, name := p.middleRight.label, handle := p.middleRight.handle,
            props := p.middleRight.props,
            fromWn := if ltr then m.wn else rt.wn, toWn := if ltr then rt.wn else m.wn }
        .ok (n + 1,
          { mp with
            middle := some (if ltr then m.addRel r else m)
            right := some (if ltr then rt else rt.addRel r)
            relNames := addRelName mp.relNames r.name })
      | _, _ => .error .attribute
  | _ => .ok (n, mp)

/-- The middle node, make_pre.py 35-46. -/
def processMiddle (n : Int) (p : ParsedPattern) (mp : MakePre) : Except PyErr (Int × MakePre) :=
  if truthy p.middle.text then
    match mkNodePre n p.middle with
    | .error e => .error e
    | .ok m => .ok (n + 1, { mp with middle := some m, labels := mp.labels ++ [m.label] })
  else .ok (n, mp)

/-- The right node, make_pre.py 48-59. -/
def processRight (n : Int) (p : ParsedPattern) (mp : MakePre) : Except PyErr (Int × MakePre) :=
  if truthy p.right.text then
    match mkNodePre n p.right with
    | .error e => .error e
    | .ok r => .ok (n + 1, { mp with right := some r, labels := mp.labels ++ [r.label] })
  else .ok (n, mp)

/-- Body of the inner loop, make_pre.py 22-126. -/
def processPattern (n : Int) (p : ParsedPattern) : Except PyErr (Int × MakePre) :=
  match mkNodePre n p.left with
  | .error e => .error e
  | .ok l =>
    match processMiddle (n + 1) p
      { left := l, middle := none, right := none, labels := [l.label], relNames := [] } with
    | .error e => .error e
    | .ok (n1, mp1) =>
      match processRight n1 p mp1 with
      | .error e => .error e
      | .ok (n2, mp2) =>
        match processLM n2 p mp2 with
        | .error e => .error e
        | .ok (n3, mp3) => processMR n3 p mp3

/-- Inner loop over the patterns of one statement, make_pre.py 22-126. -/
def processPatterns : Int → List ParsedPattern → Except PyErr (Int × List MakePre)
  | n, [] => .ok (n, [])
  | n, p :: ps =>
    match processPattern n p with
    | .error e => .error e
    | .ok (n1, mp) =>
      match processPatterns n1 ps with
      | .error e => .error e
      | .ok (n2, mps) => .ok (n2, mp :: mps)

/-- `process_parsed_make_list`, make_pre.py 7-128. -/
def processParsedMakeList : Int → List ParsedMake → Except PyErr (Int × List MakePre)
  | n, [] => .ok (n, [])
  | n, pm :: pms =>
    if pm.clause ≠ .make then .error .exception
    else match processPatterns n pm.patterns with
      | .error e => .error e
      | .ok (n1, mps) =>
        match processParsedMakeList n1 pms with
        | .error e => .error e
        | .ok (n2, mps') => .ok (n2, mps ++ mps')

end WG
