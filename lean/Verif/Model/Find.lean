/-
FIND, CRITERIA merging and REPORT:
/repo/models/wql/clauses/find/find_pre.py,
/repo/wiggle_query_language/clauses/find/transform/find_pre.py,
/repo/wiggle_query_language/clauses/find/short_circuits/*.py,
/repo/wiggle_query_language/clauses/find/find.py,
/repo/wiggle_query_language/clauses/report/report.py.
-/
import Verif.Model.MakePre
import Verif.Model.Make

namespace WG
variable [PyRuntime]

/-- `FindRelationshipPre`, models/wql/clauses/find/find_pre.py 6-10. -/
structure FindRelPre where
  name : Option Str
  handle : Option Str
  yes : Option (Dict V)
  no : Dict V
deriving DecidableEq

/-- `FindNodePre`, models/wql/clauses/find/find_pre.py 13-18. -/
structure FindNodePre where
  label : Str
  handle : Option Str
  yes : Option (Dict V)
  no : Dict V
  rels : List FindRelPre
deriving DecidableEq

/-- `FindPre`, models/wql/clauses/find/find_pre.py 21-26.  The two sets are kept as lists. -/
structure FindPre where
  left : FindNodePre
  middle : Option FindNodePre
  right : Option FindNodePre
  labels : List Str
  relNames : List Str
deriving DecidableEq

/-- `ParsedCriteriaYesNo`, parsed_query.py 105-109. -/
structure CriteriaYesNo where
  yes : Dict V
  no : Dict V
deriving DecidableEq

/-- `criteria_handle_props` of a `ParsedCriteria`, parsed_query.py 112-117 (its only field that is
read). -/
abbrev Criteria [PyRuntime] := Dict CriteriaYesNo

/-- `criteria_handle_props.get(handle, None)` for an optional handle. -/
def criteriaGet (c : Criteria) : Option Str → Option CriteriaYesNo
  | none => none
  | some h => dictGet h c

/-- The two updates of `add_criteria_yes_no_props`, find_pre.py 32-37, on a pair of property dicts:
an empty dict is skipped, `None.update` is an AttributeError. -/
def addYesNo (c : Criteria) (handle : Option Str) (yes : Option (Dict V)) (no : Dict V) :
    Except PyErr (Option (Dict V) × Dict V) :=
  match criteriaGet c handle with
  | none => .ok (yes, no)
  | some yn =>
    if yn.yes.isEmpty then .ok (yes, dictUpdate no yn.no)
    else match yes with
      | none => .error .attribute
      | some d => .ok (some (dictUpdate d yn.yes), dictUpdate no yn.no)

/-- `add_criteria_yes_no_props` for a node, find_pre.py 19-39, called if there are criteria. -/
def addCriteriaNode (c : Option Criteria) (handle : Option Str) (n : FindNodePre) :
    Except PyErr FindNodePre :=
  match c with
  | none => .ok n
  | some c =>
    match addYesNo c handle n.yes n.no with
    | .error e => .error e
    | .ok (yes, no) => .ok { n with yes := yes, no := no }

/-- `add_criteria_yes_no_props` for a relationship, find_pre.py 19-39, called if there are
criteria. -/
def addCriteriaRel (c : Option Criteria) (handle : Option Str) (r : FindRelPre) :
    Except PyErr FindRelPre :=
  match c with
  | none => .ok r
  | some c =>
    match addYesNo c handle r.yes r.no with
    | .error e => .error e
    | .ok (yes, no) => .ok { r with yes := yes, no := no }

/-- `FindNodePre(node_handle=…, node_label=…, props_dict_yes=…)`: a label of `None` is a
ValidationError. -/
def mkFindNode (handle label : Option Str) (props : Option (Dict V)) : Except PyErr FindNodePre :=
  match label with
  | none => .error .validation
  | some l => .ok { label := l, handle := handle, yes := props, no := [], rels := [] }

/-- `relationships.append(rel)` -/
def FindNodePre.addRel (n : FindNodePre) (r : FindRelPre) : FindNodePre := { n with rels := n.rels ++ [r] }

/-- Left and middle node, find_pre.py 57-71, 77-91: properties, node, criteria. -/
def findNode (t : PartText) (c : Option Criteria) : Except PyErr FindNodePre :=
  match getPropertyDict t.props with
  | .error e => .error e
  | .ok props =>
    match mkFindNode t.handle t.label props with
    | .error e => .error e
    | .ok n => addCriteriaNode c t.handle n

/-- The middle node, find_pre.py 76-94. -/
def findMiddle (p : ParsedPattern) (c : Option Criteria) (f : FindPre) : Except PyErr FindPre :=
  if truthy p.middle.text then
    match findNode p.middle c with
    | .error e => .error e
    | .ok m => .ok { f with middle := some m, labels := f.labels ++ [m.label] }
  else .ok f

/-- `right_props_dict.update(criteria.get(handle, None))`, find_pre.py 101-104: `None.update` is an
AttributeError, `update(None)` a TypeError; updating with a pydantic model adds its fields
(`dict.update` iterates over the (name, value) pairs). -/
def updateWithModel (props : Option (Dict V)) (c : Option Criteria) (handle : Option Str) :
    Except PyErr (Option (Dict V)) :=
  match c with
  | none => .ok props
  | some c =>
    match props with
    | none => .error .attribute
    | some d =>
      match criteriaGet c handle with
      | none => .error .type
      | some yn => .ok (some (dictUpdate d
          [(c!"props_dict_yes_match", .dict yn.yes), (c!"props_dict_no_match", .dict yn.no)]))

/-- The right node, find_pre.py 96-118: it is made if there is a *middle* node, with the handle of
the middle node, the properties of the left node and the label of the right one. -/
def findRight (p : ParsedPattern) (c : Option Criteria) (f : FindPre) : Except PyErr FindPre :=
  if truthy p.middle.text then
    match getPropertyDict p.left.props with
    | .error e => .error e
    | .ok props =>
      match updateWithModel props c p.middle.handle with
      | .error e => .error e
      | .ok props =>
        match mkFindNode p.middle.handle p.right.label props with
        | .error e => .error e
        | .ok n =>
          match addCriteriaNode c p.middle.handle n with
          | .error e => .error e
          | .ok r => .ok { f with right := some r, labels := f.labels ++ [r.label] }
  else .ok f

/-- A relationship, find_pre.py 122-137, 149-164: properties, criteria. -/
def findRel (t : PartText) (c : Option Criteria) : Except PyErr FindRelPre :=
  match getPropertyDict t.props with
  | .error e => .error e
  | .ok props => addCriteriaRel c t.handle { name := t.label, handle := t.handle, yes := props, no := [] }

/-- The left-middle relationship, find_pre.py 120-145. -/
def findLM (p : ParsedPattern) (c : Option Criteria) (f : FindPre) : Except PyErr FindPre :=
  match p.leftMiddle.text with
  | some (ch :: cs) =>
    match findRel p.leftMiddle c with
    | .error e => .error e
    | .ok r =>
      match isLeftToRight (ch :: cs) with
      | .error e => .error e
      | .ok true =>
        .ok { f with left := f.left.addRel r, relNames := addRelName f.relNames p.leftMiddle.label }
      | .ok false =>
        match f.middle with
        | none => .error .attribute
        | some m =>
          .ok { f with middle := some (m.addRel r), relNames := addRelName f.relNames p.leftMiddle.label }
  | _ => .ok f

/-- The middle-right relationship, find_pre.py 147-172. -/
def findMR (p : ParsedPattern) (c : Option Criteria) (f : FindPre) : Except PyErr FindPre :=
  match p.middleRight.text with
  | some (ch :: cs) =>
    match findRel p.middleRight c with
    | .error e => .error e
    | .ok r =>
      match isLeftToRight (ch :: cs) with
      | .error e => .error e
      | .ok true =>
        match f.middle with
        | none => .error .attribute
        | some m =>
          .ok { f with middle := some (m.addRel r), relNames := addRelName f.relNames p.middleRight.label }
      | .ok false =>
        match f.right with
        | none => .error .attribute
        | some m =>
          .ok { f with right := some (m.addRel r), relNames := addRelName f.relNames p.middleRight.label }
  | _ => .ok f

/-- `process_parsed_find`, find_pre.py 42-176 (`relationship_names.discard(None)` is a no-op: only
truthy names were added). -/
def processParsedFind (pf : ParsedFind) (c : Option Criteria) : Except PyErr FindPre :=
  if pf.clause ≠ .find then .error .exception
  else match findNode pf.pattern.left c with
    | .error e => .error e
    | .ok l =>
      match findMiddle pf.pattern c { left := l, middle := none, right := none, labels := [l.label], relNames := [] } with
      | .error e => .error e
      | .ok f1 =>
        match findRight pf.pattern c f1 with
        | .error e => .error e
        | .ok f2 =>
          match findLM pf.pattern c f2 with
          | .error e => .error e
          | .ok f3 => findMR pf.pattern c f3

/-- `node_label_is_in_index`, short_circuits/nodes.py 1-4. -/
def nodeLabelIsInIndex (labels : List Str) (index : List V) : Bool :=
  labels.any fun l => decide (Val.str l ∈ index)

/-- `relationship_name_is_in_index`, short_circuits/relationships.py 1-4. -/
def relationshipNameIsInIndex (names : List Str) (index : List V) : Bool :=
  names.any fun n => decide (Val.str n ∈ index)

/-- `find_short_circuit`, find_short_circuits.py 17-34. -/
def findShortCircuit (f : FindPre) (g : GPath) : Prog Bool := do
  let labels ← loadNodeLabelsIndex g.idx
  let names ← loadRelationshipNamesIndex g.idx
  if ¬ nodeLabelIsInIndex f.labels labels = true then pure false
  else if relationshipNameIsInIndex f.relNames names = true then pure false
  else pure true

/-- What FIND returns: `None` after printing "No results", or the constant `{True: False}`. -/
inductive Found where
  | noResults
  | placeholder
deriving DecidableEq, Repr

/-- `find`, find.py 11-25. -/
def find (pf : ParsedFind) (g : GPath) (c : Option Criteria) : Prog Found := do
  let f ← liftE (processParsedFind pf c)
  let b ← findShortCircuit f g
  if ¬ b = true then pure .noResults else pure .placeholder

/-- `report`, report.py 5-6. -/
def report (_ : ParsedReport) (_ : Found) (_ : GPath) : Prog Bool := pure true

end WG
