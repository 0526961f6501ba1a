/-
/repo/models/wql/parsing/parsed_query.py and /repo/models/wql/enums/clauses.py.
The 20 optional fields of `ParsedPattern` are grouped into five parts of four fields each
(whole text, handle, label, props).
-/
import Verif.Py.Basic

namespace WG

/-- `Clause`, models/wql/enums/clauses.py 4-8. -/
inductive Clause where
  | find | make | criteria | report
deriving DecidableEq, Repr

/-- Truth value of an `Optional[str]`. -/
def truthy : Option Str → Bool
  | some (_ :: _) => true
  | _ => false

/-- Four fields of `ParsedPattern`: e.g. `left_node`, `left_node_handle`, `left_node_label`,
`left_node_props`. -/
structure PartText where
  text : Option Str
  handle : Option Str
  label : Option Str
  props : Option Str
deriving DecidableEq, Repr

/-- A part that did not take part in the match. -/
def PartText.absent : PartText := ⟨none, none, none, none⟩

/-- `ParsedPattern`, parsed_query.py 31-51. -/
structure ParsedPattern where
  left : PartText
  leftMiddle : PartText
  middle : PartText
  middleRight : PartText
  right : PartText
deriving DecidableEq, Repr

/-- The parts, in field order. -/
def ParsedPattern.parts (p : ParsedPattern) : List PartText :=
  [p.left, p.leftMiddle, p.middle, p.middleRight, p.right]

/-- Non-empty handles in field order, parsed_query.py 79 (`handle_names`). -/
def ParsedPattern.handleNames (p : ParsedPattern) : List Str :=
  p.parts.filterMap fun t => if truthy t.handle then t.handle else none

/-- `validate_handles`, parsed_query.py 77-86 (root validator: MakeDuplicateHandlesError is not a
ValueError, so it propagates as it is). -/
def ParsedPattern.validate (p : ParsedPattern) : Except PyErr ParsedPattern :=
  if p.handleNames.Nodup then .ok p else .error .makeDuplicateHandles

/-- `pattern_handles`, parsed_query.py 73-75 (a set; kept as a list). -/
def ParsedPattern.patternHandles (p : ParsedPattern) : List Str := p.handleNames

/-- `number_of_nodes`, parsed_query.py 53-60. -/
def ParsedPattern.numberOfNodes (p : ParsedPattern) : Nat :=
  (truthy p.left.text).toNat + (truthy p.middle.text).toNat + (truthy p.right.text).toNat

/-- `number_of_relationships`, parsed_query.py 62-68. -/
def ParsedPattern.numberOfRelationships (p : ParsedPattern) : Nat :=
  (truthy p.leftMiddle.text).toNat + (truthy p.middleRight.text).toNat

/-- `ParsedMake`, parsed_query.py 89-92. -/
structure ParsedMake where
  rawStatement : Str
  clause : Clause
  patterns : List ParsedPattern
deriving DecidableEq, Repr

/-- `ParsedFind`, parsed_query.py 95-102 (`parsed_pattern_handles` is determined by the
pattern). -/
structure ParsedFind where
  rawStatement : Str
  clause : Clause
  pattern : ParsedPattern
deriving DecidableEq, Repr

/-- `ParsedReport`, parsed_query.py 120-126. -/
structure ParsedReport where
  rawStatement : Str
  clause : Clause
  extracted : Str
deriving DecidableEq, Repr

end WG
