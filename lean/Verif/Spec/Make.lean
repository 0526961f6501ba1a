/-
Specification of MAKE: what a stored record says, how the entities written in the patterns are
numbered, and what a healthy GDBMS is.
-/
import Verif.Model.Make
import Verif.Spec.Storage

namespace WG
variable [PyRuntime]

/-! ### Records -/

/-- Member of a JSON object. -/
def field (k : Str) : V → Option V
  | .dict d => dictGet k d
  | _ => none

/-- The integer of a JSON number. -/
def intOf : V → Option Int
  | .int i => some i
  | _ => none

/-- Wiggle number in the metadata of a stored node. -/
def nodeWn (v : V) : Option Int :=
  ((field c!"node_metadata" v).bind (field c!"wn")).bind intOf

/-- Wiggle number in the metadata of a stored relationship. -/
def relWn (v : V) : Option Int :=
  ((field c!"relationship_metadata" v).bind (field c!"wn")).bind intOf

/-- The creation time in the metadata of a stored node. -/
def nodeCreatedAt (v : V) : Option V := (field c!"node_metadata" v).bind (field c!"created_at")

/-- The creation time in the metadata of a stored relationship. -/
def relCreatedAt (v : V) : Option V := (field c!"relationship_metadata" v).bind (field c!"created_at")

/-- The relationships stored under a node. -/
def relationsOf (v : V) : List V :=
  match field c!"relations" v with
  | some (.list l) => l
  | _ => []

/-- `null` or an object. -/
def IsProps (v : V) : Option (Dict V) → Prop
  | none => v = .none
  | some d => v = .dict d

/-- `v` is the record of a relationship. -/
structure IsRel (v : V) (wn : Int) (name : Option Str) (src dst : Int) (props : Option (Dict V)) : Prop where
  wn : relWn v = some wn
  name : field c!"relationship_name" v = some (match name with
    | none => .none
    | some s => .str s)
  src : field c!"wn_from_node" v = some (.int src)
  dst : field c!"wn_to_node" v = some (.int dst)
  props : ∃ x, field c!"properties" v = some x ∧ IsProps x props

/-- `v` is the record of a node (without its relationships, see `relationsOf`). -/
structure IsNode (v : V) (wn : Int) (label : Str) (props : Option (Dict V)) : Prop where
  wn : nodeWn v = some wn
  label : field c!"node_label" v = some (.str label)
  props : ∃ x, field c!"properties" v = some x ∧ IsProps x props

/-- The wiggle numbers of a stored node and of its relationships. -/
def numbersOf (v : V) : List (Option Int) := nodeWn v :: (relationsOf v).map relWn

/-- All wiggle numbers in a stored graph. -/
def allNumbers (d : Dict V) : List (Option Int) := d.flatMap fun x => numbersOf x.2

/-! ### Numbering -/

omit [PyRuntime]

/-- The nodes written in a pattern. -/
def writtenNodes (p : ParsedPattern) : List PartText :=
  [p.left] ++ (if truthy p.middle.text then [p.middle] else [])
    ++ (if truthy p.right.text then [p.right] else [])

/-- The relationships written in a pattern. -/
def writtenRels (p : ParsedPattern) : List PartText :=
  (if truthy p.leftMiddle.text then [p.leftMiddle] else [])
    ++ (if truthy p.middleRight.text then [p.middleRight] else [])

/-- How many numbers a pattern needs. -/
def patSize (p : ParsedPattern) : Nat := (writtenNodes p).length + (writtenRels p).length

/-- All patterns of the MAKE statements, in order. -/
def patsOf (pml : List ParsedMake) : List ParsedPattern := pml.flatMap (·.patterns)

/-- How many numbers a list of patterns needs. -/
def totalSize (pats : List ParsedPattern) : Nat := (pats.map patSize).sum

/-- Every pattern with its first number. -/
def place : Int → List ParsedPattern → List (Int × ParsedPattern)
  | _, [] => []
  | b, p :: ps => (b, p) :: place (b + patSize p) ps

/-- Number of the left node of a pattern whose first number is `b`. -/
def leftNum (b : Int) : Int := b
/-- Number of the middle node. -/
def middleNum (b : Int) : Int := b + 1
/-- Number of the right node. -/
def rightNum (b : Int) (p : ParsedPattern) : Int := b + (if truthy p.middle.text then 2 else 1)
/-- Number of the left-middle relationship. -/
def lmNum (b : Int) (p : ParsedPattern) : Int := b + (writtenNodes p).length
/-- Number of the middle-right relationship. -/
def mrNum (b : Int) (p : ParsedPattern) : Int :=
  b + (writtenNodes p).length + (if truthy p.leftMiddle.text then 1 else 0)

/-- The relationship text ends with an arrow head. -/
def pointsRight (t : PartText) : Bool := (t.text.getD []).getLast? == some '>'

/-- The relationship text has arrow heads of both kinds. -/
def bothHeads (t : PartText) : Prop := '<' ∈ t.text.getD [] ∧ '>' ∈ t.text.getD []

/-- The pattern is well formed: every written node has a label, a relationship has a node on both
sides and not two arrow heads. -/
structure PatShape (p : ParsedPattern) : Prop where
  left : p.left.label ≠ none
  middle : truthy p.middle.text = true → p.middle.label ≠ none
  right : truthy p.right.text = true → p.right.label ≠ none
  lm : truthy p.leftMiddle.text = true → truthy p.middle.text = true ∧ ¬ bothHeads p.leftMiddle
  mr : truthy p.middleRight.text = true →
    truthy p.middle.text = true ∧ truthy p.right.text = true ∧ ¬ bothHeads p.middleRight

variable [PyRuntime]

/-- The property text of a part is readable. -/
def PropsOK (t : PartText) : Prop := ∃ props, getPropertyDict t.props = .ok props

/-- The property text of a part is readable and its values are JSON-representable. -/
def PropsSer (t : PartText) : Prop :=
  ∃ props, getPropertyDict t.props = .ok props ∧
    ∀ d, props = some d → ∀ x ∈ d, (jsonDump x.2).2 = true

/-- The property texts of the parts that MAKE reads: those of the left and middle node and of the
relationships stored under them.  (The right node is never built, see C14.) -/
structure PatProps (p : ParsedPattern) : Prop where
  left : PropsOK p.left
  middle : truthy p.middle.text = true → PropsOK p.middle
  lm : truthy p.leftMiddle.text = true → PropsOK p.leftMiddle
  mr : truthy p.middleRight.text = true → pointsRight p.middleRight = true → PropsOK p.middleRight

/-- The MAKE statements are accepted: clause, shape and properties are fine. -/
structure MakeOK (pml : List ParsedMake) : Prop where
  clause : ∀ pm ∈ pml, pm.clause = .make
  shape : ∀ p ∈ patsOf pml, PatShape p
  props : ∀ p ∈ patsOf pml, PatProps p

/-- A pattern with a relationship that MAKE stores: one between left and middle node, or one
pointing from the middle to the right node. -/
def StoresRel (p : ParsedPattern) : Prop :=
  truthy p.leftMiddle.text = true ∨ (truthy p.middleRight.text = true ∧ pointsRight p.middleRight = true)

/-- The property values of the parts MAKE stores can be written as JSON. -/
structure PatSer (p : ParsedPattern) : Prop where
  left : PropsSer p.left
  middle : truthy p.middle.text = true → PropsSer p.middle
  lm : truthy p.leftMiddle.text = true → PropsSer p.leftMiddle
  mr : truthy p.middleRight.text = true → pointsRight p.middleRight = true → PropsSer p.middleRight

/-- The numbers of the entities written in a pattern whose first number is `b`, in the documented
order. -/
def layout (b : Int) (p : ParsedPattern) : List Int :=
  [leftNum b] ++ (if truthy p.middle.text then [middleNum b] else [])
    ++ (if truthy p.right.text then [rightNum b p] else [])
    ++ (if truthy p.leftMiddle.text then [lmNum b p] else [])
    ++ (if truthy p.middleRight.text then [mrNum b p] else [])

/-- A stored node carries number, label and properties of the written one. -/
def StoredNode (d : Dict V) (wn : Int) (t : PartText) : Prop :=
  ∃ v label props, dictGet (intStr wn) d = some v ∧ t.label = some label ∧
    getPropertyDict t.props = .ok props ∧ IsNode v wn label props

/-- A stored relationship carries number, name, properties and end points of the written one, and
is kept under its source node. -/
def StoredRel (d : Dict V) (wn src dst : Int) (t : PartText) : Prop :=
  ∃ v r props, dictGet (intStr src) d = some v ∧ r ∈ relationsOf v ∧
    getPropertyDict t.props = .ok props ∧ IsRel r wn t.label src dst props

/-- No record of the graph has a key at or above the counter. -/
def BelowCounter (d : Dict V) (n : Int) : Prop := ∀ w : Int, n ≤ w → intStr w ∉ d.map Prod.fst

/-- A healthy GDBMS: the database file is as the program writes it, the index file has the
expected shape, the counter is readable, the directory exists and the three files are
different. -/
structure Healthy (fs : FS) (g : GPath) (d : Dict V) (labels names : List Str)
    (rels : Dict (List Int)) (n : Int) : Prop where
  dbText : fs.get g.db = some (jsonDump (.dict d)).1
  db : Holds fs g.db d
  idx : ∃ D, Holds fs g.idx D ∧ IndexShape D labels names rels
  wn : ∃ t, fs.get g.wn = some t ∧ t ≠ [] ∧ pyInt t = some n
  dir : DirOK fs g.wn
  db_idx : g.db ≠ g.idx
  db_wn : g.db ≠ g.wn
  idx_wn : g.idx ≠ g.wn

end WG
