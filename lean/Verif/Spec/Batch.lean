/-
The same statements, grouped and written differently.
-/
import Verif.Spec.Order
import Verif.Spec.Usable
import Verif.Spec.EndToEnd
import Verif.Model.Query

namespace WG
variable [PyRuntime]

/-- The MAKE statements pass every check, all values are JSON values and at least one relationship is stored. -/
structure Storable (ms : List ParsedMake) : Prop where
  ok : MakeOK ms
  values : ∀ p ∈ patsOf ms, PatSer p
  rel : ∃ p ∈ patsOf ms, StoresRel p

/-- Two parts of patterns that mean the same: both are there or not, with the same label (or name) and properties that are read as the
same.  Handles, white space and the number of dashes may differ. -/
structure AlikePart (t t' : PartText) : Prop where
  there : truthy t.text = truthy t'.text
  label : t.label = t'.label
  props : getPropertyDict t.props = getPropertyDict t'.props

/-- Two patterns that mean the same. -/
structure AlikePattern (p p' : ParsedPattern) : Prop where
  left : AlikePart p.left p'.left
  middle : AlikePart p.middle p'.middle
  right : AlikePart p.right p'.right
  lm : AlikePart p.leftMiddle p'.leftMiddle
  mr : AlikePart p.middleRight p'.middleRight
  lmWay : pointsRight p.leftMiddle = pointsRight p'.leftMiddle
  mrWay : pointsRight p.middleRight = pointsRight p'.middleRight
  lmHeads : bothHeads p.leftMiddle ↔ bothHeads p'.leftMiddle
  mrHeads : bothHeads p.middleRight ↔ bothHeads p'.middleRight

/-- Pattern for pattern. -/
def AlikeAll : List ParsedPattern → List ParsedPattern → Prop
  | [], [] => True
  | p :: ps, p' :: ps' => AlikePattern p p' ∧ AlikeAll ps ps'
  | _, _ => False

/-- What the query adds to the graph are the statements `ms`: it has them and they can be stored, or it has none that pass the checks. -/
def Adds (q : Str) (ms : List ParsedMake) : Prop :=
  (Makes q ms ∧ Storable ms) ∨ (ms = [] ∧ ∀ m, Makes q m → ¬ MakeOK m)

/-- The disk after some queries, each by a process (or at a moment) of its own. -/
def afterQueries (g : GPath) : List (Env × Str) → FS → FS
  | [], fs => fs
  | (env, q) :: l, fs => afterQueries g l ((query env q g).run fs).2

/-- The queries, in order, add these statements. -/
def AddAll : List (Env × Str) → List ParsedMake → Prop
  | [], ms => ms = []
  | (_, q) :: l, ms => ∃ m1 m2, ms = m1 ++ m2 ∧ Adds q m1 ∧ AddAll l m2

/-! ### As written -/

/-- Two texts of properties with the same names and values, in the same order.  White space, the kind of quotes and the spelling of
`true`, `false` and `null` may differ. -/
def SameProps (o o' : Option Str) : Prop :=
  (o = none ∧ o' = none) ∨ ∃ (l l' : List (PropText × V)) (sp sp' : Str),
    o = some (renderProps (l.map Prod.fst) ++ sp) ∧ o' = some (renderProps (l'.map Prod.fst) ++ sp') ∧
    sp.all isSpace = true ∧ sp'.all isSpace = true ∧ (∀ x ∈ l, x.1.OK ∧ x.1.lit.Means x.2) ∧ (∀ x ∈ l', x.1.OK ∧ x.1.lit.Means x.2) ∧
    l.map (fun x => (x.1.name, x.2)) = l'.map fun x => (x.1.name, x.2)

/-- Two nodes with the same label and properties. -/
def SameNode (n n' : NodeText) : Prop := n.label = n'.label ∧ SameProps n.props n'.props

/-- Two relationships with the same name, properties and direction, both with white space behind the arrow or both without. -/
def SameRel (r r' : RelText) : Prop :=
  r.nameStr = r'.nameStr ∧ SameProps r.props r'.props ∧ r.toRight = r'.toRight ∧ (r.sp3 = [] ↔ r'.sp3 = [])

/-- Two patterns that say the same: handles, white space and the number of dashes may differ. -/
def SameChain : ChainText → ChainText → Prop
  | .one n, .one n' => SameNode n n'
  | .two n r m, .two n' r' m' => SameNode n n' ∧ SameRel r r' ∧ SameNode m m'
  | .three n r m s k, .three n' r' m' s' k' => SameNode n n' ∧ SameRel r r' ∧ SameNode m m' ∧ SameRel s s' ∧ SameNode k k'
  | _, _ => False

/-- Pattern for pattern. -/
def SameChains : List ChainText → List ChainText → Prop
  | [], [] => True
  | c :: cs, c' :: cs' => SameChain c c' ∧ SameChains cs cs'
  | _, _ => False

/-- A query as written and the process that executes it. -/
structure Batch where
  env : Env
  lines : List Line
  find : StmtText

/-- It is well formed, and if it has a MAKE, one of the patterns has a relationship. -/
structure Batch.OK (b : Batch) : Prop where
  good : QueryGood b.lines b.find
  rel : makesOf b.lines = [] ∨ ∃ c ∈ makeChains b.lines, c.rels ≠ []

end WG
