/-
What a written query should store.
-/
import Verif.Spec.Query
import Verif.Spec.Make
import Verif.Model.Query

namespace WG
variable [PyRuntime]

/-- The properties that a property text stands for: none, or the written names with the values of their last
occurrences. -/
def PropsMean : Option Str → Option (Dict V) → Prop
  | none, o => o = none
  | some p, o => ∃ (l : List (PropText × V)) (sp : Str) (d : Dict V), p = renderProps (l.map Prod.fst) ++ sp ∧
      (∀ x ∈ l, x.1.OK ∧ x.1.lit.Means x.2) ∧ sp.all isSpace = true ∧ o = some d ∧ (d.map Prod.fst).Nodup ∧
      (∀ k, k ∈ d.map Prod.fst ↔ ∃ x ∈ l, x.1.name = k) ∧ ∀ k, dictGet k d = lastValue k (l.map fun x => (x.1.name, x.2))

/-- `v` is the record of the written node, with number `wn`. -/
def NodeRecord (v : V) (wn : Int) (n : NodeText) : Prop := ∃ props, PropsMean n.props props ∧ IsNode v wn n.label props

/-- The name of a written relationship. -/
def RelText.nameStr (r : RelText) : Str := match r.name with
  | none => []
  | some (_, l, _) => l

/-- `v` is the record of the written relationship between the nodes with numbers `src` and `dst`, with number `wn`. -/
def RelRecord (v : V) (wn : Int) (r : RelText) (src dst : Int) : Prop :=
  ∃ props, PropsMean r.props props ∧ IsRel v wn (some r.nameStr) src dst props

/-- `rs`, `rs'` are the relationships kept under two nodes `a`, `b` for the relationship written between them. -/
def RelKept (rs rs' : List V) (wn : Int) (r : RelText) (a b : Int) : Prop :=
  ∃ x, if r.toRight then rs = [x] ∧ rs' = [] ∧ RelRecord x wn r a b else rs = [] ∧ rs' = [x] ∧ RelRecord x wn r b a

/-- How many numbers a pattern takes. -/
def ChainText.size : ChainText → Nat
  | .one _ => 1
  | .two _ _ _ => 3
  | .three _ _ _ _ _ => 5

/-- The records of a pattern whose first number is `b`: nodes first, then relationships. -/
def ChainRecords (b : Int) : ChainText → Dict V → Prop
  | .one n, new => ∃ v, new = [(intStr b, v)] ∧ NodeRecord v b n ∧ relationsOf v = []
  | .two n r m, new => ∃ v w, new = [(intStr b, v), (intStr (b + 1), w)] ∧ NodeRecord v b n ∧ NodeRecord w (b + 1) m ∧
      RelKept (relationsOf v) (relationsOf w) (b + 2) r b (b + 1)
  | .three n r m r' m', new => ∃ v w u w1 w2, new = [(intStr b, v), (intStr (b + 1), w), (intStr (b + 2), u)] ∧
      NodeRecord v b n ∧ NodeRecord w (b + 1) m ∧ NodeRecord u (b + 2) m' ∧ relationsOf w = w1 ++ w2 ∧
      RelKept (relationsOf v) w1 (b + 3) r b (b + 1) ∧ RelKept w2 (relationsOf u) (b + 4) r' (b + 1) (b + 2)

/-- The records of several patterns, if `R` says what the records of one pattern are. -/
def Records (R : Int → ChainText → Dict V → Prop) : Int → List ChainText → Dict V → Prop
  | _, [], new => new = []
  | b, c :: cs, new => ∃ x y, new = x ++ y ∧ R b c x ∧ Records R (b + c.size) cs y

/-- The records of several patterns. -/
def AllRecords (b : Int) (cs : List ChainText) (new : Dict V) : Prop := Records ChainRecords b cs new

/-- How many numbers several patterns take. -/
def sizeOfAll (cs : List ChainText) : Nat := (cs.map ChainText.size).sum

/-- The labels of a pattern. -/
def ChainText.labels : ChainText → List Str
  | .one n => [n.label]
  | .two n _ m => [n.label, m.label]
  | .three n _ m _ m' => [n.label, m.label, m'.label]

/-- The patterns of the MAKE statements of a query. -/
def makeChains (l : List Line) : List ChainText := (makesOf l).flatMap StmtText.chains

/-- Patterns that are stored as written: one node, or two nodes and a relationship without white space behind
its arrow. -/
def ChainText.Short : ChainText → Prop
  | .one _ => True
  | .two _ r _ => r.sp3 = []
  | .three _ _ _ _ _ => False

/-- Patterns that FIND accepts: one node or three. -/
def ChainText.Findable : ChainText → Prop
  | .two _ _ _ => False
  | _ => True

/-- A query that is executed: well formed, FIND and MAKE patterns as above, and if there is a MAKE, there is a
relationship. -/
structure Runnable (l : List Line) (f : StmtText) : Prop where
  good : QueryGood l f
  find : f.first.Findable
  short : ∀ c ∈ makeChains l, c.Short
  rel : makesOf l = [] ∨ ∃ c ∈ makeChains l, c.rels ≠ []

/-- The query text. -/
def queryText (l : List Line) : Str := joinLines (l.map Line.render)

/-- A query as it can be typed in the shell, on one line: a FIND and, behind it, perhaps a MAKE. -/
structure TypedText where
  find : StmtText
  gap : Str
  make : Option StmtText

/-- Its text. -/
def TypedText.render (t : TypedText) : Str := t.find.render ++ (match t.make with
  | none => []
  | some m => t.gap ++ m.render)

/-- Well-formed statements on one line with blanks between them; no arrangement of the letters of "report" occurs. -/
structure TypedText.Good (t : TypedText) : Prop where
  find : t.find.Good c!"FIND" c!"find"
  gap : Indent t.gap
  make : ∀ m, t.make = some m → m.Good c!"MAKE" c!"make"
  report : NoAnagram c!"report" t.render
  line : '\n' ∉ t.render

/-- The patterns of its MAKE. -/
def TypedText.chains (t : TypedText) : List ChainText := t.make.toList.flatMap StmtText.chains

/-- A typed query that is executed: as `Runnable`. -/
structure TypedText.Runnable (t : TypedText) : Prop where
  good : t.Good
  find : t.find.first.Findable
  short : ∀ c ∈ t.chains, c.Short
  rel : t.make = none ∨ ∃ c ∈ t.chains, c.rels ≠ []

/-- A MAKE and, on the same line behind it, a FIND. -/
def makeFirst (m : StmtText) (gap : Str) (f : StmtText) : Str := m.render ++ (gap ++ f.render)

/-- The index after adding the records `new` of the patterns `cs`. -/
structure Indexed (cs : List ChainText) (new : Dict V) (labels names : List Str) (rels : Dict (List Int))
    (labels' names' : List Str) (rels' : Dict (List Int)) : Prop where
  labels : ∀ x, x ∈ labels' ↔ x ∈ labels ∨ ∃ c ∈ cs, x ∈ c.labels
  names : ∀ x, x ∈ names' ↔ x ∈ names ∨ x ≠ [] ∧ ∃ c ∈ cs, ∃ r ∈ c.rels, r.nameStr = x
  rels : ∀ k m, m ∈ relsOf rels' k ↔ m ∈ relsOf rels k ∨ ∃ v, (k, v) ∈ new ∧ ∃ r ∈ relationsOf v, relWn r = some m

/-- The query returns true and stores exactly the patterns `cs`, in database, index and counter. -/
def Stores (env : Env) (q : Str) (g : GPath) (fs : FS) (d : Dict V) (labels names : List Str) (rels : Dict (List Int)) (n : Int)
    (cs : List ChainText) : Prop :=
  ∃ fs' new labels' names' rels', (query env q g).run fs = (.ok true, fs') ∧
    Healthy fs' g (d ++ new) labels' names' rels' (n + sizeOfAll cs) ∧ BelowCounter (d ++ new) (n + sizeOfAll cs) ∧
    AllRecords n cs new ∧ Indexed cs new labels names rels labels' names' rels' ∧
    ∀ p, p ≠ g.db → p ≠ g.idx → p ≠ g.wn → fs'.get p = fs.get p

end WG
