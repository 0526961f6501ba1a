/-
Queries as they are written: at most one statement on each line.
-/
import Verif.Spec.Pattern
import Verif.Spec.Literal
import Verif.Spec.Parse

namespace WG
variable [PyRuntime]

/-- A text of properties that can be read back: a property list, and white space behind it. -/
def GoodProps (o : Option Str) : Prop :=
  ∀ p, o = some p → ∃ l sp, p = renderProps l ++ sp ∧ (∀ x ∈ l, x.OK) ∧ sp.all isSpace = true

/-- A node whose properties can be read back. -/
def NodeText.Good (n : NodeText) : Prop := n.OK ∧ GoodProps n.props

/-- A relationship with one arrow head, a name in upper case or none, and properties that can be read back. -/
def RelText.Good (r : RelText) : Prop :=
  r.OK ∧ GoodProps r.props ∧ r.toLeft = !r.toRight ∧ ∀ a l b, r.name = some (a, l, b) → l ≠ [] → isUpperStr l = true

/-- A relationship with properties that can be read back, whatever its arrow heads and its name. -/
def RelText.Loose (r : RelText) : Prop := r.OK ∧ GoodProps r.props

/-- One arrow head, and a name in upper case or none. -/
def RelText.Proper (r : RelText) : Prop :=
  r.toLeft = !r.toRight ∧ ∀ a l b, r.name = some (a, l, b) → l ≠ [] → isUpperStr l = true

/-- A pattern of such parts. -/
def ChainText.Loose : ChainText → Prop
  | .one n => n.Good
  | .two n r m => n.Good ∧ r.Loose ∧ m.Good
  | .three n r m r' m' => n.Good ∧ r.Loose ∧ m.Good ∧ r'.Loose ∧ m'.Good

/-- A relationship that MAKE itself accepts: not two arrow heads. -/
def RelText.Storable (r : RelText) : Prop := r.OK ∧ GoodProps r.props ∧ ¬ (r.toLeft = true ∧ r.toRight = true)

/-- A pattern of such parts. -/
def ChainText.Storable : ChainText → Prop
  | .one n => n.Good
  | .two n r m => n.Good ∧ r.Storable ∧ m.Good
  | .three n r m r' m' => n.Good ∧ r.Storable ∧ m.Good ∧ r'.Storable ∧ m'.Good

/-- A pattern of such parts with proper relationships. -/
def ChainText.Good : ChainText → Prop
  | .one n => n.Good
  | .two n r m => n.Good ∧ r.Good ∧ m.Good
  | .three n r m r' m' => n.Good ∧ r.Good ∧ m.Good ∧ r'.Good ∧ m'.Good

/-- Its handles. -/
def ChainText.handles : ChainText → List Str
  | .one n => [n.handle]
  | .two n r m => [n.handle, r.handle, m.handle]
  | .three n r m r' m' => [n.handle, r.handle, m.handle, r'.handle, m'.handle]

/-- The relationships of a pattern. -/
def ChainText.rels : ChainText → List RelText
  | .one _ => []
  | .two _ r _ => [r]
  | .three _ r _ r' _ => [r, r']

/-- Its last node. -/
def ChainText.last : ChainText → NodeText
  | .one n => n
  | .two _ _ m => m
  | .three _ _ _ _ m' => m'

/-- A statement as written: keyword, white space, a pattern, further patterns, each behind a comma and white
space, `;`. -/
structure StmtText where
  kw : Str
  sp : Str
  first : ChainText
  rest : List (Str × ChainText)

/-- Its patterns. -/
def StmtText.chains (t : StmtText) : List ChainText := t.first :: t.rest.map Prod.snd

/-- The further patterns as written. -/
def renderRest : List (Str × ChainText) → Str
  | [] => []
  | (sp, c) :: l => ',' :: (sp ++ (c.render ++ renderRest l))

/-- Its text. -/
def StmtText.render (t : StmtText) : Str := t.kw ++ (t.sp ++ (t.first.render ++ (renderRest t.rest ++ c!";")))

/-- The keyword is in upper or in lower case, no white space before the semicolon, and the handles within a pattern
are distinct (parts may go without a handle). -/
structure StmtText.Written (up low : Str) (t : StmtText) : Prop where
  kw : t.kw = up ∨ t.kw = low
  sp : t.sp.all isSpace = true
  rest : ∀ x ∈ t.rest, x.1.all isSpace = true
  chains : ∀ c ∈ t.chains, c.Good ∧ (c.handles.filter fun h => !h.isEmpty).Nodup
  close : ∀ c, t.chains.getLast? = some c → c.last.sp5 = []

/-- The same for any arrow heads and names. -/
structure StmtText.LooselyWritten (up low : Str) (t : StmtText) : Prop where
  kw : t.kw = up ∨ t.kw = low
  sp : t.sp.all isSpace = true
  rest : ∀ x ∈ t.rest, x.1.all isSpace = true
  chains : ∀ c ∈ t.chains, c.Loose ∧ (c.handles.filter fun h => !h.isEmpty).Nodup
  close : ∀ c, t.chains.getLast? = some c → c.last.sp5 = []

/-- A statement whose patterns stand on one line, with any arrow heads and names. -/
structure StmtText.Loose (up low : Str) (t : StmtText) : Prop extends StmtText.LooselyWritten up low t where
  line : '\n' ∉ t.first.render ++ renderRest t.rest

/-- A statement whose patterns stand on one line. -/
structure StmtText.Good (up low : Str) (t : StmtText) : Prop extends StmtText.Written up low t where
  line : '\n' ∉ t.first.render ++ renderRest t.rest

/-- A statement whose patterns stand on several lines. -/
structure StmtText.Split (up low : Str) (t : StmtText) : Prop extends StmtText.Written up low t where
  lines : '\n' ∈ t.first.render ++ renderRest t.rest

/-- A remark behind a statement: on the same line, without parentheses and without the words `make` and `find`. -/
structure Remark (t : Str) : Prop where
  line : '\n' ∉ t
  paren : '(' ∉ t ∧ ')' ∉ t
  make : NoKeyword c!"make" t
  find : NoKeyword c!"find" t

/-- Lines that contain no statement `MAKE (...);` or `FIND (...);` and do not end with one of these words. -/
structure Stray (t : Str) : Prop where
  make : NoStatement c!"make" t
  find : NoStatement c!"find" t
  last : ∀ a w sp, t = a ++ w ++ sp → sp.all isSpace = true → ¬ CISpelling c!"make" w ∧ ¬ CISpelling c!"find" w

/-- No `(` in the text stands behind one of the letters of `make` or the last letter of `find`, with or without white
space between them. -/
def QuietParens (t : Str) : Prop :=
  ∀ a c sp b, t = a ++ c :: (sp ++ '(' :: b) → sp.all isSpace = true → isSpace c = false → ∀ k ∈ c!"maked", sameLetter k c = false

/-- What stands on a line of a query: a MAKE, a FIND, a REPORT (keyword and the text up to the semicolon), or
something else. -/
inductive LineText where
  | make (t : StmtText)
  | find (t : StmtText)
  | report (kw body : Str)
  | other (t : Str)

/-- Its text. -/
def LineText.render : LineText → Str
  | .make t => t.render
  | .find t => t.render
  | .report kw body => kw ++ (body ++ c!";")
  | .other t => t

/-- The statement is as it should be. -/
def LineText.Good : LineText → Prop
  | .make t => t.Good c!"MAKE" c!"make"
  | .find t => t.Good c!"FIND" c!"find"
  | .report kw body => (kw = c!"REPORT" ∨ kw = c!"report") ∧ body ≠ [] ∧ '\n' ∉ body ∧ QuietParens (kw ++ body)
  | .other t => Stray t

/-- The statement is as it should be but for arrow heads and names. -/
def LineText.Loose : LineText → Prop
  | .make t => t.Loose c!"MAKE" c!"make"
  | .find t => t.Loose c!"FIND" c!"find"
  | .report kw body => (kw = c!"REPORT" ∨ kw = c!"report") ∧ body ≠ [] ∧ '\n' ∉ body ∧ QuietParens (kw ++ body)
  | .other t => Stray t

/-- A line of a query: indentation, statement, remark. -/
structure Line where
  ind : Str := []
  text : LineText
  tail : Str := []

/-- Its text. -/
def Line.render (x : Line) : Str := x.ind ++ (x.text.render ++ x.tail)

/-- Blanks, a good statement, a remark; no semicolon behind a REPORT. -/
structure Line.Good (x : Line) : Prop where
  ind : Indent x.ind
  text : x.text.Good
  tail : Remark x.tail
  semi : ∀ kw body, x.text = .report kw body → ';' ∉ x.tail
  bare : ∀ t, x.text = .other t → x.tail = []

/-- The same for any arrow heads and names. -/
structure Line.Loose (x : Line) : Prop where
  ind : Indent x.ind
  text : x.text.Loose
  tail : Remark x.tail
  semi : ∀ kw body, x.text = .report kw body → ';' ∉ x.tail
  bare : ∀ t, x.text = .other t → x.tail = []

/-- What stands on the line outside a REPORT. -/
def Line.outside (x : Line) : Str := match x.text with
  | .report _ _ => x.tail
  | _ => x.render

/-- The MAKE statements of a query. -/
def makesOf (l : List Line) : List StmtText := l.filterMap fun x => match x.text with
  | .make t => some t
  | _ => none

/-- The FIND statements of a query. -/
def findsOf (l : List Line) : List StmtText := l.filterMap fun x => match x.text with
  | .find t => some t
  | _ => none

/-- The REPORT statements of a query. -/
def reportsOf (l : List Line) : List Str := l.filterMap fun x => match x.text with
  | .report kw body => some (kw ++ (body ++ c!";"))
  | _ => none

/-- No arrangement of the letters of the keyword occurs in the text, in any case. -/
def NoAnagram (kw t : Str) : Prop := ∀ a w b, t = a ++ w ++ b → ∀ kw' : Str, kw'.Perm kw → ¬ CISpelling kw' w

/-- A well-formed query: good lines, one FIND, at most one REPORT, no parentheses outside statements unless there is a
MAKE.  The REPORT names the handles of the FIND and
the word does not occur elsewhere; without a REPORT no arrangement of its letters occurs. -/
structure QueryGood (l : List Line) (f : StmtText) : Prop where
  lines : ∀ x ∈ l, x.Good
  find : findsOf l = [f]
  quiet : makesOf l = [] → ∀ x ∈ l, ∀ t, x.text = .other t → '(' ∉ t
  report : (reportsOf l = [] ∧ NoAnagram c!"report" (joinLines (l.map Line.render))) ∨
    (∃ r, reportsOf l = [r] ∧ (∀ h ∈ f.first.handles, h <:+: r) ∧ ∀ x ∈ l, NoKeyword c!"report" x.outside)

/-- The same for any arrow heads and names. -/
structure QueryLoose (l : List Line) (f : StmtText) : Prop where
  lines : ∀ x ∈ l, x.Loose
  find : findsOf l = [f]
  quiet : makesOf l = [] → ∀ x ∈ l, ∀ t, x.text = .other t → '(' ∉ t
  report : (reportsOf l = [] ∧ NoAnagram c!"report" (joinLines (l.map Line.render))) ∨
    (∃ r, reportsOf l = [r] ∧ (∀ h ∈ f.first.handles, h <:+: r) ∧ ∀ x ∈ l, NoKeyword c!"report" x.outside)

/-- The relationships of a statement. -/
def StmtText.rels (t : StmtText) : List RelText := t.chains.flatMap ChainText.rels

/-- The exception for a relationship that is not proper. -/
def RelText.fault (r : RelText) : Option PyErr :=
  if r.toLeft = r.toRight then some .nonDirected
  else match r.name with
    | none => none
    | some (_, l, _) => if l ≠ [] ∧ isUpperStr l = false then some .relationshipName else none

/-- The statements before the first one without a relationship. -/
def checkedStmts (l : List StmtText) : List StmtText := l.takeWhile fun t => !t.rels.isEmpty

/-- The exception for the first relationship of the statements that is not proper. -/
def firstFault (l : List StmtText) : Option PyErr := (l.flatMap StmtText.rels).findSome? RelText.fault

end WG
