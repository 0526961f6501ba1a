/-
Statements in a row on one line.
-/
import Verif.Spec.Actual
import Verif.Spec.Gdbms
import Verif.Model.Shell

namespace WG
variable [PyRuntime]

/-- What may stand before and between the statements of a row, such as blanks or `REPORT a; `: any text of one line without brackets,
arrows and illegal characters and without the words `make` and `find`. -/
structure Between (t : Str) : Prop where
  chars : ∀ c ∈ t, c ∉ c!"\n()[]{}<>-#%&*$"
  make : NoKeyword c!"make" t
  find : NoKeyword c!"find" t

/-- White space occurs in the text. -/
def HasBlank (t : Str) : Prop := ∃ c ∈ t, isSpace c = true

/-- A statement in a row: the text before it, whether it is a MAKE (otherwise it is a FIND), and the statement. -/
structure RowStmt where
  gap : Str
  isMake : Bool
  stmt : StmtText

/-- A text without meaning, and a statement that is as it should be but for arrow heads and names. -/
structure RowStmt.Loose (x : RowStmt) : Prop where
  gap : Between x.gap
  sp : '\n' ∉ x.stmt.sp
  make : x.isMake = true → x.stmt.Loose c!"MAKE" c!"make"
  find : x.isMake = false → x.stmt.Loose c!"FIND" c!"find"

/-- The text of a row. -/
def renderRow : List RowStmt → Str
  | [] => []
  | x :: l => x.gap ++ (x.stmt.render ++ renderRow l)

/-- The statements from the first MAKE on. -/
def fromMake (l : List RowStmt) : List RowStmt := l.dropWhile fun x => !x.isMake

/-- The statements from the first FIND on. -/
def fromFind (l : List RowStmt) : List RowStmt := l.dropWhile fun x => x.isMake

/-- The patterns of the statements, be they MAKE or FIND. -/
def rowChains (l : List RowStmt) : List ChainText := l.flatMap fun x => x.stmt.chains

/-- Their relationships. -/
def rowRels (l : List RowStmt) : List RelText := l.flatMap fun x => x.stmt.rels

/-- A row that is refused: it has no FIND, or a relationship anywhere in it is wrong, or there is white space between two
statements behind the first MAKE. -/
def RowRefused (l : List RowStmt) : Prop :=
  (∀ x ∈ l, x.isMake = true) ∨ (∃ r ∈ rowRels l, ¬ r.Proper) ∨ ∃ x ∈ (fromMake l).tail, HasBlank x.gap

/-- The first FIND of a row. -/
def rowFind (l : List RowStmt) : Option StmtText := (fromFind l).head?.map RowStmt.stmt

end WG
