/-
Queries of several lines with any number of statements on each line.
-/
import Verif.Spec.Row

namespace WG
variable [PyRuntime]

/-- The text of a query: its lines, each a row of statements (an empty row is an empty line). -/
def pageText (p : List (List RowStmt)) : Str := joinLines (p.map renderRow)

/-- A text of a page: the same lines, each with a remark behind it that is not meant for MAKE or FIND, such as a REPORT. -/
def PageOf (p : List (List RowStmt)) (q : Str) : Prop :=
  ∃ ts : List Str, ts.length = p.length ∧ (∀ t ∈ ts, Remark t) ∧ q = joinLines (List.zipWith (fun l t => renderRow l ++ t) p ts)

/-- The lines with a MAKE, from that MAKE on. -/
def makeRows (p : List (List RowStmt)) : List (List RowStmt) := (p.map fromMake).filter fun l => !l.isEmpty

/-- The lines with a FIND, from that FIND on. -/
def findRows (p : List (List RowStmt)) : List (List RowStmt) := (p.map fromFind).filter fun l => !l.isEmpty

/-- The lines whose relationships are checked: the check stops for good at a line without a relationship. -/
def checkedRows (p : List (List RowStmt)) : List (List RowStmt) := (makeRows p).takeWhile fun l => !(rowRels l).isEmpty

/-- The patterns that a query stores. -/
def pageChains (p : List (List RowStmt)) : List ChainText := (makeRows p).flatMap rowChains

/-- A query that is refused: it does not have exactly one line with a FIND; or behind the FIND on its line, or behind the MAKE on a line
that is checked, there is a wrong relationship; or any relationship to be stored has two arrow heads; or there is white space between
two statements behind the first MAKE of a line. -/
def PageRefused (p : List (List RowStmt)) : Prop :=
  (findRows p).length ≠ 1 ∨ (∃ l ∈ findRows p ++ checkedRows p, ∃ r ∈ rowRels l, ¬ r.Proper) ∨
    (∃ l ∈ makeRows p, ∃ r ∈ rowRels l, r.toLeft = true ∧ r.toRight = true) ∨ ∃ l ∈ makeRows p, ∃ x ∈ l.tail, HasBlank x.gap

/-- The first FIND of a query. -/
def pageFind (p : List (List RowStmt)) : Option StmtText := (findRows p).head?.bind fun l => l.head?.map RowStmt.stmt

end WG
