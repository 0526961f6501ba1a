/-
/repo/wiggle_query_language/clauses/parsing_helpers/parse_statement_checks.py.
A check returns `True` or raises, so its model returns `Except PyErr Unit`; messages are not modelled.
-/
import Verif.Model.Props
import Verif.Model.Parsed

namespace WG
variable [PyRuntime]

/-- `for x in l: check(x)`. -/
def forEach {α : Type} (check : α → Except PyErr Unit) : List α → Except PyErr Unit
  | [] => .ok ()
  | x :: xs =>
    match check x with
    | .ok _ => forEach check xs
    | .error e => .error e

/-- `check_clause_spelling`, parse_statement_checks.py 31-55: any match of the permutation regex
raises. -/
def checkClauseSpelling (query : Str) : Clause → Except PyErr Unit
  | .make => if (makeSpelling.finditer query).isEmpty then .ok () else .error .clauseSyntax
  | .find => if (findSpelling.finditer query).isEmpty then .ok () else .error .clauseSyntax
  | .report => if (reportSpelling.finditer query).isEmpty then .ok () else .error .clauseSyntax
  | .criteria => .error .exception

/-- `check_property_syntax`, parse_statement_checks.py 58-70. -/
def checkPropertySyntax (params : Str) : Except PyErr Unit :=
  if countChar ',' params + 1 ≠ countChar ':' params then .error .paramSyntax else .ok ()

/-- `literal_eval` of one list, parse_statement_checks.py 98-103: only SyntaxError is caught. -/
def checkList (s : Str) : Except PyErr Unit :=
  match literalEval s with
  | .ok _ => .ok ()
  | .error .syntaxError => .error .paramSyntax
  | .error .valueError => .error .value
  | .error .other => .error .other

/-- Body of the inner loop of `check_node_rel_properties`, parse_statement_checks.py 84-103. -/
def checkParams (params : Str) : Except PyErr Unit :=
  match checkPropertySyntax (listValue.erase (pyKeywords params)) with
  | .error e => .error e
  | .ok _ => forEach checkList ((listValue.finditer (pyKeywords params)).map Prod.fst)

/-- Body of the outer loop of `check_node_rel_properties`, parse_statement_checks.py 80-103. -/
def checkStmtProps (stmt : Str) : Except PyErr Unit :=
  forEach checkParams ((checkProps.finditer stmt).map Prod.fst)

/-- `check_node_rel_properties`, parse_statement_checks.py 73-105. -/
def checkNodeRelProperties (stmts : List Str) : Except PyErr Unit := forEach checkStmtProps stmts

/-- Body of the inner loop of `check_relationships`, parse_statement_checks.py 119-136.  `findall`
gives the texts of the two groups; a group that took no part is an empty text. -/
def checkRel (caps : Caps) : Except PyErr Unit :=
  let pattern := (capGet 0 caps).getD []
  let name := (capGet 1 caps).getD []
  if '<' ∈ pattern ∧ '>' ∈ pattern then .error .nonDirected
  else if ¬ '<' ∈ pattern ∧ ¬ '>' ∈ pattern then .error .nonDirected
  else if ¬ isUpperStr name = true ∧ name ≠ [] then .error .relationshipName
  else .ok ()

/-- `check_relationships`, parse_statement_checks.py 108-138: the first statement without a
relationship ends the check (`return True`). -/
def checkRelationships : List Str → Except PyErr Unit
  | [] => .ok ()
  | stmt :: stmts =>
    match relDirCheck.finditer stmt with
    | [] => .ok ()
    | m :: ms =>
      match forEach (fun m => checkRel m.2) (m :: ms) with
      | .error e => .error e
      | .ok _ => checkRelationships stmts

/-- `check_illegal_characters`, parse_statement_checks.py 141-151. -/
def checkIllegalCharacters (stmts : List Str) : Except PyErr Unit :=
  forEach (fun stmt => if (illegalRe.search stmt).isSome then .error .illegalCharacter else .ok ()) stmts

/-- The three counts for one piece, parse_statement_checks.py 164-183. -/
def checkPiece (piece : Str) : Except PyErr Unit :=
  if piece.countP (fun c => c == '(' || c == ')') % 2 = 1 then .error .clauseSyntax
  else if piece.countP (fun c => c == '{' || c == '}') % 2 = 1 then .error .clauseSyntax
  else if piece.countP (fun c => c == '[' || c == ']') % 2 = 1 then .error .clauseSyntax
  else .ok ()

/-- `check_statement_syntax`, parse_statement_checks.py 154-185. -/
def checkStatementSyntax (stmts : List Str) : Except PyErr Unit :=
  forEach (fun stmt => forEach checkPiece (splitClass isAngle stmt)) stmts

/-- `validate_statement`, parse_statement_checks.py 188-199. -/
def validateStatement (stmts : List Str) : Except PyErr Unit :=
  match checkStatementSyntax stmts with
  | .error e => .error e
  | .ok _ =>
    match checkIllegalCharacters stmts with
    | .error e => .error e
    | .ok _ =>
      match checkNodeRelProperties stmts with
      | .error e => .error e
      | .ok _ => checkRelationships stmts

end WG
