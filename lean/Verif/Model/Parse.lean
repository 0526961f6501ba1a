/-
Extraction and parsing of the statements of a query:
/repo/wiggle_query_language/clauses/parsing_helpers/extract_statements.py,
clauses/make/parse_make/parse_make_statement.py, clauses/find/parse_find/parse_find_statement.py,
clauses/report/parse_report/parse_report_statement.py, and the pydantic validation of
/repo/models/wql/parsing/parsed_query.py.
-/
import Verif.Model.Checks

namespace WG
variable [PyRuntime]

/-- `extract_all_statements`, extract_statements.py 18-40. -/
def extractAllStatements (query : Str) (clause : Clause) : Except PyErr (Option (List Str)) :=
  match (match clause with
    | .make => some makeAll
    | .find => some findAll
    | .report => some reportAll
    | .criteria => none) with
  | none => .error .exception
  | some re =>
    match (re.finditer query).map Prod.fst with
    | s :: ss => .ok (some (s :: ss))
    | [] =>
      match checkClauseSpelling query clause with
      | .error e => .error e
      | .ok _ => .ok none

/-- The four groups of part `i` in `groupdict()`. -/
def partOf (i : Nat) (caps : Caps) : PartText :=
  ⟨capGet (gAll i) caps, capGet (gHandle i) caps, capGet (gLabel i) caps, capGet (gProps i) caps⟩

/-- `x.groupdict()` of a match of NODES_RELS_PATTERN_REGEX as the fields of a `ParsedPattern`. -/
def patternOf (caps : Caps) : ParsedPattern :=
  ⟨partOf 0 caps, partOf 1 caps, partOf 2 caps, partOf 3 caps, partOf 4 caps⟩

/-- The patterns of a statement, parse_make_statement.py 21-23 and parse_find_statement.py 22-24:
the non-empty matches. -/
def statementPatterns (stmt : Str) : List ParsedPattern :=
  ((nodesRelsPattern.finditer stmt).filter fun m => !m.1.isEmpty).map fun m => patternOf m.2

/-- Validation of a list of patterns: the first invalid one raises. -/
def validatePatterns : List ParsedPattern → Except PyErr (List ParsedPattern)
  | [] => .ok []
  | p :: ps =>
    match p.validate with
    | .error e => .error e
    | .ok p =>
      match validatePatterns ps with
      | .error e => .error e
      | .ok ps => .ok (p :: ps)

/-- `build_parsed_make`, parse_make_statement.py 15-29.  The error of the root validator of
`ParsedPattern` propagates at once, the failed `regex` of `raw_statement` is only reported after all
fields. -/
def buildParsedMake (stmt : Str) : Except PyErr ParsedMake :=
  match validatePatterns (statementPatterns stmt) with
  | .error e => .error e
  | .ok ps =>
    if (makeAllCS.matchAt stmt).isSome then .ok { rawStatement := stmt, clause := .make, patterns := ps }
    else .error .validation

/-- The list comprehension, parse_make_statement.py 47. -/
def buildParsedMakes : List Str → Except PyErr (List ParsedMake)
  | [] => .ok []
  | s :: ss =>
    match buildParsedMake s with
    | .error e => .error e
    | .ok m =>
      match buildParsedMakes ss with
      | .error e => .error e
      | .ok ms => .ok (m :: ms)

/-- `parse_make_statement_from_query_string`, parse_make_statement.py 32-49. -/
def parseMake (query : Str) : Except PyErr (Option (List ParsedMake)) :=
  match extractAllStatements query .make with
  | .error e => .error e
  | .ok none => .ok none
  | .ok (some stmts) =>
    match validateStatement stmts with
    | .error e => .error e
    | .ok _ =>
      match buildParsedMakes stmts with
      | .error e => .error e
      | .ok ms => .ok (some ms)

/-- `build_parsed_find`, parse_find_statement.py 16-33: only the first pattern is used; without one
`[0]` raises IndexError. -/
def buildParsedFind (stmt : Str) : Except PyErr ParsedFind :=
  match statementPatterns stmt with
  | [] => .error .index
  | p :: _ =>
    match p.validate with
    | .error e => .error e
    | .ok p =>
      if (findAllCS.matchAt stmt).isSome then .ok { rawStatement := stmt, clause := .find, pattern := p }
      else .error .validation

/-- `parse_find_statement_from_query_string`, parse_find_statement.py 36-57. -/
def parseFind (query : Str) : Except PyErr (Option ParsedFind) :=
  match extractAllStatements query .find with
  | .error e => .error e
  | .ok none => .ok none
  | .ok (some []) => .ok none
  | .ok (some (s :: ss)) =>
    if ss ≠ [] then .error .multipleClause
    else match validateStatement [s] with
      | .error e => .error e
      | .ok _ =>
        match buildParsedFind s with
        | .error e => .error e
        | .ok f => .ok (some f)

/-- `check_find_report_handles`, parse_report_statement.py 11-19: a substring test for every
handle. -/
def checkFindReportHandles (handles : List Str) (report : Str) : Except PyErr Unit :=
  if handles.all fun h => isSubstr h report then .ok () else .error .findReportHandle

/-- `parse_report_statement_from_query_string`, parse_report_statement.py 28-54. -/
def parseReport (query : Str) (handles : List Str) : Except PyErr (Option ParsedReport) :=
  match extractAllStatements query .report with
  | .error e => .error e
  | .ok none => .ok none
  | .ok (some []) => .ok none
  | .ok (some (s :: ss)) =>
    if ss ≠ [] then .error .multipleClause
    else match checkFindReportHandles handles s with
      | .error e => .error e
      | .ok _ =>
        if (reportAllCS.matchAt s).isSome then
          .ok (some { rawStatement := s, clause := .report, extracted := s })
        else .error .validation

end WG
