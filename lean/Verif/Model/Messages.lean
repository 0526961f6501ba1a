/-
The texts of the exceptions that the parser of queries raises: the functions of Model/Checks, Model/Parse and
`parse_query_string` once more, with their messages (/repo/exceptions/wiggle_base_exception.py and the `raise` statements
in /repo/wiggle_query_language/clauses/** and /repo/models/wql/parsing/parsed_query.py).

Not modelled: the texts of exceptions of Python and pydantic (`text = none`); `repr` of a string and `upper` (kept as
values); the order of a set of handles.
-/
import Verif.Model.Query

namespace WG
variable [PyRuntime]

/-- A piece of an f-string. -/
inductive Piece where
  /-- words of the program -/
  | words (s : Str)
  /-- `{x}` for a string -/
  | quote (s : Str)
  /-- `{x}` for a tuple of strings: their `repr`s in parentheses -/
  | tuple (l : List Str)
  /-- `{x}` for a list of strings: their `repr`s in square brackets -/
  | list (l : List Str)
  /-- `{x.upper()}` -/
  | upper (s : Str)
  /-- `{x}` for the element of a set that comes first -/
  | oneOf (l : List Str)
deriving DecidableEq, Repr

/-- An exception: its class, and its message if it is one of the project's. -/
structure Raised where
  kind : PyErr
  text : Option (List Piece)
deriving DecidableEq, Repr

/-- An exception of Python or pydantic. -/
def Raised.lib (e : PyErr) : Raised := ⟨e, none⟩

/-- `__class__.__name__` of the project's exceptions, exceptions/**. -/
def PyErr.className : PyErr → Option Str
  | .clauseSyntax => some c!"ClauseSyntaxError"
  | .illegalCharacter => some c!"IllegalCharacterError"
  | .nonDirected => some c!"NonDirectedRelationshipError"
  | .paramSyntax => some c!"ParamSyntaxError"
  | .relationshipName => some c!"RelationshipNameSyntaxError"
  | .illegalPropertyValue => some c!"WiggleGraphIllegalPropertyValue"
  | .propertyTypeAssignment => some c!"PropertyTypeAssignmentError"
  | .multipleClause => some c!"MultipleClauseStatementsError"
  | .findReportHandle => some c!"FindReportHandleMissmatch"
  | .makeDuplicateHandles => some c!"MakeDuplicateHandlesError"
  | .nodeExists => some c!"NodeExistsError"
  | .nodeUnrelated => some c!"NodeHasUnrelatedRelationship"
  | .relToFrom => some c!"RelationshipToFromError"
  | .notAValidQuery => some c!"NotAValidQueryError"
  | _ => none

/-- `WiggleGraphBaseException.__str__`, wiggle_base_exception.py 9-10: what `print(e)` shows, wiggleshell.py 43.
A plain `Exception` shows its text only. -/
def Raised.shown (r : Raised) : Option (List Piece) :=
  match r.text, r.kind.className with
  | some m, some n => some (.words (n ++ c!": ") :: m)
  | some m, none => some m
  | none, _ => none

/-- `clause.value`, clauses.py 4-8. -/
def Clause.value : Clause → Str
  | .find => c!"FIND"
  | .make => c!"MAKE"
  | .criteria => c!"CRITERIA"
  | .report => c!"REPORT"

/-- `for x in l: check(x)`. -/
def forEachR {α : Type} (check : α → Except Raised Unit) : List α → Except Raised Unit
  | [] => .ok ()
  | x :: xs =>
    match check x with
    | .ok _ => forEachR check xs
    | .error e => .error e

/-- `findall`: with one group its text, with two the pair of their texts. -/
def spelt (groups : Nat) (caps : Caps) : Piece :=
  if groups = 1 then .quote ((capGet 0 caps).getD []) else .tuple [(capGet 0 caps).getD [], (capGet 1 caps).getD []]

/-- parse_statement_checks.py 49-53: the first match raises. -/
def misspelt (clause : Clause) (groups : Nat) : List (Str × Caps) → Except Raised Unit
  | [] => .ok ()
  | m :: _ => .error ⟨.clauseSyntax, some [.words c!"SyntaxError: ", spelt groups m.2, .words c!" was not recognised did you mean ",
      .words clause.value, .words c!"?"]⟩

/-- `check_clause_spelling`, parse_statement_checks.py 31-55. -/
def checkClauseSpellingR (query : Str) : Clause → Except Raised Unit
  | .make => misspelt .make 1 (makeSpelling.finditer query)
  | .find => misspelt .find 1 (findSpelling.finditer query)
  | .report => misspelt .report 2 (reportSpelling.finditer query)
  | .criteria => .error ⟨.exception, some []⟩

/-- `check_property_syntax`, parse_statement_checks.py 58-70. -/
def checkPropertySyntaxR (params : Str) : Except Raised Unit :=
  if countChar ',' params + 1 ≠ countChar ':' params then
    .error ⟨.paramSyntax, some [.words c!"SyntaxError: ", .quote params, .words c!" missing : or ,"]⟩
  else .ok ()

/-- `literal_eval` of one of the lists `all`, parse_statement_checks.py 97-103. -/
def checkListR (all : List Str) (s : Str) : Except Raised Unit :=
  match literalEval s with
  | .ok _ => .ok ()
  | .error .syntaxError => .error ⟨.paramSyntax, some [.words c!"SyntaxError: ", .list all, .words c!" missing a comma?"]⟩
  | .error .valueError => .error (.lib .value)
  | .error .other => .error (.lib .other)

/-- Body of the inner loop of `check_node_rel_properties`, parse_statement_checks.py 84-103. -/
def checkParamsR (params : Str) : Except Raised Unit :=
  match checkPropertySyntaxR (listValue.erase (pyKeywords params)) with
  | .error e => .error e
  | .ok _ =>
    forEachR (checkListR ((listValue.finditer (pyKeywords params)).map Prod.fst)) ((listValue.finditer (pyKeywords params)).map Prod.fst)

/-- `check_node_rel_properties`, parse_statement_checks.py 73-105. -/
def checkNodeRelPropertiesR (stmts : List Str) : Except Raised Unit :=
  forEachR (fun stmt => forEachR checkParamsR ((checkProps.finditer stmt).map Prod.fst)) stmts

/-- Body of the inner loop of `check_relationships`, parse_statement_checks.py 119-136. -/
def checkRelR (caps : Caps) : Except Raised Unit :=
  let pattern := (capGet 0 caps).getD []
  let name := (capGet 1 caps).getD []
  if '<' ∈ pattern ∧ '>' ∈ pattern then
    .error ⟨.nonDirected, some [.words c!"Relationships must be unidirectional: ", .quote pattern]⟩
  else if ¬ '<' ∈ pattern ∧ ¬ '>' ∈ pattern then
    .error ⟨.nonDirected, some [.words c!"Relationships must be singly directed: ", .quote pattern]⟩
  else if ¬ isUpperStr name = true ∧ name ≠ [] then
    .error ⟨.relationshipName, some [.words c!"Relationship names must be upper case: ", .quote name, .words c!" -> ", .upper name]⟩
  else .ok ()

/-- `check_relationships`, parse_statement_checks.py 108-138. -/
def checkRelationshipsR : List Str → Except Raised Unit
  | [] => .ok ()
  | stmt :: stmts =>
    match relDirCheck.finditer stmt with
    | [] => .ok ()
    | m :: ms =>
      match forEachR (fun m => checkRelR m.2) (m :: ms) with
      | .error e => .error e
      | .ok _ => checkRelationshipsR stmts

/-- `check_illegal_characters`, parse_statement_checks.py 141-151. -/
def checkIllegalCharactersR (stmts : List Str) : Except Raised Unit :=
  forEachR (fun stmt => match illegalRe.search stmt with
    | some m => .error ⟨.illegalCharacter, some [.quote m.1, .words c!" is not allowed"]⟩
    | none => .ok ()) stmts

/-- The three counts for one piece, parse_statement_checks.py 164-183. -/
def checkPieceR (piece : Str) : Except Raised Unit :=
  if piece.countP (fun c => c == '(' || c == ')') % 2 = 1 then
    .error ⟨.clauseSyntax, some [.words c!"Node is missing a parentheses: ---> ", .quote piece, .words c!" <---"]⟩
  else if piece.countP (fun c => c == '{' || c == '}') % 2 = 1 then
    .error ⟨.clauseSyntax, some [.words c!"Properties is missing a curly brace: ---> ", .quote piece, .words c!" <---"]⟩
  else if piece.countP (fun c => c == '[' || c == ']') % 2 = 1 then
    .error ⟨.clauseSyntax, some [.words c!"A Relationship or property list is missing a square bracket: ---> ", .quote piece, .words c!" <---"]⟩
  else .ok ()

/-- `check_statement_syntax`, parse_statement_checks.py 154-185. -/
def checkStatementSyntaxR (stmts : List Str) : Except Raised Unit :=
  forEachR (fun stmt => forEachR checkPieceR (splitClass isAngle stmt)) stmts

/-- `validate_statement`, parse_statement_checks.py 188-199. -/
def validateStatementR (stmts : List Str) : Except Raised Unit :=
  match checkStatementSyntaxR stmts with
  | .error e => .error e
  | .ok _ =>
    match checkIllegalCharactersR stmts with
    | .error e => .error e
    | .ok _ =>
      match checkNodeRelPropertiesR stmts with
      | .error e => .error e
      | .ok _ => checkRelationshipsR stmts

/-- `extract_all_statements`, extract_statements.py 18-40. -/
def extractAllStatementsR (query : Str) (clause : Clause) : Except Raised (Option (List Str)) :=
  match (match clause with
    | .make => some makeAll
    | .find => some findAll
    | .report => some reportAll
    | .criteria => none) with
  | none => .error ⟨.exception, some []⟩
  | some re =>
    match (re.finditer query).map Prod.fst with
    | s :: ss => .ok (some (s :: ss))
    | [] =>
      match checkClauseSpellingR query clause with
      | .error e => .error e
      | .ok _ => .ok none

/-- `", ".join(names)`. -/
def joined : List Str → List Piece
  | [] => []
  | [x] => [.quote x]
  | x :: xs => .quote x :: .words c!", " :: joined xs

/-- `validate_handles`, parsed_query.py 77-86. -/
def ParsedPattern.validateR (p : ParsedPattern) : Except Raised ParsedPattern :=
  if p.handleNames.Nodup then .ok p
  else .error ⟨.makeDuplicateHandles, some (.words c!"Handles must be unique per MAKE statement Handles:" :: joined p.handleNames)⟩

/-- Validation of a list of patterns. -/
def validatePatternsR : List ParsedPattern → Except Raised (List ParsedPattern)
  | [] => .ok []
  | p :: ps =>
    match p.validateR with
    | .error e => .error e
    | .ok p =>
      match validatePatternsR ps with
      | .error e => .error e
      | .ok ps => .ok (p :: ps)

/-- `build_parsed_make`, parse_make_statement.py 15-29. -/
def buildParsedMakeR (stmt : Str) : Except Raised ParsedMake :=
  match validatePatternsR (statementPatterns stmt) with
  | .error e => .error e
  | .ok ps =>
    if (makeAllCS.matchAt stmt).isSome then .ok { rawStatement := stmt, clause := .make, patterns := ps }
    else .error (.lib .validation)

/-- The list comprehension, parse_make_statement.py 47. -/
def buildParsedMakesR : List Str → Except Raised (List ParsedMake)
  | [] => .ok []
  | s :: ss =>
    match buildParsedMakeR s with
    | .error e => .error e
    | .ok m =>
      match buildParsedMakesR ss with
      | .error e => .error e
      | .ok ms => .ok (m :: ms)

/-- `parse_make_statement_from_query_string`, parse_make_statement.py 32-49. -/
def parseMakeR (query : Str) : Except Raised (Option (List ParsedMake)) :=
  match extractAllStatementsR query .make with
  | .error e => .error e
  | .ok none => .ok none
  | .ok (some stmts) =>
    match validateStatementR stmts with
    | .error e => .error e
    | .ok _ =>
      match buildParsedMakesR stmts with
      | .error e => .error e
      | .ok ms => .ok (some ms)

/-- `build_parsed_find`, parse_find_statement.py 16-33. -/
def buildParsedFindR (stmt : Str) : Except Raised ParsedFind :=
  match statementPatterns stmt with
  | [] => .error (.lib .index)
  | p :: _ =>
    match p.validateR with
    | .error e => .error e
    | .ok p =>
      if (findAllCS.matchAt stmt).isSome then .ok { rawStatement := stmt, clause := .find, pattern := p }
      else .error (.lib .validation)

/-- `raise MultipleClauseStatementsError`, parse_find_statement.py 48-50, parse_report_statement.py 43-45: `{Clause.FIND}` shows the member
of the enumeration, not its value. -/
def onlyOne (clause : Clause) : Raised :=
  ⟨.multipleClause, some [.words (c!"Only one Clause." ++ clause.value ++ c!" clause is allowed per query")]⟩

/-- `parse_find_statement_from_query_string`, parse_find_statement.py 36-57. -/
def parseFindR (query : Str) : Except Raised (Option ParsedFind) :=
  match extractAllStatementsR query .find with
  | .error e => .error e
  | .ok none => .ok none
  | .ok (some []) => .ok none
  | .ok (some (s :: ss)) =>
    if ss ≠ [] then .error (onlyOne .find)
    else match validateStatementR [s] with
      | .error e => .error e
      | .ok _ =>
        match buildParsedFindR s with
        | .error e => .error e
        | .ok f => .ok (some f)

/-- `check_find_report_handles`, parse_report_statement.py 11-19. -/
def checkFindReportHandlesR (handles : List Str) (report : Str) : Except Raised Unit :=
  match handles.filter fun h => !isSubstr h report with
  | [] => .ok ()
  | h :: hs => .error ⟨.findReportHandle, some [.words c!"FIND handle ", .oneOf (h :: hs), .words c!" was not found not in the ---> ",
      .quote report, .words c!" <---"]⟩

/-- `parse_report_statement_from_query_string`, parse_report_statement.py 28-54. -/
def parseReportR (query : Str) (handles : List Str) : Except Raised (Option ParsedReport) :=
  match extractAllStatementsR query .report with
  | .error e => .error e
  | .ok none => .ok none
  | .ok (some []) => .ok none
  | .ok (some (s :: ss)) =>
    if ss ≠ [] then .error (onlyOne .report)
    else match checkFindReportHandlesR handles s with
      | .error e => .error e
      | .ok _ =>
        if (reportAllCS.matchAt s).isSome then
          .ok (some { rawStatement := s, clause := .report, extracted := s })
        else .error (.lib .validation)

/-- `parse_query_string`, query.py 27-50. -/
def parseQueryStringR (query : Str) : Except Raised ParsedQuery :=
  match parseMakeR query with
  | .error e => .error e
  | .ok mk =>
    match parseFindR query with
    | .error e => .error e
    | .ok none => .error (.lib .attribute)
    | .ok (some f) =>
      match parseReportR query f.pattern.patternHandles with
      | .error e => .error e
      | .ok r => .ok { make := mk, find := some f, report := r }

/-! ### Properties: parse_properties.py and properties_pre.py once more -/

/-- `yield_extracted_property`, properties_pre.py 24-48; the names of the groups found are not modelled in the message. -/
def extractedTypeR (caps : Caps) : Except Raised PropType :=
  match extractedType caps with
  | .ok t => .ok t
  | .error e => .error ⟨e, some [.quote ((capGet gName caps).getD []), .words c!" ", .quote ((capGet gValue caps).getD []),
      .words c!" should be only one"]⟩

/-- `handle_null_property`, parse_properties.py 82-93. -/
def handleNullR (s : Str) : Except Raised V :=
  if s = c!"null" then .ok .none
  else .error ⟨.illegalPropertyValue, some [.words c!"Value must be null: provided value was ", .quote s, .words c!" "]⟩

/-- `handle_bool_property`, parse_properties.py 96-118. -/
def handleBoolR (s : Str) : Except Raised V :=
  if s = c!"true" then .ok (.bool true)
  else if s = c!"false" then .ok (.bool false)
  else if s = c!"True" then
    .error ⟨.illegalPropertyValue, some [.quote s, .words c!" should be lowercase. Boolean property example {foo: true}"]⟩
  else if s = c!"False" then
    .error ⟨.illegalPropertyValue, some [.quote s, .words c!" should be lowercase. Boolean property example {foo: false}"]⟩
  else .error ⟨.illegalPropertyValue, some [.quote s, .words c!" is not a boolean"]⟩

/-- `handle_float_property`, parse_properties.py 121-138. -/
def handleFloatR (s : Str) : Except Raised V :=
  if ¬ '.' ∈ s then
    .error ⟨.illegalPropertyValue, some [.quote s, .words c!" missing a period. Float property example: {foo: 3.14}"]⟩
  else match PyRuntime.floatOfStr s with
    | some f => .ok (.flt f)
    | none => .error ⟨.illegalPropertyValue, some [.quote s, .words c!" was mot a decimal. Float property example: {foo: 3.14}"]⟩

/-- `handle_int_property`, parse_properties.py 141-159. -/
def handleIntR (s : Str) : Except Raised V :=
  if '.' ∈ s then .error ⟨.illegalPropertyValue, some [.quote s, .words c!" has a period, please remove, e.g {foo: 6}"]⟩
  else match pyInt s with
    | some i => .ok (.int i)
    | none => .error ⟨.illegalPropertyValue, some [.quote s, .words c!" was mot an integer. Integer property example: {foo: 3.14}"]⟩

/-- `handle_list_property`, parse_properties.py 162-179: the message shows the text before the replacements. -/
def handleListR (s : Str) : Except Raised V :=
  match literalEval (pyKeywords s) with
  | .ok v => .ok v
  | .error .syntaxError => .error ⟨.illegalPropertyValue, some [.quote s, .words c!" contained an Error."]⟩
  | .error .valueError => .error (.lib .value)
  | .error .other => .error (.lib .other)

/-- `handle_string_property`, parse_properties.py 182-200. -/
def handleStringR (s : Str) : Except Raised V :=
  if s = c!"Null" ∨ s = c!"None" ∨ s = c!"none" then
    .error ⟨.illegalPropertyValue, some [.words c!"Cannot use ", .quote s,
      .words c!" as a string, please use the null type for example {foo: null}"]⟩
  else if s = c!"true" ∨ s = c!"True" ∨ s = c!"false" ∨ s = c!"False" then
    .error ⟨.illegalPropertyValue, some [.words c!"Cannot use ", .quote s,
      .words c!" as a string, please use the bool type for example {foo: true}"]⟩
  else .ok (.str s)

/-- `handle_extracted_property`, parse_properties.py 53-79. -/
def handleExtractedR (value : Str) (caps : Caps) : Except Raised V :=
  match extractedTypeR caps with
  | .error e => .error e
  | .ok t =>
    match t with
    | .noneT => handleNullR (stripValue value)
    | .boolT => handleBoolR (stripValue value)
    | .floatT => handleFloatR (stripValue value)
    | .intT => handleIntR (stripValue value)
    | .listT => handleListR (stripValue value)
    | .stringT => handleStringR (stripValue value)

/-- Body of the loop in `parse_properties`, parse_properties.py 35-48. -/
def parseOnePropR (all : Str) (caps : Caps) : Except Raised (Str × V) :=
  match capGet gName caps, capGet gValue caps with
  | some name, some value =>
    if (strip value).isEmpty then
      .error ⟨.illegalPropertyValue, some [.words c!"Error for setting property in ", .quote all, .words c!" ", .quote name,
        .words c!" was empty a value must be supplied"]⟩
    else match handleExtractedR value caps with
      | .ok v => .ok (name, v)
      | .error e => .error e
  | _, _ => .error (.lib .validation)

/-- The loop of `parse_properties`, parse_properties.py 33-50. -/
def parsePropsLoopR (all : Str) : List (Str × Caps) → Dict V → Except Raised (Dict V)
  | [], d => .ok d
  | m :: ms, d =>
    match parseOnePropR all m.2 with
    | .ok (k, v) => parsePropsLoopR all ms (dictSet k v d)
    | .error e => .error e

/-- `get_property_dict` and `parse_properties`, parse_properties.py 12-50. -/
def getPropertyDictR : Option Str → Except Raised (Option (Dict V))
  | none => .ok none
  | some s =>
    if s.isEmpty then .ok none
    else match parsePropsLoopR s (propKV.finditer s) [] with
      | .ok d => .ok (some d)
      | .error e => .error e

end WG
