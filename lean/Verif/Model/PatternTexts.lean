/-
The texts of the patterns, as the source puts them together: /repo/wiggle_query_language/clauses/regexes.
-/
import Verif.Py.ReSyntax
import Verif.Model.Regexes

namespace WG.PatternText

/-- regexes/__init__.py 1 -/
def extraAllowed : Str := c!"@"
/-- regexes/__init__.py 2 -/
def illegalChars : Str := c!"#%&*$"

/-- `get_all_params_regex`, patterns_helpers.py 4-9 (`{{}}` in an f-string is `{}`). -/
def allParams : Str := c!"[{}\\w:\\s,'\\\"\\.\\[\\]" ++ extraAllowed ++ c!"]+"

/-- `get_handle_label_regex`, patterns_helpers.py 12-22. -/
def handleLabel (name : Str) (required : Bool) : Str :=
  let first := if required then c!"" else c!"?"
  let second := if required then c!"+" else c!"*"
  c!"(?P<" ++ name ++ c!"_handle>\\w*)\\s*:" ++ first ++ c!"\\s*(?P<" ++ name ++ c!"_label>\\w" ++ second ++ c!")"

/-- `get_node_pattern_regex`, patterns_helpers.py 25-33. -/
def nodePattern (name : Str) : Str :=
  c!"\\s*(?P<" ++ name ++ c!"_node>\\(\\s*" ++ handleLabel (name ++ c!"_node") true ++ c!"\\s*(?P<" ++ name
    ++ c!"_node_props>" ++ allParams ++ c!")?\\s*\\)\\s*)"

/-- `get_rel_pattern_regex`, patterns_helpers.py 36-43. -/
def relPattern (name : Str) : Str :=
  c!"\\s*(?P<" ++ name ++ c!"_rel><?-+\\[\\s*" ++ handleLabel (name ++ c!"_rel") false ++ c!"\\s*(?P<" ++ name
    ++ c!"_rel_props>" ++ allParams ++ c!")?\\s*]-+>?\\s*)"

/-- `get_nodes_rels_pattern_regex`, patterns_helpers.py 46-64; patterns.py 8-11. -/
def nodesRels : Str :=
  nodePattern c!"left" ++ c!"?" ++ relPattern c!"left_middle" ++ c!"?" ++ nodePattern c!"middle" ++ c!"?"
    ++ relPattern c!"middle_right" ++ c!"?" ++ nodePattern c!"right" ++ c!"?"

/-- NODE_HANDLE_LABEL_PARAMS_REGEX, nodes.py 8-10 (not used by the program). -/
def nodeThis : Str := nodePattern c!"this"
/-- RELATIONSHIP_HANDLE_LABEL_PARAMS_REGEX, relationships.py 16-18 (not used by the program). -/
def relThis : Str := relPattern c!"this"

/-- `str.upper` of a clause (the clauses are ASCII letters). -/
def upperA (w : Str) : Str := w.map Char.toUpper
/-- `str.lower` of a clause. -/
def lowerA (w : Str) : Str := w.map Char.toLower

/-- `get_clause_all_regex`, clause_helpers.py 4-10. -/
def clauseAll (clause : Str) : Str :=
  c!"(?P<clause_stmt_all>(" ++ upperA clause ++ c!"|" ++ lowerA clause ++ c!")\\s*\\(.+\\);)"

/-- `"|".join`. -/
def barJoin : List Str → Str
  | [] => []
  | [w] => w
  | w :: ws => w ++ '|' :: barJoin ws

/-- `get_clause_permutations`, clause_helpers.py 13-20. -/
def permutations (clause : Str) : Str := barJoin (perms clause.length clause)

/-- `get_clause_permutations_regex`, clause_helpers.py 23-35. -/
def clausePermutations (clause : Str) : Str :=
  c!"\\s?(?P<clause_syntax_error>" ++ permutations clause ++ c!")\\s?\\("

/-- MAKE_STATEMENT_ALL_REGEX, make_patterns.py 8-13 -/
def makeAll : Str := clauseAll c!"MAKE"
/-- FIND_STATEMENT_ALL_REGEX, find_patterns.py 8-13 -/
def findAll : Str := clauseAll c!"FIND"
/-- REPORT_STATEMENT_ALL_REGEX, report_patterns.py 7-13 -/
def reportAll : Str := c!"(?P<report_stmt_all>(" ++ upperA c!"REPORT" ++ c!"|" ++ lowerA c!"REPORT" ++ c!").+;)"
/-- MAKE_STATEMENT_CHECK_CLAUSE_SYNTAX_REGEX, make_patterns.py 17-20 -/
def makeSpelling : Str := clausePermutations c!"MAKE"
/-- FIND_STATEMENT_CHECK_CLAUSE_SYNTAX_REGEX, find_patterns.py 17-20 -/
def findSpelling : Str := clausePermutations c!"FIND"
/-- REPORT_STATEMENT_CHECK_CLAUSE_SYNTAX_REGEX, report_patterns.py 16-19 -/
def reportSpelling : Str := c!"(?P<report_stmt_all>(" ++ permutations c!"REPORT" ++ c!").+;)"

/-- ALL_PROPERTIES_KEY_VALUE_REGEX, properties.py 6-13 -/
def propKV : Str :=
  c!"(?P<property_name>\\w+)\\s*:\\s*(?P<property_value>(?P<none_type>null)|(?P<bool_type>true|false)|"
    ++ c!"(?P<float_type>\\d+\\.\\d+)|(?P<int_type>[0-9]+)|(?P<list_type>\\[[\\w,\\s'\\\"\\.@\\+]+\\])|"
    ++ c!"(?P<string_type>[\\w+\\'\\\"@\\.\\s]+))"
/-- CHECK_PROPERTIES_SYNTAX_REGEX, properties.py 17-20 -/
def checkProps : Str := c!"(?P<all_props>{[\\w:\\s,'\\\"\\.\\[\\]" ++ extraAllowed ++ c!"]+})"
/-- PROPERTIES_LIST_VALUE_REGEX, properties.py 24-26 -/
def listValue : Str := c!"(?P<list_value>\\[[\\w,\\s'\\\"\\." ++ extraAllowed ++ c!"]+])"
/-- RELATIONSHIP_DIR_CHECK_REGEX, relationships.py 9-12 -/
def relDirCheck : Str :=
  c!"(?P<foo><?-+\\[\\s*\\w*\\s*:?\\s*(?P<rel_name>\\w*)\\s*" ++ allParams ++ c!"-+>?)"
/-- ILLEGAL_CHARS_REGEX, utilities.py 6 -/
def illegal : Str := c!"[" ++ illegalChars ++ c!"]"
/-- `split(r"[<>]+", …)`, parse_statement_checks.py 162 -/
def angles : Str := c!"[<>]+"

end WG.PatternText
