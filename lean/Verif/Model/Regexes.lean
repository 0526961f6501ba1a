/-
The regular expressions of /repo/wiggle_query_language/clauses/regexes.
All are compiled with IGNORECASE; classes without letters are not affected by it, and `\w`, `\s`,
`\d` are the Unicode categories.
-/
import Verif.Py.Regex

namespace WG
variable [PyRuntime]
open Re

/-- The characters of `get_all_params_regex`, patterns_helpers.py 4-9:
``[{}\w:\s,'\"\.\[\]@]`` (EXTRA_ALLOWED_CHARS = "@", regexes/__init__.py 1). -/
def isParamChar (c : Char) : Bool :=
  c == '{' || c == '}' || isWord c || c == ':' || isSpace c || c == ',' || c == '\'' || c == '"'
    || c == '.' || c == '[' || c == ']' || c == '@'

/-- Group numbers of part `i` of the pattern (0 left node, 1 left-middle rel, 2 middle node,
3 middle-right rel, 4 right node). -/
def gAll (i : Nat) : Nat := 4 * i
/-- handle group -/
def gHandle (i : Nat) : Nat := 4 * i + 1
/-- label group -/
def gLabel (i : Nat) : Nat := 4 * i + 2
/-- props group -/
def gProps (i : Nat) : Nat := 4 * i + 3

/-- The group of `get_node_pattern_regex`, patterns_helpers.py 25-33 (with
`get_handle_label_regex` 12-22, required):
`(?P<n_node>\(\s*(?P<h>\w*)\s*:\s*(?P<l>\w+)\s*(?P<p>PARAMS)?\s*\)\s*)`. -/
def nodeGrp (i : Nat) : Re :=
  .grp (gAll i) (seqs [ch '(', .star isSpace, .grp (gHandle i) (.star isWord), .star isSpace, ch ':',
    .star isSpace, .grp (gLabel i) (plus isWord), .star isSpace,
    .opt (.grp (gProps i) (plus isParamChar)), .star isSpace, ch ')', .star isSpace])

/-- The group of `get_rel_pattern_regex`, patterns_helpers.py 36-43 (handle/label not required):
`(?P<n_rel><?-+\[\s*(?P<h>\w*)\s*:?\s*(?P<l>\w*)\s*(?P<p>PARAMS)?\s*]-+>?\s*)`. -/
def relGrp (i : Nat) : Re :=
  .grp (gAll i) (seqs [optC (· == '<'), plus (· == '-'), ch '[', .star isSpace,
    .grp (gHandle i) (.star isWord), .star isSpace, optC (· == ':'), .star isSpace,
    .grp (gLabel i) (.star isWord), .star isSpace, .opt (.grp (gProps i) (plus isParamChar)),
    .star isSpace, ch ']', plus (· == '-'), optC (· == '>'), .star isSpace])

/-- One optional part of the pattern: `\s*(…)?`. -/
def part (g : Re) : Re := .seq (.star isSpace) (.opt g)

/-- `NODES_RELS_PATTERN_REGEX`, patterns.py 8-11, patterns_helpers.py 46-64. -/
def nodesRelsPattern : Re :=
  seqs [part (nodeGrp 0), part (relGrp 1), part (nodeGrp 2), part (relGrp 3), part (nodeGrp 4)]

/-- `.` -/
def isDot (c : Char) : Bool := c != '\n'

/-- `get_clause_all_regex` under IGNORECASE, clause_helpers.py 4-10:
`(?P<clause_stmt_all>(MAKE|make)\s*\(.+\);)`; `kw` is the keyword in lower case. -/
def clauseAll (kw : Str) : Re :=
  .grp 0 (seqs [.grp 1 (.alt (wordCI kw) (wordCI kw)), .star isSpace, ch '(', plus isDot, ch ')', ch ';'])

/-- The same pattern text without IGNORECASE, as pydantic's `Field(regex=…pattern)` compiles it
(models/wql/parsing/parsed_query.py 90, 96). -/
def clauseAllCS (up low : Str) : Re :=
  .grp 0 (seqs [.grp 1 (.alt (word up) (word low)), .star isSpace, ch '(', plus isDot, ch ')', ch ';'])

/-- make_patterns.py 11-13 -/
def makeAll : Re := clauseAll c!"make"
/-- find_patterns.py 11-13 -/
def findAll : Re := clauseAll c!"find"
/-- report_patterns.py 10-13: `(?P<report_stmt_all>(REPORT|report).+;)` -/
def reportAll : Re :=
  .grp 0 (seqs [.grp 1 (.alt (wordCI c!"report") (wordCI c!"report")), plus isDot, ch ';'])
/-- parsed_query.py 90 -/
def makeAllCS : Re := clauseAllCS c!"MAKE" c!"make"
/-- parsed_query.py 96 -/
def findAllCS : Re := clauseAllCS c!"FIND" c!"find"
/-- parsed_query.py 121 -/
def reportAllCS : Re :=
  .grp 0 (seqs [.grp 1 (.alt (word c!"REPORT") (word c!"report")), plus isDot, ch ';'])

/-- Ways to take one element out of a list, in order. -/
def picks {α : Type} : List α → List (α × List α)
  | [] => []
  | x :: xs => (x, xs) :: (picks xs).map fun p => (p.1, x :: p.2)

/-- `itertools.permutations` of a list of length `n`, in its order. -/
def perms {α : Type} : Nat → List α → List (List α)
  | 0, _ => [[]]
  | n + 1, l => (picks l).flatMap fun p => (perms n p.2).map (p.1 :: ·)

/-- `get_clause_permutations_regex`, clause_helpers.py 13-35:
`\s?(?P<clause_syntax_error>AKME|…)\s?\(`. -/
def spelling (kw : Str) : Re :=
  seqs [optC isSpace, .grp 0 (alts ((perms kw.length kw).map wordCI)), optC isSpace, ch '(']

/-- make_patterns.py 17-20 -/
def makeSpelling : Re := spelling c!"make"
/-- find_patterns.py 17-20 -/
def findSpelling : Re := spelling c!"find"
/-- report_patterns.py 16-19: `(?P<report_stmt_all>(PERMS).+;)` -/
def reportSpelling : Re :=
  .grp 0 (seqs [.grp 1 (alts ((perms 6 c!"report").map wordCI)), plus isDot, ch ';'])

/-- Characters of a list value in ALL_PROPERTIES_KEY_VALUE_REGEX: ``[\w,\s'\"\.@\+]``. -/
def isListChar (c : Char) : Bool :=
  isWord c || c == ',' || isSpace c || c == '\'' || c == '"' || c == '.' || c == '@' || c == '+'

/-- Characters of a string value: ``[\w+\'\"@\.\s]``. -/
def isStrChar (c : Char) : Bool :=
  isWord c || c == '+' || c == '\'' || c == '"' || c == '@' || c == '.' || isSpace c

/-- group property_name -/
def gName : Nat := 0
/-- group property_value -/
def gValue : Nat := 1
/-- group none_type -/
def gNone : Nat := 2
/-- group bool_type -/
def gBool : Nat := 3
/-- group float_type -/
def gFloat : Nat := 4
/-- group int_type -/
def gInt : Nat := 5
/-- group list_type -/
def gList : Nat := 6
/-- group string_type -/
def gString : Nat := 7

/-- `ALL_PROPERTIES_KEY_VALUE_REGEX`, properties.py 6-13. -/
def propKV : Re :=
  seqs [.grp gName (plus isWord), .star isSpace, ch ':', .star isSpace,
    .grp gValue (alts [
      .grp gNone (wordCI c!"null"),
      .grp gBool (.alt (wordCI c!"true") (wordCI c!"false")),
      .grp gFloat (seqs [plus isDecimal, ch '.', plus isDecimal]),
      .grp gInt (plus isDig),
      .grp gList (seqs [ch '[', plus isListChar, ch ']']),
      .grp gString (plus isStrChar)])]

/-- Characters inside the braces in CHECK_PROPERTIES_SYNTAX_REGEX: ``[\w:\s,'\"\.\[\]@]``. -/
def isCheckChar (c : Char) : Bool :=
  isWord c || c == ':' || isSpace c || c == ',' || c == '\'' || c == '"' || c == '.' || c == '['
    || c == ']' || c == '@'

/-- `CHECK_PROPERTIES_SYNTAX_REGEX`, properties.py 17-20. -/
def checkProps : Re := .grp 0 (seqs [ch '{', plus isCheckChar, ch '}'])

/-- Characters in PROPERTIES_LIST_VALUE_REGEX: ``[\w,\s'\"\.@]``. -/
def isListValChar (c : Char) : Bool :=
  isWord c || c == ',' || isSpace c || c == '\'' || c == '"' || c == '.' || c == '@'

/-- `PROPERTIES_LIST_VALUE_REGEX`, properties.py 24-26. -/
def listValue : Re := .grp 0 (seqs [ch '[', plus isListValChar, ch ']'])

/-- `RELATIONSHIP_DIR_CHECK_REGEX`, relationships.py 9-12 (group 0 `foo`, group 1 `rel_name`). -/
def relDirCheck : Re :=
  .grp 0 (seqs [optC (· == '<'), plus (· == '-'), ch '[', .star isSpace, .star isWord, .star isSpace,
    optC (· == ':'), .star isSpace, .grp 1 (.star isWord), .star isSpace, plus isParamChar,
    plus (· == '-'), optC (· == '>')])

/-- `ILLEGAL_CHARS`, regexes/__init__.py 2: `#%&*$`. -/
def isIllegal (c : Char) : Bool := c == '#' || c == '%' || c == '&' || c == '*' || c == '$'

/-- `ILLEGAL_CHARS_REGEX`, utilities.py 6. -/
def illegalRe : Re := .cls isIllegal

/-- The separators of `split(r"[<>]+", stmt)`, parse_statement_checks.py 162. -/
def isAngle (c : Char) : Bool := c == '<' || c == '>'

end WG
