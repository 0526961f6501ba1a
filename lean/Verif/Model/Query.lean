/- /repo/wiggle_shell/core/query/query.py -/
import Verif.Model.Parse
import Verif.Model.Find

namespace WG
variable [PyRuntime]

/-- `ParsedQuery`, parsed_query.py 129-133 (`criteria_parsed` is always `None`, query.py 36). -/
structure ParsedQuery where
  make : Option (List ParsedMake)
  find : Option ParsedFind
  report : Option ParsedReport
deriving DecidableEq, Repr

/-- `parse_query_string`, query.py 27-50.  Without a FIND, `find_parsed.parsed_pattern` is an
attribute of `None`. -/
def parseQueryString (query : Str) : Except PyErr ParsedQuery :=
  match parseMake query with
  | .error e => .error e
  | .ok mk =>
    match parseFind query with
    | .error e => .error e
    | .ok none => .error .attribute
    | .ok (some f) =>
      match parseReport query f.pattern.patternHandles with
      | .error e => .error e
      | .ok r => .ok { make := mk, find := some f, report := r }

/-- The MAKE step, query.py 54-55 (an empty list is false). -/
def executeMakes (env : Env) (g : GPath) : Option (List ParsedMake) → Prog Bool
  | some (m :: ms) => make env (m :: ms) g
  | _ => pure true

/-- The REPORT step, query.py 64-67. -/
def executeReport (found : Found) (g : GPath) : Option ParsedReport → Prog Bool
  | some r => report r found g
  | none => pure true

/-- `execute_query`, query.py 53-71. -/
def executeQuery (env : Env) (q : ParsedQuery) (g : GPath) : Prog Bool := do
  let _ ← executeMakes env g q.make
  match q.find with
  | none => .raise .exception
  | some f =>
    let found ← find f g none
    let _ ← executeReport found g q.report
    pure true

/-- The words of `valid_query_set`, query.py 75. -/
def validWords : List Str :=
  [c!"make", c!"find", c!"adjust", c!"criteria", c!"report", c!"using"]

/-- `valid_query`, query.py 74-78. -/
def validQuery (query : Str) : Bool := validWords.any fun w => decide (w ∈ splitChar ' ' (lower query))

/-- `query`, query.py 81-93 (the check in line 84 ends in `and False`). -/
def query (env : Env) (q : Str) (g : GPath) : Prog Bool :=
  if (!validQuery q && false) = true then .raise .notAValidQuery
  else do
    let parsed ← liftE (parseQueryString q)
    let _ ← executeQuery env parsed g
    pure true

end WG
