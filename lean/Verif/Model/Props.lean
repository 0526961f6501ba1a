/-
/repo/wiggle_query_language/clauses/parsing_helpers/parse_properties.py and
/repo/models/wql/parsing/properties_pre.py.  The log is in Model/Log.
-/
import Verif.Model.Regexes
import Verif.Py.Literal

namespace WG
variable [PyRuntime]

/-- `PropertyType`, models/wql/enums/property_type.py 4-10. -/
inductive PropType where
  | noneT | boolT | floatT | intT | listT | stringT
deriving DecidableEq, Repr

/-- `WiggleGraphPropertyPre.yield_extracted_property`, properties_pre.py 24-48: the types whose
group took part in the match; there must be exactly one. -/
def extractedType (caps : Caps) : Except PyErr PropType :=
  match [(gNone, PropType.noneT), (gBool, .boolT), (gFloat, .floatT), (gInt, .intT), (gList, .listT),
      (gString, .stringT)].filter (fun p => (capGet p.1 caps).isSome) with
  | [p] => .ok p.2
  | _ => .error .propertyTypeAssignment

/-- `handle_null_property`, parse_properties.py 82-93. -/
def handleNull (s : Str) : Except PyErr V :=
  if s = c!"null" then .ok .none else .error .illegalPropertyValue

/-- `handle_bool_property`, parse_properties.py 96-118. -/
def handleBool (s : Str) : Except PyErr V :=
  if s = c!"true" then .ok (.bool true)
  else if s = c!"false" then .ok (.bool false)
  else .error .illegalPropertyValue

/-- `handle_float_property`, parse_properties.py 121-138. -/
def handleFloat (s : Str) : Except PyErr V :=
  if ¬ '.' ∈ s then .error .illegalPropertyValue
  else match PyRuntime.floatOfStr s with
    | some f => .ok (.flt f)
    | none => .error .illegalPropertyValue

/-- `handle_int_property`, parse_properties.py 141-159. -/
def handleInt (s : Str) : Except PyErr V :=
  if '.' ∈ s then .error .illegalPropertyValue
  else match pyInt s with
    | some i => .ok (.int i)
    | none => .error .illegalPropertyValue

/-- The chain of `.replace` calls, parse_properties.py 169-173 and
parse_statement_checks.py 85-89. -/
def pyKeywords (s : Str) : Str :=
  replace c!"null" c!"None" (replace c!"false" c!"False" (replace c!"true" c!"True" s))

/-- `handle_list_property`, parse_properties.py 162-179.  Only SyntaxError is caught. -/
def handleList (s : Str) : Except PyErr V :=
  match literalEval (pyKeywords s) with
  | .ok v => .ok v
  | .error .syntaxError => .error .illegalPropertyValue
  | .error .valueError => .error .value
  | .error .other => .error .other

/-- `handle_string_property`, parse_properties.py 182-200. -/
def handleString (s : Str) : Except PyErr V :=
  if s = c!"Null" ∨ s = c!"None" ∨ s = c!"none" then .error .illegalPropertyValue
  else if s = c!"true" ∨ s = c!"True" ∨ s = c!"false" ∨ s = c!"False" then .error .illegalPropertyValue
  else .ok (.str s)

/-- `value.strip('"').strip("'").strip()`, parse_properties.py 63. -/
def stripValue (s : Str) : Str := strip (stripP (· == '\'') (stripP (· == '"') s))

/-- `handle_extracted_property`, parse_properties.py 53-79. -/
def handleExtracted (value : Str) (caps : Caps) : Except PyErr V :=
  match extractedType caps with
  | .error e => .error e
  | .ok t =>
    match t with
    | .noneT => handleNull (stripValue value)
    | .boolT => handleBool (stripValue value)
    | .floatT => handleFloat (stripValue value)
    | .intT => handleInt (stripValue value)
    | .listT => handleList (stripValue value)
    | .stringT => handleString (stripValue value)

/-- Body of the loop in `parse_properties`, parse_properties.py 35-48: name and value of one
match.  Group `property_name`/`property_value` always take part; a missing one would be a
pydantic ValidationError. -/
def parseOneProp (caps : Caps) : Except PyErr (Str × V) :=
  match capGet gName caps, capGet gValue caps with
  | some name, some value =>
    if (strip value).isEmpty then .error .illegalPropertyValue
    else match handleExtracted value caps with
      | .ok v => .ok (name, v)
      | .error e => .error e
  | _, _ => .error .validation

/-- The loop of `parse_properties`, parse_properties.py 33-50. -/
def parsePropsLoop : List (Str × Caps) → Dict V → Except PyErr (Dict V)
  | [], d => .ok d
  | m :: ms, d =>
    match parseOneProp m.2 with
    | .ok (k, v) => parsePropsLoop ms (dictSet k v d)
    | .error e => .error e

/-- `parse_properties`, parse_properties.py 27-50. -/
def parseProperties (s : Str) : Except PyErr (Dict V) := parsePropsLoop (propKV.finditer s) []

/-- `get_property_dict`, parse_properties.py 12-24: `None` for a missing or empty text. -/
def getPropertyDict : Option Str → Except PyErr (Option (Dict V))
  | none => .ok none
  | some s =>
    if s.isEmpty then .ok none
    else match parseProperties s with
      | .ok d => .ok (some d)
      | .error e => .error e

end WG
