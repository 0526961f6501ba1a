/-
`ast.literal_eval` on list displays.

The model evaluates flat lists of plain literals itself: decimal integers without leading zeros,
`digits.digits` floats, quoted strings without quotes of their own kind, backslashes, line breaks
or NULs, `True`, `False`, `None`; commas (one trailing comma allowed); spaces, tabs, line feeds
and form feeds around the elements.  Every other text is left to `PyRuntime.literalEvalOther`.
-/
import Verif.Py.Num

namespace WG
variable [PyRuntime]

/-- White space between tokens inside brackets. -/
def isLitSpace (c : Char) : Bool := c == ' ' || c == '\t' || c == '\n' || c == '\x0c'

/-- Skips white space. -/
def skipLitSpace (s : Str) : Str := s.dropWhile isLitSpace

/-- Characters that may stand inside a simple quoted string with quote `q`. -/
def isLitStrChar (q c : Char) : Bool :=
  c != q && c != '\\' && c != '\n' && c != '\r' && c != '\x00'

/-- One plain literal at the start of the text. -/
def litAtom (s : Str) : Option (V × Str) :=
  match s with
  | [] => none
  | c :: cs =>
    if c = '\'' ∨ c = '"' then
      match cs.dropWhile (isLitStrChar c) with
      | q :: r => if q = c then some (.str (cs.takeWhile (isLitStrChar c)), r) else none
      | [] => none
    else if isDig c then
      match spanDigits (c :: cs) with
      | (d, '.' :: r) =>
        match spanDigits r with
        | ([], _) => none
        | (f, r') => (PyRuntime.floatOfStr (d ++ '.' :: f)).map fun x => (.flt x, r')
      | (d, r) => if d.head? = some '0' ∧ d.length ≠ 1 then none else some (.int (digitsVal d), r)
    else if c!"True".isPrefixOf (c :: cs) then some (.bool true, cs.drop 3)
    else if c!"False".isPrefixOf (c :: cs) then some (.bool false, cs.drop 4)
    else if c!"None".isPrefixOf (c :: cs) then some (.none, cs.drop 3)
    else none

/-- The elements after `[` (or after a comma), up to the closing bracket, which must end the
text. -/
def litElems : Nat → Str → Option (List V)
  | 0, _ => none
  | n + 1, s =>
    match skipLitSpace s with
    | [']'] => some []
    | s' =>
      match litAtom s' with
      | none => none
      | some (v, r) =>
        match skipLitSpace r with
        | ',' :: r' => (litElems n r').map (v :: ·)
        | [']'] => some [v]
        | _ => none

/-- `ast.literal_eval(s)`. -/
def literalEval (s : Str) : Except LitErr V :=
  match s with
  | '[' :: r =>
    match litElems (r.length + 1) r with
    | some l => .ok (.list l)
    | none => PyRuntime.literalEvalOther s
  | _ => PyRuntime.literalEvalOther s

end WG
