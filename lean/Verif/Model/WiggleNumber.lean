/-
/repo/wiggle_query_language/graph/state/wiggle_number.py
The 4300-digit limit of `int()`/`str()` is not modelled; the log is in Model/Log.
-/
import Verif.Py.Num
import Verif.Py.Files

namespace WG
variable [PyRuntime]

/-- `get_current_wiggle_number`, wiggle_number.py 7-26: an empty file raises a bare Exception,
a non-integer ValueError. -/
def getCurrentWiggleNumber (p : Path) : Prog Int := do
  let s ← readFile p
  if s.isEmpty then .raise .exception
  else match pyInt s with
    | some n => pure n
    | none => .raise .value

/-- `update_wiggle_number`, wiggle_number.py 29-41. -/
def updateWiggleNumber (p : Path) (n : Int) : Prog Int := do
  unitOp (.openW p) .fileNotFound
  unitOp (.write p 0 (intStr n)) .osError
  pure n

end WG
