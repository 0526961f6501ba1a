/-
/repo/wiggle_query_language/graph/database/database.py
Its log is in Model/Log.
-/
import Verif.Py.Value

namespace WG
variable [PyRuntime]

/-- `load_database`, database.py 13-28.  A JSONDecodeError is swallowed and `{}` returned. -/
def loadDatabase (p : Path) : Prog V :=
  Prog.tryCatch
    (do
      let text ← readFile p
      liftE (loads text))
    fun e => if e = .jsonDecode then pure (.dict []) else .raise e

/-- The loop over the items in `add_item_to_database`, database.py 44-50. -/
def addLoop : V → List (Str × V) → Except PyErr V
  | db, [] => .ok db
  | db, (k, node) :: items =>
    match inVal k db with
    | .error e => .error e
    | .ok true => .error .nodeExists
    | .ok false =>
      match setItem db k node with
      | .error e => .error e
      | .ok db' => addLoop db' items

/-- `add_item_to_database`, database.py 31-59: `open("r+")`, load, loop, `seek(0)`, dump; no
`truncate`. -/
def addItemToDatabase (p : Path) (items : List (Str × V)) : Prog Bool := do
  let text ← readFile p
  let db ← liftE (loads text)
  let db' ← liftE (addLoop db items)
  let _ ← dumpTo p 0 db'
  pure true

/-- `wipe_database`, database.py 62-79.  Returns `None` (here `false`) when `im_sure` is false. -/
def wipeDatabase (p : Path) (imSure : Bool) : Prog Bool := do
  if imSure then
    unitOp (.openW p) .fileNotFound
    let pos ← dumpTo p 0 (.dict [])
    unitOp (.truncate p pos) .osError
    pure true
  else pure false

end WG
