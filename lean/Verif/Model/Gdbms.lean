/-
GDBMS management: /repo/wiggle_shell/core/select_gdbms/*.py.

Names of GDBMSs are single path components (not empty, without `/`, not `.` or `..`).
Texts typed by the user are a list of inputs; a function that asks for input returns the remaining
ones, and `none` if the inputs ran out while it was asking.  Printing is modelled apart, in Model/Screen.
-/
import Verif.Py.Glob
import Verif.Model.Make

namespace WG

/-- `DBMS_FOLDER`, wiggle_shell/__init__.py 5: the default folder. -/
def DBMS_FOLDER : Str := c!"dbms"

/-- The path of the database file, select_database_file.py 16-18, 42. -/
def dbPath (folder name : Str) : Path := ⟨folder, name, c!"database_" ++ name ++ c!".json"⟩

/-- The path of the index file, select_index_file.py 18-20, 48-50. -/
def idxPath (folder name : Str) : Path := ⟨folder, name, c!"indexes_" ++ name ++ c!".json"⟩

/-- The path of the counter file, select_wiggle_number_file.py 19-21, 42-44. -/
def wnPath (folder name : Str) : Path := ⟨folder, name, c!"wiggle_number_" ++ name ++ c!".txt"⟩

/-- The three paths of a GDBMS. -/
def gdbmsPath (folder name : Str) : GPath := ⟨dbPath folder name, idxPath folder name, wnPath folder name⟩

/-- The common body of the three functions below: `mkdir`, refuse an existing file, `touch`, open for
writing, write the initial text. -/
def createNewFile (p : Path) (text : Str) : Prog Path := do
  unitOp (.mkdir p.folder p.dir) .osError
  let exists_ ← flagOp (.isFile p)
  if exists_ = true then .raise .value
  else do
    unitOp (.touch p) .osError
    unitOp (.openW p) .osError
    unitOp (.write p 0 text) .osError
    pure p

/-- `create_new_database`, select_database_file.py 7-30: `dumps({})`. -/
def createNewDatabase (name folder : Str) : Prog Path := createNewFile (dbPath folder name) c!"{}"

/-- `dumps(new_index_dict)` (without indent), select_index_file.py 27-31, 34. -/
def newIndexText : Str :=
  c!"{\"node_relationships\": {}, \"node_labels\": [], \"relationship_names\": []}"

/-- `create_new_indexes_file`, select_index_file.py 7-36. -/
def createNewIndexesFile (name folder : Str) : Prog Path :=
  createNewFile (idxPath folder name) newIndexText

/-- `create_new_wiggle_number_file`, select_wiggle_number_file.py 9-30. -/
def createNewWiggleNumberFile (name folder : Str) : Prog Path := createNewFile (wnPath folder name) c!"0"

/-- `get_new_gdbms_file_paths`, select_gdbms.py 86-109 (the handler re-raises). -/
def getNewGdbmsFilePaths (name folder : Str) : Prog GPath := do
  let db ← createNewDatabase name folder
  let idx ← createNewIndexesFile name folder
  let wn ← createNewWiggleNumberFile name folder
  pure ⟨db, idx, wn⟩

/-- `create_new_dbms`, select_gdbms.py 69-83: asks again after a ValueError. -/
def createNewDbms (folder : Str) : List Str → Prog (Option (GPath × List Str))
  | [] => .ret none
  | name :: rest =>
    Prog.tryCatch (do let g ← getNewGdbmsFilePaths name folder; pure (some (g, rest))) fun e =>
      if e.isValueError then createNewDbms folder rest else .raise e

/-- Order of `str`: by code points, shorter first. -/
def strLe : Str → Str → Bool
  | [], _ => true
  | _ :: _, [] => false
  | a :: as, b :: bs => if a = b then strLe as bs else decide (a.toNat < b.toNat)

/-- Insertion into a sorted list. -/
def insertSorted (x : Str) : List Str → List Str
  | [] => [x]
  | y :: ys => if strLe x y then x :: y :: ys else y :: insertSorted x ys

/-- `sorted` on a list of strings (the result of a sort is determined by its input, so the algorithm
does not matter). -/
def sortStrs : List Str → List Str
  | [] => []
  | x :: xs => insertSorted x (sortStrs xs)

/-- `list_existing_dbms`, select_gdbms.py 23-41. -/
def listExistingDbms (skips : List Str) (folder : Str) : Prog (List Str) :=
  .act (.listDirs folder) fun
    | .names l => .ret (sortStrs (l.filter fun x => !(skips.contains x)))
    | _ => .raise .fileNotFound

/-- `ascii_uppercase`. -/
def asciiUppercase : List Char := c!"ABCDEFGHIJKLMNOPQRSTUVWXYZ"

/-- The skipped names, select_gdbms.py 52. -/
def menuSkips : List Str := [c!"tests", c!"__pycache__"]

/-- `get_and_display_available_dbms`, select_gdbms.py 44-66: letters (keys) and names. -/
def getAndDisplayAvailableDbms (folder : Str) : Prog (Option (Dict Str)) := do
  let existing ← listExistingDbms menuSkips folder
  if existing.isEmpty then pure none
  else pure (some (dictOf (((asciiUppercase.zip existing).filter fun x => !(menuSkips.contains x.2)).map
    fun x => ([x.1], x.2))))

/-- `get_existing_db_file_path` etc., select_database_file.py 33-45, select_index_file.py 39-53,
select_wiggle_number_file.py 33-47. -/
def getExistingFile (p : Path) : Prog Path := do
  let exists_ ← flagOp (.isFile p)
  if ¬ exists_ = true then .raise .fileNotFound else pure p

/-- The three look-ups of `get_existing_gdbms`, select_gdbms.py 137-150. -/
def getExistingFiles (folder name : Str) : Prog GPath := do
  let db ← getExistingFile (dbPath folder name)
  let idx ← getExistingFile (idxPath folder name)
  let wn ← getExistingFile (wnPath folder name)
  pure ⟨db, idx, wn⟩

/-- `get_existing_gdbms`, select_gdbms.py 112-153.  The menu always lists the default folder
(line 120 passes no argument). -/
def getExistingGdbms (folder : Str) : List Str → Prog (Option (GPath × List Str))
  | [] => do
    let choices ← getAndDisplayAvailableDbms DBMS_FOLDER
    match choices with
    | none => createNewDbms folder []
    | some [] => createNewDbms folder []
    | some _ => pure none
  | letter :: rest => do
    let choices ← getAndDisplayAvailableDbms DBMS_FOLDER
    match choices with
    | none => createNewDbms folder (letter :: rest)
    | some [] => createNewDbms folder (letter :: rest)
    | some (c :: cs) =>
      match dictGet letter (c :: cs) with
      | none => getExistingGdbms folder rest
      | some name =>
        Prog.tryCatch (do let g ← getExistingFiles folder name; pure (some (g, rest))) fun e =>
          if e = .fileNotFound then getExistingGdbms folder rest else .raise e

/-- Removes files one after the other, select_gdbms.py 176-178. -/
def removeAll : List Path → Prog Unit
  | [] => pure ()
  | p :: ps => do
    unitOp (.remove p) .fileNotFound
    removeAll ps

/-- `delete_gdbms`, select_gdbms.py 162-182. -/
def deleteGdbms [PyRuntime] (name folder : Str) : Prog Int := do
  let isDir ← flagOp (.isDir folder name)
  if ¬ isDir = true then .raise .exception
  else do
    let files ← (.act (.listFiles folder (globDirs name)) fun
      | .paths l => .ret l
      | _ => .raise .osError)
    removeAll files
    unitOp (.rmdir folder name) .osError
    pure 0

/-- `select_gdbms`, select_gdbms.py 185-199. -/
def selectGdbms : List Str → Prog (Option (GPath × List Str))
  | [] => pure none
  | choice :: rest =>
    if choice = c!"y" ∨ choice = c!"yes" then getExistingGdbms DBMS_FOLDER rest
    else createNewDbms DBMS_FOLDER rest

end WG
