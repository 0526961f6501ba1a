/-
What the program shows: the calls of `print` and `input` in
/repo/wiggle_query_language/clauses/find/find.py, /repo/wiggle_shell/core/query/query.py,
/repo/wiggle_shell/core/select_gdbms/select_gdbms.py and /repo/wiggle_shell/wiggleshell.py.

The functions below are those of Model/Find, Model/Query, Model/Gdbms and Model/Shell once more, with their
output.  Not modelled: the texts of exceptions and the text of a `GDBMSFilePath` (they are kept as values),
and that `print` itself can fail.
-/
import Verif.Model.Shell

namespace WG

/-- One thing that appears on the screen. -/
inductive Shown where
  /-- `print(s)` -/
  | line (s : Str)
  /-- the prompt of `input(s)` -/
  | ask (s : Str)
  /-- `print(f"Using {gdbms_file_path}\n")` -/
  | using (g : GPath)
  /-- `print(e)` for an exception -/
  | error (e : PyErr)
  /-- `print(f"Database files could not be found {e}")` -/
  | notFound (e : PyErr)
deriving DecidableEq

/-- A program that also shows something: what is shown is kept when it raises. -/
structure Scr (α : Type) where
  prog : Prog (Except PyErr α × List Shown)

namespace Scr

/-- Sequencing. -/
def bind {α β : Type} (s : Scr α) (f : α → Scr β) : Scr β :=
  ⟨s.prog >>= fun x => match x with
    | (.ok a, out) => (f a).prog >>= fun y => pure (y.1, out ++ y.2)
    | (.error e, out) => pure (.error e, out)⟩

instance : Monad Scr where
  pure a := ⟨pure (.ok a, [])⟩
  bind := bind

/-- Something that shows nothing. -/
def lift {α : Type} (p : Prog α) : Scr α :=
  ⟨Prog.tryCatch (p >>= fun a => pure (.ok a, [])) fun e => pure (.error e, [])⟩

/-- `print` or the prompt of `input`. -/
def put (s : Shown) : Scr Unit := ⟨pure (.ok (), [s])⟩

/-- `raise`. -/
def raise {α : Type} (e : PyErr) : Scr α := ⟨pure (.error e, [])⟩

/-- `try: s except …: h`. -/
def tryCatch {α : Type} (s : Scr α) (h : PyErr → Scr α) : Scr α :=
  ⟨s.prog >>= fun x => match x with
    | (.ok a, out) => pure (.ok a, out)
    | (.error e, out) => (h e).prog >>= fun y => pure (y.1, out ++ y.2)⟩

end Scr

/-- `INPUT_PROMPT_SPACING`, wiggle_shell/__init__.py 6. -/
def promptSpacing : Str := c!"     "

/-- The prompt of `create_new_dbms`, select_gdbms.py 76. -/
def askName : Shown := .ask (c!"Please enter a new db name:" ++ promptSpacing)

/-- The prompt of `get_existing_gdbms`, select_gdbms.py 126-128. -/
def askLetter : Shown := .ask (c!"Please select a database to use (Letter):" ++ promptSpacing)

/-- The prompt of `select_gdbms`, select_gdbms.py 192. -/
def askUse : Shown := .ask (c!"Use existing dbms (y/n):" ++ promptSpacing)

/-- The prompt of `start_wiggle_shell`, wiggleshell.py 25-27. -/
def askQuery : Shown := .ask (c!"Please enter a query (q to exit): " ++ promptSpacing)

/-- "… is already taken", select_gdbms.py 82, 108. -/
def takenLine (name : Str) : Shown := .line (name ++ c!" is already taken, please choose another name.")

/-- "Using …", select_gdbms.py 101. -/
def usingLine (name : Str) : Shown := .line (c!"Using " ++ name)

/-- A row of the menu, select_gdbms.py 64. -/
def menuLine (x : Str × Str) : Shown := .line (x.1 ++ (c!"           " ++ x.2))

/-- The menu, select_gdbms.py 62-65. -/
def menuLines (d : Dict Str) : List Shown := .line c!"\nLetter      db_name" :: (d.map menuLine ++ [.line c!"\n"])

/-- `print` for every item. -/
def putAll : List Shown → Scr Unit
  | [] => pure ()
  | s :: ss => do
    Scr.put s
    putAll ss

/-- `get_new_gdbms_file_paths`, select_gdbms.py 86-109. -/
def getNewGdbmsFilePathsS (name folder : Str) : Scr GPath :=
  Scr.tryCatch (do
    let db ← Scr.lift (createNewDatabase name folder)
    let idx ← Scr.lift (createNewIndexesFile name folder)
    let wn ← Scr.lift (createNewWiggleNumberFile name folder)
    Scr.put (usingLine name)
    pure ⟨db, idx, wn⟩) fun e =>
      if e.isValueError then do
        Scr.put (takenLine name)
        Scr.raise e
      else Scr.raise e

/-- `create_new_dbms`, select_gdbms.py 69-83. -/
def createNewDbmsS (folder : Str) : List Str → Scr (Option (GPath × List Str))
  | [] => do
    Scr.put askName
    pure none
  | name :: rest => do
    Scr.put askName
    Scr.tryCatch (do
      let g ← getNewGdbmsFilePathsS name folder
      pure (some (g, rest))) fun e =>
        if e.isValueError then do
          Scr.put (takenLine name)
          createNewDbmsS folder rest
        else Scr.raise e

/-- `get_and_display_available_dbms`, select_gdbms.py 44-66. -/
def getAndDisplayAvailableDbmsS (folder : Str) : Scr (Option (Dict Str)) := do
  let choices ← Scr.lift (getAndDisplayAvailableDbms folder)
  match choices with
  | none => pure none
  | some d => do
    putAll (menuLines d)
    pure (some d)

/-- "There are no databases", select_gdbms.py 123. -/
def noDatabases : Shown := .line c!"There are no databases, please create a new database."

/-- "… does not exist", select_gdbms.py 133. -/
def missingLine (letter : Str) : Shown := .line (letter ++ c!" does not exist, please select an existing DB")

/-- `get_existing_gdbms`, select_gdbms.py 112-153. -/
def getExistingGdbmsS (folder : Str) : List Str → Scr (Option (GPath × List Str))
  | [] => do
    let choices ← getAndDisplayAvailableDbmsS DBMS_FOLDER
    match choices with
    | none => do
      Scr.put noDatabases
      createNewDbmsS folder []
    | some [] => do
      Scr.put noDatabases
      createNewDbmsS folder []
    | some _ => do
      Scr.put askLetter
      pure none
  | letter :: rest => do
    let choices ← getAndDisplayAvailableDbmsS DBMS_FOLDER
    match choices with
    | none => do
      Scr.put noDatabases
      createNewDbmsS folder (letter :: rest)
    | some [] => do
      Scr.put noDatabases
      createNewDbmsS folder (letter :: rest)
    | some (c :: cs) => do
      Scr.put askLetter
      match dictGet letter (c :: cs) with
      | none => do
        Scr.put (missingLine letter)
        getExistingGdbmsS folder rest
      | some name =>
        Scr.tryCatch (do
          let g ← Scr.lift (getExistingFiles folder name)
          pure (some (g, rest))) fun e =>
            if e = .fileNotFound then do
              Scr.put (.notFound e)
              getExistingGdbmsS folder rest
            else Scr.raise e

/-- `select_gdbms`, select_gdbms.py 185-199. -/
def selectGdbmsS : List Str → Scr (Option (GPath × List Str))
  | [] => do
    Scr.put askUse
    pure none
  | choice :: rest => do
    Scr.put askUse
    if choice = c!"y" ∨ choice = c!"yes" then getExistingGdbmsS DBMS_FOLDER rest
    else createNewDbmsS DBMS_FOLDER rest

variable [PyRuntime]

/-- "No results", find.py 22. -/
def noResultsLine : Shown := .line c!"\nNo results\n"

/-- `find`, find.py 11-25. -/
def findS (pf : ParsedFind) (g : GPath) (c : Option Criteria) : Scr Found := do
  let f ← Scr.lift (liftE (processParsedFind pf c))
  let b ← Scr.lift (findShortCircuit f g)
  if ¬ b = true then do
    Scr.put noResultsLine
    pure .noResults
  else pure .placeholder

/-- `execute_query`, query.py 53-71. -/
def executeQueryS (env : Env) (q : ParsedQuery) (g : GPath) : Scr Bool := do
  let _ ← Scr.lift (executeMakes env g q.make)
  match q.find with
  | none => Scr.raise .exception
  | some f => do
    let found ← findS f g none
    let _ ← Scr.lift (executeReport found g q.report)
    pure true

/-- `query`, query.py 81-93. -/
def queryS (env : Env) (q : Str) (g : GPath) : Scr Bool :=
  if (!validQuery q && false) = true then Scr.raise .notAValidQuery
  else do
    let parsed ← Scr.lift (liftE (parseQueryString q))
    let _ ← executeQueryS env parsed g
    pure true

/-- `print(query_string, "\n")`, wiggleshell.py 28. -/
def echoLine (q : Str) : Shown := .line (q ++ c!" \n")

/-- "Good Bye!", wiggleshell.py 31. -/
def byeLine : Shown := .line c!"Good Bye!"

/-- "A helpful guide …", wiggleshell.py 35. -/
def helpLine : Shown := .line c!"A helpful guide is on the way!\n"

/-- The loop of `start_wiggle_shell`, wiggleshell.py 24-44. -/
def shellLoopS (env : Env) (g : GPath) : List Str → Scr (List Event)
  | [] => do
    Scr.put askQuery
    pure []
  | q :: rest => do
    Scr.put askQuery
    Scr.put (echoLine q)
    if q = c!"q" then do
      Scr.put byeLine
      pure [.bye]
    else if isSubstr c!"help" (lower q) = true then do
      Scr.put helpLine
      let l ← shellLoopS env g rest
      pure (.help :: l)
    else do
      let ev ← Scr.tryCatch (do
        let _ ← queryS env q g
        pure Event.done) fun e => do
          Scr.put (.error e)
          pure (.failed e)
      let l ← shellLoopS env g rest
      pure (ev :: l)

/-- The three lines of the welcome, wiggleshell.py 13-15. -/
def welcome : List Shown :=
  [.line c!"**********************", .line c!"Welcome to WiggleGraph", .line c!"**********************\n"]

/-- `start_wiggle_shell`, wiggleshell.py 7-44. -/
def startWiggleShellS (env : Env) (inputs : List Str) : Scr (Option (List Event)) := do
  putAll welcome
  let sel ← selectGdbmsS inputs
  match sel with
  | none => pure none
  | some (g, rest) => do
    Scr.put (.using g)
    let l ← shellLoopS env g rest
    pure (some l)

end WG
