/-
The terminal: what `print` and `input` show (Model/Screen) together with what the second handler of the log,
/repo/wiggle_graph_logger/graph_logger.py 10-12, writes to the same stream (Model/Log), in the order in which it appears.

Both write to `sys.stdout`, and the handler flushes after every entry, so the order is that of the calls.
-/
import Verif.Model.Screen
import Verif.Model.Log

namespace WG
variable [PyRuntime]

/-- One thing that appears on the terminal. -/
inductive Out where
  /-- by `print` or `input` -/
  | shown (s : Shown)
  /-- by the log -/
  | logged (e : LogEntry)
deriving DecidableEq

/-- A program with everything it writes to the terminal; it is kept when it raises. -/
structure Term (α : Type) where
  prog : Prog (Except PyErr α × List Out)

namespace Term

/-- Sequencing. -/
def bind {α β : Type} (s : Term α) (f : α → Term β) : Term β :=
  ⟨s.prog >>= fun x => match x with
    | (.ok a, out) => (f a).prog >>= fun y => pure (y.1, out ++ y.2)
    | (.error e, out) => pure (.error e, out)⟩

instance : Monad Term where
  pure a := ⟨pure (.ok a, [])⟩
  bind := bind

/-- Something that calls `print` and `input` only. -/
def ofScr {α : Type} (s : Scr α) : Term α := ⟨s.prog >>= fun x => pure (x.1, x.2.map .shown)⟩

/-- Something that logs only. -/
def ofLg {α : Type} (s : Lg α) : Term α := ⟨s.prog >>= fun x => pure (x.1, x.2.map .logged)⟩

/-- `raise`. -/
def raise {α : Type} (e : PyErr) : Term α := ⟨pure (.error e, [])⟩

/-- `try: s except …: h`. -/
def tryCatch {α : Type} (s : Term α) (h : PyErr → Term α) : Term α :=
  ⟨s.prog >>= fun x => match x with
    | (.ok a, out) => pure (.ok a, out)
    | (.error e, out) => (h e).prog >>= fun y => pure (y.1, out ++ y.2)⟩

end Term

/-- `print` or the prompt of `input`. -/
def putT (s : Shown) : Term Unit := Term.ofScr (Scr.put s)

/-- `find`, find.py 11-25. -/
def findT (pf : ParsedFind) (g : GPath) (c : Option Criteria) : Term Found := do
  let f ← Term.ofLg (processParsedFindL pf c)
  let b ← Term.ofLg (findShortCircuitL f g)
  if ¬ b = true then do
    putT noResultsLine
    pure .noResults
  else pure .placeholder

/-- `execute_query`, query.py 53-71. -/
def executeQueryT (env : Env) (q : ParsedQuery) (g : GPath) : Term Bool := do
  let _ ← Term.ofLg (executeMakesL env g q.make)
  match q.find with
  | none => Term.raise .exception
  | some f => do
    let found ← findT f g none
    let _ ← Term.ofLg (Lg.lift (executeReport found g q.report))
    pure true

/-- `query`, query.py 81-93. -/
def queryT (env : Env) (q : Str) (g : GPath) : Term Bool :=
  if (!validQuery q && false) = true then Term.raise .notAValidQuery
  else do
    let parsed ← Term.ofLg (Lg.lift (liftE (parseQueryString q)))
    let _ ← executeQueryT env parsed g
    pure true

/-- The loop of `start_wiggle_shell`, wiggleshell.py 24-44. -/
def shellLoopT (env : Env) (g : GPath) : List Str → Term (List Event)
  | [] => do
    putT askQuery
    pure []
  | q :: rest => do
    putT askQuery
    putT (echoLine q)
    if q = c!"q" then do
      putT byeLine
      pure [.bye]
    else if isSubstr c!"help" (lower q) = true then do
      putT helpLine
      let l ← shellLoopT env g rest
      pure (.help :: l)
    else do
      let ev ← Term.tryCatch (do
        let _ ← queryT env q g
        pure Event.done) fun e => do
          putT (.error e)
          pure (.failed e)
      let l ← shellLoopT env g rest
      pure (ev :: l)

/-- `start_wiggle_shell`, wiggleshell.py 7-44 (selecting and creating a GDBMS logs nothing). -/
def startWiggleShellT (env : Env) (inputs : List Str) : Term (Option (List Event)) := do
  Term.ofScr (putAll welcome)
  let sel ← Term.ofScr (selectGdbmsS inputs)
  match sel with
  | none => pure none
  | some (g, rest) => do
    putT (.using g)
    let l ← shellLoopT env g rest
    pure (some l)

/-- What of it appears when the logger has this level. -/
def onTerminal (l : Level) (os : List Out) : List Out :=
  os.filter fun o => match o with
    | .shown _ => true
    | .logged e => decide (l.num ≤ e.level.num)

end WG
