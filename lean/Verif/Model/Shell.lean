/- /repo/wiggle_shell/wiggleshell.py.  The typed texts are a list of inputs; every input leaves one
event in the log. -/
import Verif.Model.Query
import Verif.Model.Gdbms

namespace WG
variable [PyRuntime]

/-- What the shell did with an input. -/
inductive Event where
  /-- printed "A helpful guide is on the way!" -/
  | help
  /-- ran the query without an exception -/
  | done
  /-- ran the query and printed the exception -/
  | failed (e : PyErr)
  /-- printed "Good Bye!" and left -/
  | bye
deriving DecidableEq, Repr

/-- The loop of `start_wiggle_shell`, wiggleshell.py 24-44. -/
def shellLoop (env : Env) (g : GPath) : List Str → Prog (List Event)
  | [] => pure []
  | q :: rest =>
    if q = c!"q" then pure [.bye]
    else if isSubstr c!"help" (lower q) = true then do
      let l ← shellLoop env g rest
      pure (.help :: l)
    else do
      let ev ← Prog.tryCatch (do let _ ← query env q g; pure Event.done) fun e => pure (.failed e)
      let l ← shellLoop env g rest
      pure (ev :: l)

/-- `start_wiggle_shell`, wiggleshell.py 7-44: select a GDBMS, then work on it.  `none`: still
selecting. -/
def startWiggleShell (env : Env) (inputs : List Str) : Prog (Option (List Event)) := do
  let sel ← selectGdbms inputs
  match sel with
  | none => pure none
  | some (g, rest) => do
    let l ← shellLoop env g rest
    pure (some l)

end WG
