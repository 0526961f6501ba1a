/-
C94: a copy of a GDBMS behaves as the GDBMS.
-/
import Verif.Proofs.Copied
import Verif.Spec.DemoFS

set_option linter.unusedSectionVars false

namespace WG
section
variable [PyRuntime]

/-- C94, every session of any texts, on every disk: the same events, the same screen, and the files are copies again. -/
theorem C94_session (g g' : GPath) (hg : g.Apart) (hg' : g'.Apart) (env : Env) (inputs : List Str) (a b : FS) (h : Copied g g' a b) :
    ((shellLoop env g inputs).run a).1 = ((shellLoop env g' inputs).run b).1 ∧
    (shellLoopS env g inputs).shows a = (shellLoopS env g' inputs).shows b ∧
    Copied g g' ((shellLoop env g inputs).run a).2 ((shellLoop env g' inputs).run b).2 := by
  obtain ⟨h1, h2⟩ := run_twin hg hg' (twin_shellProg env inputs) h
  refine ⟨h1, ?_, h2⟩
  have := (run_twin hg hg' (twin_shell env inputs) h).1
  simp only [Scr.shows, this]

/-- C94, when the program is stopped: what can be left of the one can be left of the other. -/
theorem C94_stopped (g g' : GPath) (hg : g.Apart) (hg' : g'.Apart) (env : Env) (inputs : List Str) (a b a' : FS) (h : Copied g g' a b)
    (hc : CrashAt (fun _ => True) (shellLoop env g inputs) a a') :
    ∃ b', CrashAt (fun _ => True) (shellLoop env g' inputs) b b' ∧ Copied g g' a' b' :=
  crash_twin hg hg' (twin_shellProg env inputs) h (fun _ _ _ _ => trivial) hc

/-- C94, two shells at the same time: after any number of steps in any order the files are copies. -/
theorem C94_schedule (g g' : GPath) (hg : g.Apart) (hg' : g'.Apart) (env env' : Env) (inputs inputs' : List Str) (bs : List Bool) (a b : FS)
    (h : Copied g g' a b) :
    Copied g g' (runSched bs (shellLoop env g inputs) (shellLoop env' g inputs') a).2.2
      (runSched bs (shellLoop env g' inputs) (shellLoop env' g' inputs') b).2.2 :=
  (sched_twin hg hg' bs (twin_shellProg env inputs) (twin_shellProg env' inputs') h).2.2

/-- The files of a GDBMS are apart, whatever its name. -/
theorem C94_names (folder name : Str) : (gdbmsPath folder name).Apart := by
  constructor <;> simp [gdbmsPath, dbPath, idxPath, wnPath]

end

section
attribute [local instance] demoRuntime

/-- A GDBMS with a record, on a disk by itself, and its copy under another name beside an empty one. -/
def copyFrom : FS := demoTwo

def copyTo : FS :=
  { folders := [c!"dbms"], dirs := [(c!"dbms", c!"new"), (c!"dbms", c!"old")], plain := [],
    files := [(dbPath c!"dbms" c!"new", c!"{}"), (wnPath c!"dbms" c!"old", c!"3"), (idxPath c!"dbms" c!"old", emptyIndexText),
      (dbPath c!"dbms" c!"old", (jsonDump (.dict demoRecords)).1)] }

theorem copy_copied : Copied demoG (gdbmsPath c!"dbms" c!"old") copyFrom copyTo := by
  constructor <;> decide +kernel

theorem demoG_apart : demoG.Apart := by constructor <;> decide

example (inputs : List Str) : (shellLoopS demoEnv demoG inputs).shows copyFrom = (shellLoopS demoEnv (gdbmsPath c!"dbms" c!"old") inputs).shows copyTo :=
  (C94_session _ _ demoG_apart (C94_names _ _) demoEnv inputs _ _ copy_copied).2.1

end
end WG
