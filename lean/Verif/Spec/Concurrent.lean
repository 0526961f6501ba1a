/-
Several shells (and deletions) at the same time.  Their file-system calls are interleaved in any way; every single call is atomic.
-/
import Verif.Spec.Usable
import Verif.Model.Shell

namespace WG
variable [PyRuntime]

/-- What somebody runs. -/
inductive Job where
  /-- a shell that has selected the GDBMS `name`, with the texts typed from then on -/
  | session (env : Env) (folder name : Str) (inputs : List Str)
  /-- a shell from its start, with all texts typed -/
  | start (env : Env) (inputs : List Str)
  /-- `delete_gdbms(name, folder)` -/
  | delete (name folder : Str)

/-- The program of a job. -/
def Job.prog : Job → Prog (Option (List Event))
  | .session env folder name inputs => do
    let l ← shellLoop env (gdbmsPath folder name) inputs
    pure (some l)
  | .start env inputs => startWiggleShell env inputs
  | .delete name folder => do
    let _ ← deleteGdbms name folder
    pure none

/-- Any number of programs at the same time.  The schedule lists whose turn it is; at its turn a program makes its next call. -/
def runMany {α : Type} : List Nat → List (Prog α) → FS → List (Prog α) × FS
  | [], ps, fs => (ps, fs)
  | i :: sched, ps, fs =>
    match ps[i]? with
    | none => runMany sched ps fs
    | some p => runMany sched (ps.set i (stepProg p fs).1) (stepProg p fs).2

/-- The job does not disturb the GDBMS `name` in `folder`: it is a session on another one, a session in which nothing is made, a
shell that makes a new one under another name and works there, or the deletion of another one (whose name has no wildcards). -/
inductive Job.Spares (folder name : Str) : Job → Prop where
  | elsewhere (env : Env) (f n : Str) (inputs : List Str) (h : (f, n) ≠ (folder, name)) : Spares folder name (.session env f n inputs)
  | reader (env : Env) (f n : Str) (inputs : List Str) (h : ∀ q ∈ inputs, ∀ ms, ¬ Makes q ms) :
      Spares folder name (.session env f n inputs)
  | makesNew (env : Env) (choice : Str) (inputs : List Str) (h1 : choice ≠ c!"y") (h2 : choice ≠ c!"yes")
      (h : folder = DBMS_FOLDER → name ∉ inputs) : Spares folder name (.start env (choice :: inputs))
  | delete (f n : Str) (hm : hasMagic n = false) (h : (f, n) ≠ (folder, name)) : Spares folder name (.delete n f)

/-- Two disks agree on a directory: on whether it exists and on all files in it. -/
def SameDir (folder name : Str) (a b : FS) : Prop :=
  ((folder, name) ∈ a.dirs ↔ (folder, name) ∈ b.dirs) ∧ ∀ p : Path, p.folder = folder → p.dir = name → a.get p = b.get p

end WG
