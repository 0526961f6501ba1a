/-
A small file system, and Python programs as trees of file-system calls.

A program (`Prog`) is a tree: it returns, raises, or performs one file-system call and goes on
with the response.  One model of a function therefore gives its sequential result (`run`), its
crash states (`CrashAt`) and its interleavings with another program (`runSched`).
-/
import Verif.Py.Basic

namespace WG

/-- A path of the form `folder/dir/file`: `folder` is the DBMS folder, `dir` a GDBMS name.
All three are single path components (no `/`, no NUL, not empty, not `.` or `..`); other names are the
subject of `Py/Tree`. -/
structure Path where
  folder : Str
  dir : Str
  file : Str
deriving DecidableEq, Repr

/-- The part of the disk the program touches.
* `folders`: existing DBMS folders;
* `dirs`: sub-directories of the folders;
* `plain`: regular files directly in a folder (they only matter for `is_dir`, listing and `mkdir`);
* `files`: the files inside the sub-directories, with their text.
Directories nested deeper are not modelled. -/
structure FS where
  folders : List Str
  dirs : List (Str × Str)
  plain : List (Str × Str)
  files : List (Path × Str)
deriving DecidableEq, Repr

/-- Content of a file. -/
def lookupFile (p : Path) : List (Path × Str) → Option Str
  | [] => none
  | (q, s) :: l => if q = p then some s else lookupFile p l

/-- Replaces or adds a file. -/
def insertFile (p : Path) (s : Str) : List (Path × Str) → List (Path × Str)
  | [] => [(p, s)]
  | (q, t) :: l => if q = p then (q, s) :: l else (q, t) :: insertFile p s l

/-- Content of a file. -/
def FS.get (fs : FS) (p : Path) : Option Str := lookupFile p fs.files

/-- Replaces or adds a file. -/
def FS.set (fs : FS) (p : Path) (s : Str) : FS := { fs with files := insertFile p s fs.files }

/-- Writing `s` at offset `pos` over `old` (`seek(pos)`, `write(s)`; no truncation; a gap is
filled with NULs). -/
def overlay (old : Str) (pos : Nat) (s : Str) : Str :=
  old.take pos ++ List.replicate (pos - old.length) (Char.ofNat 0) ++ s ++ old.drop (pos + s.length)

/-- File-system calls. -/
inductive Op where
  /-- `open(p, "r")` or `open(p, "r+")` followed by reading everything -/
  | read (p : Path)
  /-- `open(p, "w")`: creates or empties the file -/
  | openW (p : Path)
  /-- the text `s` reaches the disk at offset `pos` (flush or close) -/
  | write (p : Path) (pos : Nat) (s : Str)
  /-- `truncate()` at offset `len` -/
  | truncate (p : Path) (len : Nat)
  /-- `Path.is_file()` -/
  | isFile (p : Path)
  /-- `Path.is_dir()` of a sub-directory -/
  | isDir (folder dir : Str)
  /-- `mkdir(parents=True, exist_ok=True)` -/
  | mkdir (folder dir : Str)
  /-- `Path.touch()` -/
  | touch (p : Path)
  /-- the sub-directories found by `iterdir()` + `is_dir()` -/
  | listDirs (folder : Str)
  /-- the files of the sub-directories satisfying `sel`, hidden files excepted (`glob`) -/
  | listFiles (folder : Str) (sel : Str → Bool)
  /-- `os.remove` -/
  | remove (p : Path)
  /-- `Path.rmdir()` -/
  | rmdir (folder dir : Str)

/-- Responses. `fail` = the call raised an `OSError`/`FileNotFoundError`. -/
inductive Resp where
  | ok
  | fail
  | txt (s : Str)
  | flag (b : Bool)
  | names (l : List Str)
  | paths (l : List Path)

/-- A hidden name starts with a dot (`glob._ishidden`). -/
def isHidden : Str → Bool
  | '.' :: _ => true
  | _ => false

/-- Effect of one call. -/
def exec : Op → FS → Resp × FS
  | .read p, fs =>
    match fs.get p with
    | some s => (.txt s, fs)
    | none => (.fail, fs)
  | .openW p, fs =>
    if (p.folder, p.dir) ∈ fs.dirs then (.ok, fs.set p []) else (.fail, fs)
  | .write p pos s, fs =>
    match fs.get p with
    | some old => (.ok, fs.set p (overlay old pos s))
    | none => (.fail, fs)
  | .truncate p len, fs =>
    match fs.get p with
    | some old => (.ok, fs.set p (old.take len))
    | none => (.fail, fs)
  | .isFile p, fs => (.flag (fs.get p).isSome, fs)
  | .isDir f d, fs => (.flag (decide ((f, d) ∈ fs.dirs)), fs)
  | .mkdir f d, fs =>
    if (f, d) ∈ fs.dirs then (.ok, fs)
    else if (f, d) ∈ fs.plain then (.fail, fs)
    else
      (.ok, { fs with folders := if f ∈ fs.folders then fs.folders else fs.folders ++ [f],
                      dirs := fs.dirs ++ [(f, d)] })
  | .touch p, fs =>
    if (p.folder, p.dir) ∈ fs.dirs then
      (.ok, if (fs.get p).isSome then fs else fs.set p [])
    else (.fail, fs)
  | .listDirs f, fs =>
    if f ∈ fs.folders then (.names ((fs.dirs.filter fun x => x.1 = f).map Prod.snd), fs)
    else (.fail, fs)
  | .listFiles f sel, fs =>
    (.paths ((fs.files.map Prod.fst).filter fun p =>
      decide (p.folder = f) && sel p.dir && !isHidden p.file), fs)
  | .remove p, fs =>
    if (fs.get p).isSome then (.ok, { fs with files := fs.files.filter fun x => x.1 ≠ p })
    else (.fail, fs)
  | .rmdir f d, fs =>
    if (f, d) ∈ fs.dirs ∧ (fs.files.all fun x => ¬ (x.1.folder = f ∧ x.1.dir = d)) = true then
      (.ok, { fs with dirs := fs.dirs.filter fun x => x ≠ (f, d) })
    else (.fail, fs)

/-- A Python program that works on files. -/
inductive Prog (α : Type) : Type where
  | ret (a : α)
  | raise (e : PyErr)
  | act (op : Op) (k : Resp → Prog α)

namespace Prog

/-- Sequencing. -/
def bind {α β : Type} : Prog α → (α → Prog β) → Prog β
  | .ret a, f => f a
  | .raise e, _ => .raise e
  | .act op k, f => .act op fun r => (k r).bind f

instance : Monad Prog where
  pure := .ret
  bind := bind

/-- `try: p except …: h`. -/
def tryCatch {α : Type} : Prog α → (PyErr → Prog α) → Prog α
  | .ret a, _ => .ret a
  | .raise e, h => h e
  | .act op k, h => .act op fun r => (k r).tryCatch h

/-- Sequential execution: outcome and resulting file system. -/
def run {α : Type} : Prog α → FS → Except PyErr α × FS
  | .ret a, fs => (.ok a, fs)
  | .raise e, fs => (.error e, fs)
  | .act op k, fs => (k (exec op fs).1).run (exec op fs).2

end Prog

/-- A pure computation that may raise. -/
def liftE {α : Type} : Except PyErr α → Prog α
  | .ok a => .ret a
  | .error e => .raise e

/-- Crash states of a program started on `fs`: the machine stops before, between or after the
file-system calls; a write to a path with `tear p` may have put only a prefix on the disk. -/
inductive CrashAt {α : Type} (tear : Path → Prop) : Prog α → FS → FS → Prop where
  | here (p : Prog α) (fs : FS) : CrashAt tear p fs fs
  | torn (p : Path) (pos : Nat) (s : Str) (n : Nat) (k : Resp → Prog α) (fs : FS) :
      tear p → CrashAt tear (.act (.write p pos s) k) fs (exec (.write p pos (s.take n)) fs).2
  | step (op : Op) (k : Resp → Prog α) (fs fs' : FS) :
      CrashAt tear (k (exec op fs).1) (exec op fs).2 fs' → CrashAt tear (.act op k) fs fs'

/-- One call of a program. -/
def stepProg {α : Type} : Prog α → FS → Prog α × FS
  | .act op k, fs => (k (exec op fs).1, (exec op fs).2)
  | p, fs => (p, fs)

/-- Two programs interleaved according to a schedule (`false` = first, `true` = second). -/
def runSched {α β : Type} : List Bool → Prog α → Prog β → FS → Prog α × Prog β × FS
  | [], p, q, fs => (p, q, fs)
  | false :: bs, p, q, fs => runSched bs (stepProg p fs).1 q (stepProg p fs).2
  | true :: bs, p, q, fs => runSched bs p (stepProg q fs).1 (stepProg q fs).2

/-! ### Wrappers -/

/-- Open for reading and read. -/
def readFile (p : Path) : Prog Str :=
  .act (.read p) fun
    | .txt s => .ret s
    | _ => .raise .fileNotFound

/-- A call that answers `ok` or raises. -/
def unitOp (op : Op) (e : PyErr) : Prog Unit :=
  .act op fun
    | .ok => .ret ()
    | _ => .raise e

/-- A call that answers with a truth value. -/
def flagOp (op : Op) : Prog Bool :=
  .act op fun
    | .flag b => .ret b
    | _ => .raise .osError

end WG
