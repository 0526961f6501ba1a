/-
Directory trees and the part of `pathlib` that /repo applies to the name of a GDBMS.

`Py/Files` knows only paths of the form `folder/dir/file`.  Here a path is any list of components, so
that every text that can be typed as a name has a meaning.  Symbolic links, permissions and limits on
the length of names are not modelled.
-/
import Verif.Py.Basic

namespace WG

/-- What is found under a path. -/
inductive Entry where
  | dir
  | file (s : Str)
deriving DecidableEq, Repr

/-- A place in the tree: the names from the root down (no `.` and `..` in it). -/
abbrev Place := List Str

/-- A directory tree: the places that exist, except the root, which always does. -/
abbrev Tree := List (Place × Entry)

/-- Looks a place up. -/
def findEntry (p : Place) : Tree → Option Entry
  | [] => none
  | (q, e) :: t => if q = p then some e else findEntry p t

/-- What is found under a place. -/
def Tree.look (t : Tree) (p : Place) : Option Entry := if p = [] then some .dir else findEntry p t

/-- Replaces or adds an entry. -/
def putEntry (p : Place) (e : Entry) : Tree → Tree
  | [] => [(p, e)]
  | (q, f) :: t => if q = p then (q, e) :: t else (q, f) :: putEntry p e t

/-- The components of a text, as `PurePosixPath` splits it: empty ones and `.` are dropped, `..` is
kept (pathlib.py `_Flavour.parse_parts`). -/
def pathParts (s : Str) : List Str := (splitChar '/' s).filter fun x => x ≠ [] ∧ x ≠ c!"."

/-- `base.joinpath(s)`: an absolute `s` replaces the base. -/
def joinPath (base : List Str) (s : Str) : List Str :=
  match s with
  | '/' :: _ => pathParts s
  | _ => base ++ pathParts s

/-- How the system finds the place of a path: every component but the last must be a directory; `..` is
the directory above (the root for the root). -/
def Tree.walk (t : Tree) : Place → List Str → Except PyErr Place
  | at_, [] => .ok at_
  | at_, c :: cs =>
    match t.look at_ with
    | none => .error .fileNotFound
    | some (.file _) => .error .osError
    | some .dir => t.walk (if c = c!".." then at_.dropLast else at_ ++ [c]) cs

/-- A text with a NUL is no path: `ValueError: embedded null byte`. -/
def hasNul (p : List Str) : Bool := p.any fun c => c.contains (Char.ofNat 0)

/-- The place of a path. -/
def Tree.resolve (t : Tree) (p : List Str) : Except PyErr Place :=
  if hasNul p then .error .value else t.walk [] p

/-- `Path.is_dir()`, `false` for whatever cannot be found. -/
def Tree.isDir (t : Tree) (p : List Str) : Bool :=
  match t.resolve p with
  | .ok q => decide (t.look q = some .dir)
  | .error _ => false

/-- `Path.is_file()`. -/
def Tree.isFile (t : Tree) (p : List Str) : Bool :=
  match t.resolve p with
  | .ok q => match t.look q with
    | some (.file _) => true
    | _ => false
  | .error _ => false

/-- `os.mkdir`: an existing place is a FileExistsError. -/
def Tree.osMkdir (t : Tree) (p : List Str) : Except PyErr Tree :=
  match t.resolve p with
  | .error e => .error e
  | .ok q => match t.look q with
    | some _ => .error .osError
    | none => .ok (putEntry q .dir t)

/-- The last attempt of `Path.mkdir(exist_ok=True)`: an OSError is ignored if the directory is there, a
FileNotFoundError is not. -/
def Tree.mkdirLast (t : Tree) (p : List Str) : Except PyErr Tree :=
  match t.osMkdir p with
  | .ok t' => .ok t'
  | .error e => if e = .osError ∧ t.isDir p = true then .ok t else .error e

/-- `Path.mkdir(parents=True, exist_ok=True)` (pathlib.py, Python 3.10) of the path with the reversed
components `r`: on a FileNotFoundError the parent is made first.  The second component is the tree
left behind, also by an exception. -/
def Tree.mkdirRev (t : Tree) : List Str → Except PyErr Unit × Tree
  | [] => (.ok (), t)
  | c :: r =>
    match t.osMkdir (c :: r).reverse with
    | .ok t' => (.ok (), t')
    | .error .fileNotFound =>
      match t.mkdirRev r with
      | (.error e, t1) => (.error e, t1)
      | (.ok (), t1) =>
        match t1.mkdirLast (c :: r).reverse with
        | .ok t2 => (.ok (), t2)
        | .error e => (.error e, t1)
    | .error e => if e = .osError ∧ t.isDir (c :: r).reverse = true then (.ok (), t) else (.error e, t)

/-- `Path.mkdir(parents=True, exist_ok=True)`. -/
def Tree.mkdirs (t : Tree) (p : List Str) : Except PyErr Unit × Tree := t.mkdirRev p.reverse

/-- `Path.touch()`: an existing entry keeps its content. -/
def Tree.touch (t : Tree) (p : List Str) : Except PyErr Tree :=
  match t.resolve p with
  | .error e => .error e
  | .ok q => match t.look q with
    | some _ => .ok t
    | none => .ok (putEntry q (.file []) t)

/-- `open(p, "w")`, `write(s)`, close: the file has the content `s`. -/
def Tree.overwrite (t : Tree) (p : List Str) (s : Str) : Except PyErr Tree :=
  match t.resolve p with
  | .error e => .error e
  | .ok q => match t.look q with
    | some .dir => .error .osError
    | _ => .ok (putEntry q (.file s) t)

/-- The names of the directories in a directory (`iterdir()` with `is_dir()`). -/
def Tree.subDirs (t : Tree) (base : Place) : List Str :=
  t.filterMap fun x => if x.1 ≠ [] ∧ x.1.dropLast = base ∧ t.look x.1 = some .dir then x.1.getLast? else none

end WG
