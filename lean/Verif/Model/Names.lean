/-
Making a GDBMS under any typed text as its name: the functions of `Model/Gdbms` again, on directory
trees instead of `folder/dir/file`.  /repo/wiggle_shell/core/select_gdbms/*.py.  A stop half-way is not
modelled here.
-/
import Verif.Py.Tree
import Verif.Model.Gdbms

namespace WG

/-- The three paths of a GDBMS (`GDBMSFilePath`, models/wigish). -/
structure TreePaths where
  db : List Str
  idx : List Str
  wn : List Str
deriving DecidableEq, Repr

/-- The common body of `create_new_database`, `create_new_indexes_file` and
`create_new_wiggle_number_file` (select_database_file.py 15-30, select_index_file.py 17-36,
select_wiggle_number_file.py 18-30): `base.joinpath(name).mkdir`, the file
`base.joinpath(f"{name}/{pre}{name}{ext}")`. -/
def createFileT (base : List Str) (name pre ext text : Str) (t : Tree) : Except PyErr (List Str) × Tree :=
  match t.mkdirs (joinPath base name) with
  | (.error e, t1) => (.error e, t1)
  | (.ok (), t1) =>
    if t1.isFile (joinPath base (name ++ c!"/" ++ (pre ++ name ++ ext))) = true then (.error .value, t1)
    else match t1.touch (joinPath base (name ++ c!"/" ++ (pre ++ name ++ ext))) with
      | .error e => (.error e, t1)
      | .ok t2 =>
        match t2.overwrite (joinPath base (name ++ c!"/" ++ (pre ++ name ++ ext))) text with
        | .error e => (.error e, t2)
        | .ok t3 => (.ok (joinPath base (name ++ c!"/" ++ (pre ++ name ++ ext))), t3)

/-- `create_new_database`, select_database_file.py 7-30. -/
def createDatabaseT (base : List Str) (name : Str) (t : Tree) : Except PyErr (List Str) × Tree :=
  createFileT base name c!"database_" c!".json" c!"{}" t

/-- `create_new_indexes_file`, select_index_file.py 7-36. -/
def createIndexesT (base : List Str) (name : Str) (t : Tree) : Except PyErr (List Str) × Tree :=
  createFileT base name c!"indexes_" c!".json" newIndexText t

/-- `create_new_wiggle_number_file`, select_wiggle_number_file.py 9-30. -/
def createWiggleNumberT (base : List Str) (name : Str) (t : Tree) : Except PyErr (List Str) × Tree :=
  createFileT base name c!"wiggle_number_" c!".txt" c!"0" t

/-- `get_new_gdbms_file_paths`, select_gdbms.py 86-109. -/
def getNewPathsT (base : List Str) (name : Str) (t : Tree) : Except PyErr TreePaths × Tree :=
  match createDatabaseT base name t with
  | (.error e, t1) => (.error e, t1)
  | (.ok db, t1) =>
    match createIndexesT base name t1 with
    | (.error e, t2) => (.error e, t2)
    | (.ok idx, t2) =>
      match createWiggleNumberT base name t2 with
      | (.error e, t3) => (.error e, t3)
      | (.ok wn, t3) => (.ok ⟨db, idx, wn⟩, t3)

/-- `create_new_dbms`, select_gdbms.py 69-83: asks again after a ValueError; `none`: the inputs ran
out. -/
def createNewDbmsT (base : List Str) : List Str → Tree → Except PyErr (Option (TreePaths × List Str)) × Tree
  | [], t => (.ok none, t)
  | name :: rest, t =>
    match getNewPathsT base name t with
    | (.ok g, t1) => (.ok (some (g, rest)), t1)
    | (.error e, t1) => if e.isValueError then createNewDbmsT base rest t1 else (.error e, t1)

/-- `list_existing_dbms`, select_gdbms.py 23-41, of a directory that is there. -/
def listExistingT (skips : List Str) (base : List Str) (t : Tree) : List Str :=
  sortStrs ((t.subDirs base).filter fun x => !(skips.contains x))

end WG
