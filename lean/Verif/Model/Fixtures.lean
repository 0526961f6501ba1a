/-
The fixtures the project's own tests rely on: /repo/conftest.py and
/repo/wiggle_shell/core/select_gdbms/tests/conftest.py.

A fixture is two programs: what runs before the test (up to `yield`) and what runs after it.  The paths
are parameters; in the repository they are those of /repo/testing/__init__.py 6-18.
-/
import Verif.Model.Gdbms
import Verif.Model.Database
import Verif.Model.Indexes

namespace WG

section
variable [PyRuntime]

/-- The lines that write `0` into a file, conftest.py 60-61, 65-66, 75-76, 84-85. -/
def writeZero (p : Path) : Prog Unit := do
  unitOp (.openW p) .fileNotFound
  unitOp (.write p 0 c!"0") .osError

/-- `clear_dbms_test` before the test, conftest.py 71-76. -/
def dbmsSetup (g : GPath) : Prog Unit := do
  let _ ← wipeDatabase g.db true
  let _ ← wipeNodeRelationshipsIndex g.idx true
  let _ ← wipeNodeLabelsIndex g.idx true
  let _ ← wipeRelationshipNamesIndex g.idx true
  writeZero g.wn

/-- `clear_dbms_test` after the test, conftest.py 80-85: the relationship index is wiped in the counter
file, and the `0` goes into the index file. -/
def dbmsTeardown (g : GPath) : Prog Unit := do
  let _ ← wipeDatabase g.db true
  let _ ← wipeNodeRelationshipsIndex g.wn true
  let _ ← wipeNodeLabelsIndex g.idx true
  let _ ← wipeRelationshipNamesIndex g.idx true
  writeZero g.idx

/-- The fixtures for one file, conftest.py 22-66: `clear_database_test`, `clear_node_relationship_index_test`,
`clear_node_labels_index_test`, `clear_relationship_names_index_test`, `clear_wiggle_number_test`. -/
inductive OneFixture where
  | database | nodeRelationships | nodeLabels | relationshipNames | wiggleNumber

/-- What they do, before the test as after it: conftest.py 24, 28; 33, 37; 42, 46; 51, 55; 60-61, 65-66. -/
def OneFixture.clear (g : GPath) : OneFixture → Prog Unit
  | .database => do
    let _ ← wipeDatabase g.db true
    pure ()
  | .nodeRelationships => do
    let _ ← wipeNodeRelationshipsIndex g.idx true
    pure ()
  | .nodeLabels => do
    let _ ← wipeNodeLabelsIndex g.idx true
    pure ()
  | .relationshipNames => do
    let _ ← wipeRelationshipNamesIndex g.idx true
    pure ()
  | .wiggleNumber => writeZero g.wn

/-- The loop of `wigsh_clear_test_gdbmss`, select_gdbms/tests/conftest.py 19-20. -/
def deleteEach (folder : Str) : List Str → Prog Unit
  | [] => pure ()
  | name :: rest => do
    let _ ← deleteGdbms name folder
    deleteEach folder rest

/-- `skips`, select_gdbms/tests/conftest.py 14. -/
def fixtureSkips : List Str := [c!"sample_gdbms"]

/-- `wigsh_clear_test_gdbmss`, select_gdbms/tests/conftest.py 13-20. -/
def clearTestGdbmss (folder : Str) : Prog Unit := do
  let names ← listExistingDbms fixtureSkips folder
  deleteEach folder names

/-- `wigsh_setup_databases` before the test, select_gdbms/tests/conftest.py 25-26. -/
def setupDatabases (folder : Str) : Prog Unit := do
  clearTestGdbmss folder
  let _ ← createNewDatabase c!"test" folder
  pure ()

end

end WG
