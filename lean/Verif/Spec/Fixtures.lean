/-
What a fixture should leave.
-/
import Verif.Model.Fixtures

namespace WG

/-- The three files of a GDBMS are those of an empty one: no records, the three indexes empty (whatever
else the index file has is kept from `D`), counter 0. -/
structure Emptied [PyRuntime] (g : GPath) (D : Dict V) (fs : FS) : Prop where
  db : fs.get g.db = some c!"{}"
  idx : ∃ t D', fs.get g.idx = some t ∧ jsonLoad t = some (.dict D') ∧
    dictGet c!"node_labels" D' = some (.list []) ∧ dictGet c!"relationship_names" D' = some (.list []) ∧
    dictGet c!"node_relationships" D' = some (.dict []) ∧
    ∀ k, k ∉ [c!"node_labels", c!"relationship_names", c!"node_relationships"] → dictGet k D' = dictGet k D
  wn : fs.get g.wn = some c!"0"

/-- The folder of the test GDBMSs is one the clearing of it is written for: no name or file that
`Path.glob` and `rmdir` trip over. -/
structure Tidy (folder : Str) (fs : FS) : Prop where
  isThere : folder ∈ fs.folders
  oneEach : fs.dirs.Nodup
  oneFile : (fs.files.map Prod.fst).Nodup
  inside : ∀ p, fs.get p ≠ none → (p.folder, p.dir) ∈ fs.dirs
  noMagic : ∀ name, (folder, name) ∈ fs.dirs → ∀ c ∈ name, c ≠ '*' ∧ c ≠ '?' ∧ c ≠ '['
  noHidden : ∀ p, p.folder = folder → p.file.head? = some '.' → fs.get p = none

/-- One entry of an index file is replaced by the given empty value, all others are kept. -/
def EntryCleared [PyRuntime] (p : Path) (key : Str) (empty : V) (D : Dict V) (fs' : FS) : Prop :=
  ∃ t D', fs'.get p = some t ∧ jsonLoad t = some (.dict D') ∧ dictGet key D' = some empty ∧ ∀ k, k ≠ key → dictGet k D' = dictGet k D

/-- What a fixture for one file should leave (`D` is what the index file held). -/
def OneCleared [PyRuntime] (g : GPath) (D : Dict V) (fs' : FS) : OneFixture → Prop
  | .database => fs'.get g.db = some c!"{}"
  | .nodeRelationships => EntryCleared g.idx c!"node_relationships" (.dict []) D fs'
  | .nodeLabels => EntryCleared g.idx c!"node_labels" (.list []) D fs'
  | .relationshipNames => EntryCleared g.idx c!"relationship_names" (.list []) D fs'
  | .wiggleNumber => fs'.get g.wn = some c!"0"

/-- The file it is about. -/
def OneFixture.file (g : GPath) : OneFixture → Path
  | .database => g.db
  | .wiggleNumber => g.wn
  | _ => g.idx

end WG
