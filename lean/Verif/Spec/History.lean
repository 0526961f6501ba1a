/-
Histories of a GDBMS: MAKEs, wipes and crashes.
-/
import Verif.Spec.Make
import Verif.Spec.DemoFS

namespace WG
variable [PyRuntime]

/-- Operations that change a GDBMS. -/
inductive GOp where
  | make (env : Env) (pml : List ParsedMake)
  | wipeDatabase (imSure : Bool)
  | wipeLabels (imSure : Bool)
  | wipeNames (imSure : Bool)
  | wipeRels (imSure : Bool)

/-- The program of an operation. -/
def GOp.prog (g : GPath) : GOp → Prog Bool
  | .make env pml => WG.make env pml g
  | .wipeDatabase b => WG.wipeDatabase g.db b
  | .wipeLabels b => wipeNodeLabelsIndex g.idx b
  | .wipeNames b => wipeRelationshipNamesIndex g.idx b
  | .wipeRels b => wipeNodeRelationshipsIndex g.idx b

/-- A newly created GDBMS. -/
structure IsNew (fs : FS) (g : GPath) : Prop where
  db : fs.get g.db = some c!"{}"
  idx : fs.get g.idx = some emptyIndexText
  wn : fs.get g.wn = some c!"0"
  dir : DirOK fs g.wn
  db_idx : g.db ≠ g.idx
  db_wn : g.db ≠ g.wn
  idx_wn : g.idx ≠ g.wn

/-- The disks a new GDBMS can be on after any sequence of operations, successful or failing, and
crashes.  A crash stops an operation before, between or after its file-system calls; a write of the
database or index may be torn, the (few bytes of the) counter are written entirely or not at all. -/
inductive Reach (g : GPath) : FS → Prop where
  | new (fs : FS) : IsNew fs g → Reach g fs
  | op (fs : FS) (o : GOp) : Reach g fs → Reach g ((o.prog g).run fs).2
  | crash (fs fs' : FS) (o : GOp) : Reach g fs →
      CrashAt (fun p => p ≠ g.wn) (o.prog g) fs fs' → Reach g fs'

/-- The disks a new GDBMS can be on after any sequence of MAKE attempts whose patterns satisfy
`P`. -/
inductive MakeHist (P : ParsedPattern → Prop) (g : GPath) : FS → Prop where
  | new (fs : FS) : IsNew fs g → MakeHist P g fs
  | make (fs : FS) (env : Env) (pml : List ParsedMake) : MakeHist P g fs →
      (∀ p ∈ patsOf pml, P p) → MakeHist P g ((make env pml g).run fs).2

/-- No two entities have the same wiggle number, and every entity has one. -/
structure NumbersUnique (d : Dict V) : Prop where
  nodup : (allNumbers d).Nodup
  some : none ∉ allNumbers d

/-- Every node is stored under its own number. -/
def KeysAreNumbers (d : Dict V) : Prop := ∀ x ∈ d, ∃ w, nodeWn x.2 = some w ∧ x.1 = intStr w

/-- Every relationship is stored under its source node and leads to a different node. -/
def RelsAtSource (d : Dict V) : Prop :=
  ∀ x ∈ d, ∀ r ∈ relationsOf x.2, ∃ wn name src dst props,
    IsRel r wn name src dst props ∧ nodeWn x.2 = some src ∧ src ≠ dst

/-- The labels index has the label of every stored node. -/
def LabelsCovered (d : Dict V) (labels : List Str) : Prop :=
  ∀ x ∈ d, ∃ s, field c!"node_label" x.2 = some (.str s) ∧ s ∈ labels

/-- The names index has the name of every stored relationship that has one. -/
def NamesCovered (d : Dict V) (names : List Str) : Prop :=
  ∀ x ∈ d, ∀ r ∈ relationsOf x.2, ∀ s, field c!"relationship_name" r = some (.str s) → s ≠ [] → s ∈ names

/-- The relationship index has exactly the nodes with relationships, each with exactly the numbers of
its relationships. -/
structure RelsExact (d : Dict V) (rels : Dict (List Int)) : Prop where
  nums : ∀ k m, m ∈ relsOf rels k ↔ ∃ v, dictGet k d = some v ∧ some m ∈ (relationsOf v).map relWn
  keys : ∀ k, k ∈ rels.map Prod.fst ↔ ∃ v, dictGet k d = some v ∧ relationsOf v ≠ []

/-- Every label in the index belongs to a stored node. -/
def NoPhantoms (d : Dict V) (labels : List Str) : Prop :=
  ∀ s ∈ labels, ∃ x ∈ d, field c!"node_label" x.2 = some (.str s)

end WG
