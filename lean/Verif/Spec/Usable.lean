/-
What it means that a GDBMS can still be used.
-/
import Verif.Spec.Make
import Verif.Model.Query

namespace WG
variable [PyRuntime]

/-- The three files are in order and the counter is above all numbers in use, so that a MAKE can store its nodes. -/
def Usable (fs : FS) (g : GPath) : Prop :=
  ∃ d labels names rels n, Healthy fs g d labels names rels n ∧ BelowCounter d n

/-- The database file or the index file is no longer JSON. -/
def Broken (fs : FS) (g : GPath) : Prop := Unreadable fs g.db ∨ Unreadable fs g.idx

/-- MAKE statements that pass every check but that the program cannot store: one has a property value that
is not JSON, or none of them has a relationship that is stored. -/
def Poison (ms : List ParsedMake) : Prop :=
  MakeOK ms ∧ ¬ ((∀ p ∈ patsOf ms, PatSer p) ∧ ∃ p ∈ patsOf ms, StoresRel p)

/-- The query is parsed and has the MAKE statements `ms` (at least one). -/
def Makes (q : Str) (ms : List ParsedMake) : Prop :=
  ms ≠ [] ∧ ∃ p, parseQueryString q = .ok p ∧ p.make = some ms

end WG
