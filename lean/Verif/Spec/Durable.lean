/-
Durability: processes that end or are stopped at any moment, one after the other, on the same disk.
-/
import Verif.Spec.Usable
import Verif.Model.Shell

namespace WG
variable [PyRuntime]

/-- The database file holds exactly these records, in this order. -/
structure Stored (fs : FS) (p : Path) (d : Dict V) : Prop where
  text : fs.get p = some (jsonDump (.dict d)).1
  load : Holds fs p d

/-- A write to this file may be cut off anywhere: every file except the database files. -/
def NotDatabase (p : Path) : Prop := ∀ x, p ≠ ⟨c!"dbms", x, c!"database_" ++ x ++ c!".json"⟩

/-- Whatever the text makes has property values that JSON can represent. -/
def JsonOnly (q : Str) : Prop := ∀ ms, Makes q ms → MakeOK ms → ∀ p ∈ patsOf ms, PatSer p

/-- The disk after any number of processes, one after the other; each ran to its end or was stopped between two file-system
calls or in the middle of a write.  All texts typed are `ok`. -/
inductive Life (ok : Str → Prop) : FS → FS → Prop where
  | none (fs : FS) : Life ok fs fs
  | whole {fs fs1 : FS} (h : Life ok fs fs1) (env : Env) (inputs : List Str) (hok : ∀ q ∈ inputs, ok q) :
      Life ok fs ((startWiggleShell env inputs).run fs1).2
  | stopped {fs fs1 fs2 : FS} (h : Life ok fs fs1) (env : Env) (inputs : List Str) (hok : ∀ q ∈ inputs, ok q)
      (hc : CrashAt NotDatabase (startWiggleShell env inputs) fs1 fs2) : Life ok fs fs2

/-- The query, if it has MAKE statements at all, has a pattern in them. -/
def HasPatterns (q : Str) : Prop := ∀ ms, Makes q ms → patsOf ms ≠ []

/-- The GDBMS accepts nothing any more: no query changes anything on the disk, not even for a moment, and every query with a MAKE
raises. -/
def Dead (fs : FS) (g : GPath) : Prop :=
  ∀ env q, HasPatterns q → (∀ fs', CrashAt (fun _ => True) (query env q g) fs fs' → fs' = fs) ∧
    ((∃ ms, Makes q ms) → ∃ e, ((query env q g).run fs).1 = .error e)

end WG
