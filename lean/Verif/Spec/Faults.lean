/-
File-system calls that fail: the disk is full, a file is locked or unreadable, a device answers with an error.  Any call may fail at any
moment, whatever the disk holds; the program gets an exception and goes on as its code says.
-/
import Verif.Spec.Durable
import Verif.Spec.Gdbms

namespace WG

/-- How a program may end when calls may fail: `good`, the call works; `bad`, it fails and does nothing; `broken`, a write puts some of
its text on the disk and then fails (only for the files of `tear`). -/
inductive FaultRun {α : Type} (tear : Path → Prop) : Prog α → FS → Except PyErr α × FS → Prop where
  | ret (a : α) (fs : FS) : FaultRun tear (.ret a) fs (.ok a, fs)
  | raise (e : PyErr) (fs : FS) : FaultRun tear (.raise e) fs (.error e, fs)
  | good (op : Op) (k : Resp → Prog α) (fs : FS) (r : Except PyErr α × FS) :
      FaultRun tear (k (exec op fs).1) (exec op fs).2 r → FaultRun tear (.act op k) fs r
  | bad (op : Op) (k : Resp → Prog α) (fs : FS) (r : Except PyErr α × FS) :
      FaultRun tear (k .fail) fs r → FaultRun tear (.act op k) fs r
  | broken (p : Path) (pos : Nat) (s : Str) (n : Nat) (k : Resp → Prog α) (fs : FS) (r : Except PyErr α × FS) : tear p →
      FaultRun tear (k .fail) (exec (.write p pos (s.take n)) fs).2 r → FaultRun tear (.act (.write p pos s) k) fs r

/-- The disk at any moment of such a run; the machine may stop there. -/
inductive FaultAt {α : Type} (tear : Path → Prop) : Prog α → FS → FS → Prop where
  | here (p : Prog α) (fs : FS) : FaultAt tear p fs fs
  | torn (p : Path) (pos : Nat) (s : Str) (n : Nat) (k : Resp → Prog α) (fs : FS) :
      tear p → FaultAt tear (.act (.write p pos s) k) fs (exec (.write p pos (s.take n)) fs).2
  | good (op : Op) (k : Resp → Prog α) (fs fs' : FS) :
      FaultAt tear (k (exec op fs).1) (exec op fs).2 fs' → FaultAt tear (.act op k) fs fs'
  | bad (op : Op) (k : Resp → Prog α) (fs fs' : FS) : FaultAt tear (k .fail) fs fs' → FaultAt tear (.act op k) fs fs'
  | broken (p : Path) (pos : Nat) (s : Str) (n : Nat) (k : Resp → Prog α) (fs fs' : FS) : tear p →
      FaultAt tear (k .fail) (exec (.write p pos (s.take n)) fs).2 fs' → FaultAt tear (.act (.write p pos s) k) fs fs'

variable [PyRuntime]

/-- What the shell answers to the texts when calls may fail: each text has its answer in turn; a query ran as if no call had failed, or it
raised and left the disk as if the program had been stopped somewhere in the query. -/
inductive Served (tear : Path → Prop) (env : Env) (g : GPath) : List Str → FS → List Event → FS → Prop where
  | waiting (fs : FS) : Served tear env g [] fs [] fs
  | bye (rest : List Str) (fs : FS) : Served tear env g (c!"q" :: rest) fs [.bye] fs
  | help (q : Str) (rest : List Str) (fs : FS) (log : List Event) (fs' : FS) : q ≠ c!"q" → AsksHelp q →
      Served tear env g rest fs log fs' → Served tear env g (q :: rest) fs (.help :: log) fs'
  | done (q : Str) (rest : List Str) (fs fs1 : FS) (b : Bool) (log : List Event) (fs' : FS) : q ≠ c!"q" → ¬ AsksHelp q →
      (query env q g).run fs = (.ok b, fs1) → Served tear env g rest fs1 log fs' → Served tear env g (q :: rest) fs (.done :: log) fs'
  | failed (q : Str) (rest : List Str) (fs fs1 : FS) (e : PyErr) (log : List Event) (fs' : FS) : q ≠ c!"q" → ¬ AsksHelp q →
      CrashAt tear (query env q g) fs fs1 → Served tear env g rest fs1 log fs' →
      Served tear env g (q :: rest) fs (.failed e :: log) fs'

/-- The disk after any number of processes, one after the other, in which calls may fail; each ran to its end or was stopped somewhere.
All texts typed are `ok`. -/
inductive HardLife (ok : Str → Prop) : FS → FS → Prop where
  | none (fs : FS) : HardLife ok fs fs
  | process {fs fs1 fs2 : FS} (h : HardLife ok fs fs1) (env : Env) (inputs : List Str) (hok : ∀ q ∈ inputs, ok q)
      (hc : FaultAt NotDatabase (startWiggleShell env inputs) fs1 fs2) : HardLife ok fs fs2

end WG
