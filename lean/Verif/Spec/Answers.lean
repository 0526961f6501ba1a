/-
What the answer of the shell to a line that fails should say.
-/
import Verif.Spec.Messages
import Verif.Model.Answers

namespace WG
variable [PyRuntime]

/-- An exception of Python or pydantic: none of the project's classes. -/
def Raised.OfLibrary (r : Raised) : Prop := r.text = none ∧ r.kind.className = none ∧ r.kind ≠ .exception

/-- How it is explained that the query `q` fails on the disk `fs`. -/
inductive Answers (g : GPath) (q : Str) (fs : FS) (r : Raised) : Prop where
  /-- The parser refuses the query. -/
  | parser (h : Explains q r)
  /-- A text of the query in the place of properties is refused. -/
  | property (s : Str) (hq : s <:+: q) (h : PropFault s r)
  /-- A text of the query in the place of a relationship has two arrow heads. -/
  | twoHeads (s : Str) (hq : s <:+: q) (hs : '<' ∈ s ∧ '>' ∈ s)
      (h : r.Says .nonDirected [.words c!"Non directed relationship found: ", .quote s])
  /-- The file of the counter is empty. -/
  | noCounter (hc : fs.get g.wn = some []) (h : r.Says .exception [.words c!"HOLD FIRE on overwriting the issue!"])
  /-- A number that the counter says is free stands in the database already. -/
  | taken (n c : Int) (counter text : Str) (db : V) (hc : fs.get g.wn = some counter) (hn : pyInt counter = some c) (hle : c ≤ n)
      (ht : fs.get g.db = some text) (hl : loads text = .ok db) (hk : inVal (intStr n) db = .ok true)
      (h : r.Says .nodeExists [.words c!"Node ", .words (intStr n), .words c!" already exists did you mean to update"])

end WG
