/-
Everything that can happen to the GDBMSs when lines are typed, run after run: also the ruin of an index.
-/
import Verif.Spec.Typed
import Verif.Spec.World

namespace WG
variable [PyRuntime]

/-- What a GDBMS holds: patterns, all of them indexed; or patterns `cs` and behind them lone nodes `l` whose storing ruined the index. -/
inductive Held where
  | whole (cs : List ChainText)
  | lost (cs l : List ChainText)

/-- The GDBMS holds this on the disk.  If the index is lost, the counter names the first of the lone nodes. -/
def HeldBy (fs : FS) (g : GPath) : Held → Prop
  | .whole cs => Stock ActualRecords fs g cs
  | .lost cs l => ∃ d x, Records ActualRecords 0 cs d ∧ Records ActualRecords (sizeOfAll cs) l x ∧ l ≠ [] ∧ Holds fs g.db (d ++ x) ∧
      Unreadable fs g.idx ∧ ∃ t, fs.get g.wn = some t ∧ t ≠ [] ∧ pyInt t = some (sizeOfAll cs : Int)

/-- What was held is not lost: it only grows, by the patterns, and by the lone nodes that ruin the index. -/
def Held.Grows : Held → Held → Prop
  | .whole cs, .whole cs' => cs <+: cs'
  | .whole cs, .lost cs' _ => cs <+: cs'
  | .lost cs l, o => o = .lost cs l

/-- Something typed into the shell: a line, or any other text. -/
inductive Said where
  | line (x : TypedLine)
  | other (s : Str)

def Said.text : Said → Str
  | .line x => x.text
  | .other s => s

/-- The lines are written as they should be; the other texts do not end the session and make nothing. -/
def Said.OK : Said → Prop
  | .line x => TypedWritten x
  | .other s => s ≠ c!"q" ∧ (AsksHelp s ∨ ∀ ms, ¬ Makes s ms)

/-- What the shell answers, and what the GDBMS holds then. -/
inductive SaidDoes : Held → Said → Event → Held → Prop where
  /-- The line is answered as it should be, and what it makes comes behind the other patterns. -/
  | line {cs x ev new} (h : TypedDoes x ev new) (hf : ¬ TypedRuins x) : SaidDoes (.whole cs) (.line x) ev (.whole (cs ++ new))
  /-- The line makes nothing but nodes; it fails halfway. -/
  | ruin {cs x} (h : TypedRuins x) :
      SaidDoes (.whole cs) (.line x) (.failed .jsonDecode) (.lost cs (rowChains (fromMake x.row)))
  /-- Nothing changes any more. -/
  | stuck {cs l x ev} (h : StuckDoes x ev) : SaidDoes (.lost cs l) (.line x) ev (.lost cs l)
  | help {o s} (h : AsksHelp s) : SaidDoes o (.other s) .help o
  | other {o s ev} (h : ¬ AsksHelp s) (hev : ev = .done ∨ ∃ e, ev = .failed e) : SaidDoes o (.other s) ev o

/-- The same for one text after another. -/
inductive SaidDo : Held → List Said → List Event → Held → Prop where
  | nil {o} : SaidDo o [] [] o
  | cons {o t ev o1 ts log o2} (h : SaidDoes o t ev o1) (hs : SaidDo o1 ts log o2) : SaidDo o (t :: ts) (ev :: log) o2

/-- One run of the program: the answer to "Use existing dbms (y/n)", the attempts at a name or a letter, the accepted one last, what is
typed into the shell, and whether "q" comes behind it.  (Without it the program is left waiting for more.) -/
structure Visit where
  answer : Str
  tries : List Str
  pick : Str
  said : List Said
  quits : Bool

/-- All that is typed. -/
def Visit.inputs (v : Visit) : List Str :=
  v.answer :: (v.tries ++ v.pick :: (v.said.map Said.text ++ if v.quits then [c!"q"] else []))

/-- What is seen of the end of the run. -/
def Visit.ending (v : Visit) : List Event := if v.quits then [.bye] else []

/-- A new name; the names tried before are taken.  (If there is nothing to choose from, the answer does not matter.) -/
structure Visit.New (v : Visit) (names : List Str) : Prop where
  answer : v.answer ∉ [c!"y", c!"yes"] ∨ names = []
  tries : ∀ x ∈ v.tries, x ∈ names
  fresh : v.pick ∉ names
  shown : v.pick ∉ notGdbms

/-- The letter of the GDBMS `name` (as many letters after A as there are smaller names); what was tried before is no letter in use. -/
structure Visit.Old (v : Visit) (names : List Str) (name : Str) : Prop where
  answer : v.answer ∈ [c!"y", c!"yes"]
  tries : ∀ x ∈ v.tries, ∀ i, i < 26 → i < names.length → x ≠ menuLetter i
  letter : names.countP (· < name) < 26
  pick : v.pick = menuLetter (names.countP (· < name))

/-- What a run does to the GDBMSs, and its log. -/
inductive Visit.Leads (v : Visit) : Shelf Held → List Event → Shelf Held → Prop where
  | new {w log o} (h : v.New w.names) (hd : SaidDo (.whole []) v.said log o) : v.Leads w (log ++ v.ending) (w ++ [(v.pick, o)])
  | old {w w' name o o' log} (h : v.Old (Shelf.names (w ++ (name, o) :: w')) name) (hd : SaidDo o v.said log o') :
      v.Leads (w ++ (name, o) :: w') (log ++ v.ending) (w ++ (name, o') :: w')

/-- Several runs, one after the other, each in a process of its own. -/
inductive VisitsLead : Shelf Held → List (Env × Visit) → List (List Event) → Shelf Held → Prop where
  | nil {w} : VisitsLead w [] [] w
  | cons {w v log w1 vs logs w2} (h : v.2.Leads w log w1) (hs : VisitsLead w1 vs logs w2) : VisitsLead w (v :: vs) (log :: logs) w2

/-- The names and letters given in several runs. -/
inductive Fit : List Str → List (Env × Visit) → Prop where
  | nil {names} : Fit names []
  | new {names v vs} (h : v.2.New names) (hs : Fit (names ++ [v.2.pick]) vs) : Fit names (v :: vs)
  | old {names v name vs} (hn : name ∈ names) (h : v.2.Old names name) (hs : Fit names vs) : Fit names (v :: vs)

/-- The logs of several runs, and the disk after them. -/
def visitAll : List (Env × Visit) → FS → List (Except PyErr (Option (List Event))) × FS
  | [], fs => ([], fs)
  | v :: vs, fs => match (startWiggleShell v.1 v.2.inputs).run fs with
    | (r, fs1) => match visitAll vs fs1 with
      | (rs, fs2) => (r :: rs, fs2)

end WG
