/-
What a run of the program should show, and what it does show.
-/
import Verif.Spec.World
import Verif.Spec.Durable
import Verif.Model.Screen

namespace WG

/-- What is shown by a program that is run on a disk. -/
def Scr.shows {α : Type} (s : Scr α) (fs : FS) : List Shown :=
  match (s.prog.run fs).1 with
  | .ok x => x.2
  | .error _ => []

/-- The showing program has the outcome and the effect of the other one. -/
def Scr.Agrees {α : Type} (s : Scr α) (p : Prog α) : Prop :=
  ∀ fs, s.prog.run fs = (.ok ((p.run fs).1, s.shows fs), (p.run fs).2)

/-! ### The texts -/

/-- The question for a query. -/
def asksQuery : Shown := .ask c!"Please enter a query (q to exit):      "
/-- The question whether a GDBMS should be used that exists. -/
def asksUse : Shown := .ask c!"Use existing dbms (y/n):     "
/-- The question for the name of a new GDBMS. -/
def asksName : Shown := .ask c!"Please enter a new db name:     "
/-- The question for a letter of the menu. -/
def asksLetter : Shown := .ask c!"Please select a database to use (Letter):     "
/-- The text that was typed, once more. -/
def echoes (q : Str) : Shown := .line (q ++ c!" \n")
/-- The answer to `q`. -/
def saysBye : Shown := .line c!"Good Bye!"
/-- The answer to a text with `help` in it. -/
def saysHelp : Shown := .line c!"A helpful guide is on the way!\n"
/-- The answer of FIND. -/
def saysNoResults : Shown := .line c!"\nNo results\n"
/-- The answer to a name that is taken. -/
def saysTaken (name : Str) : Shown := .line (name ++ c!" is already taken, please choose another name.")
/-- The answer to a name that is not. -/
def saysUsing (name : Str) : Shown := .line (c!"Using " ++ name)
/-- The answer when there is nothing to choose from. -/
def saysNoDatabases : Shown := .line c!"There are no databases, please create a new database."
/-- The answer to a letter that is not in the menu. -/
def saysMissing (letter : Str) : Shown := .line (letter ++ c!" does not exist, please select an existing DB")
/-- The first lines. -/
def greeting : List Shown :=
  [.line c!"**********************", .line c!"Welcome to WiggleGraph", .line c!"**********************\n"]

variable [PyRuntime]

/-- One of the patterns has a node with this label. -/
def LabelMade (cs : List ChainText) (l : Str) : Prop := ∃ c ∈ cs, l ∈ c.labels

/-- One of the patterns has a relationship with this name. -/
def NameMade (cs : List ChainText) (n : Str) : Prop := n ≠ [] ∧ ∃ c ∈ cs, ∃ r ∈ c.rels, r.nameStr = n

/-- When FIND should say "No results": something in its pattern has never been made. -/
def Missing (cs : List ChainText) (c : ChainText) : Prop :=
  (∃ l ∈ c.labels, ¬ LabelMade cs l) ∨ ∃ r ∈ c.rels, r.nameStr ≠ [] ∧ ¬ NameMade cs r.nameStr

/-- When FIND says "No results": none of its labels has been made, or one of its relationship names has. -/
def SaysNoResults (cs : List ChainText) (c : ChainText) : Prop :=
  (∀ l ∈ c.labels, ¬ LabelMade cs l) ∨ ∃ r ∈ c.rels, NameMade cs r.nameStr

/-- What a query shows when the patterns `cs` have been made, its own included: the error, "No results", or nothing. -/
def Answered (cs : List ChainText) (c : ChainText) (out : List Shown) : Prop :=
  match c.findResult with
  | .error e => out = [.error e]
  | .ok _ => SaysNoResults cs c ∧ out = [saysNoResults] ∨ ¬ SaysNoResults cs c ∧ out = []

/-- The screen of a session on a GDBMS with the patterns `cs`: for every text the prompt, the text and the answer. -/
inductive SessionShown : List ChainText → List Typed → List Shown → Prop where
  | quit (cs : List ChainText) : SessionShown cs [] [asksQuery, echoes c!"q", saysBye]
  | query (cs : List ChainText) (t : TypedText) (ts : List Typed) (a out : List Shown) (ha : Answered (cs ++ t.chains) t.find.first a)
      (h : SessionShown (cs ++ t.chains) ts out) : SessionShown cs (.query t :: ts) (asksQuery :: echoes t.render :: (a ++ out))
  | help (cs : List ChainText) (s : Str) (ts : List Typed) (out : List Shown) (hs : AsksHelp s) (h : SessionShown cs ts out) :
      SessionShown cs (.other s :: ts) (asksQuery :: echoes s :: saysHelp :: out)
  | other (cs : List ChainText) (s : Str) (ts : List Typed) (a out : List Shown) (hs : ¬ AsksHelp s)
      (ha : a = [] ∨ a = [saysNoResults] ∨ ∃ e, a = [.error e]) (h : SessionShown cs ts out) :
      SessionShown cs (.other s :: ts) (asksQuery :: echoes s :: (a ++ out))

/-- The screen of a session of any texts, given the log: for every text the prompt and the text, then the exception, "No results"
or nothing; behind a `q` nothing is asked. -/
inductive LogShown : List Str → List Event → List Shown → Prop where
  | waiting : LogShown [] [] [asksQuery]
  | bye (rest : List Str) : LogShown (c!"q" :: rest) [.bye] [asksQuery, echoes c!"q", saysBye]
  | help (q : Str) (rest : List Str) (log : List Event) (out : List Shown) (hq : q ≠ c!"q") (hh : AsksHelp q) (h : LogShown rest log out) :
      LogShown (q :: rest) (.help :: log) (asksQuery :: echoes q :: saysHelp :: out)
  | silent (q : Str) (rest : List Str) (log : List Event) (out : List Shown) (hq : q ≠ c!"q") (hh : ¬ AsksHelp q) (h : LogShown rest log out) :
      LogShown (q :: rest) (.done :: log) (asksQuery :: echoes q :: out)
  | noResults (q : Str) (rest : List Str) (log : List Event) (out : List Shown) (hq : q ≠ c!"q") (hh : ¬ AsksHelp q)
      (h : LogShown rest log out) : LogShown (q :: rest) (.done :: log) (asksQuery :: echoes q :: saysNoResults :: out)
  | failed (q : Str) (rest : List Str) (e : PyErr) (log : List Event) (out : List Shown) (hq : q ≠ c!"q") (hh : ¬ AsksHelp q)
      (h : LogShown rest log out) : LogShown (q :: rest) (.failed e :: log) (asksQuery :: echoes q :: .error e :: out)

/-- The two lists of patterns have the same labels and the same relationship names. -/
def SameWords (cs cs' : List ChainText) : Prop := (∀ l, LabelMade cs l ↔ LabelMade cs' l) ∧ ∀ n, NameMade cs n ↔ NameMade cs' n

/-- Two disks with a GDBMS at the same place: index and counter are the same, the database files have records under the same numbers.
What the records are may differ. -/
structure SameNumbers (g : GPath) (fs fs' : FS) : Prop where
  dirs : fs.dirs = fs'.dirs
  idx : fs.get g.idx = fs'.get g.idx
  wn : fs.get g.wn = fs'.get g.wn
  db : ∃ d d', Stored fs g.db d ∧ Stored fs' g.db d' ∧ ∀ k, k ∈ d.map Prod.fst ↔ k ∈ d'.map Prod.fst

/-- The menu for these names, in ascending order: 26 rows at most, each with its letter. -/
def menuShown (names : List Str) : List Shown :=
  .line c!"\nLetter      db_name" ::
    ((names.take 26).mapIdx (fun i x => .line (menuLetter i ++ (c!"           " ++ x))) ++ [.line c!"\n"])

/-- The screen while a GDBMS is selected: a refused name is reported twice. -/
inductive SelectionShown (r : ProgRun) : World → Str → List Shown → Prop where
  | new (w : World) (ha : r.answer ∉ [c!"y", c!"yes"]) : SelectionShown r w r.pick
      (asksUse :: (r.tries.flatMap (fun x => [asksName, saysTaken x, saysTaken x]) ++ [asksName, saysUsing r.pick]))
  | empty (ha : r.answer ∈ [c!"y", c!"yes"]) : SelectionShown r [] r.pick
      (asksUse :: saysNoDatabases :: (r.tries.flatMap (fun x => [asksName, saysTaken x, saysTaken x]) ++ [asksName, saysUsing r.pick]))
  | old (w : World) (names : List Str) (name : Str) (ha : r.answer ∈ [c!"y", c!"yes"]) (hn : names.Perm w.names)
      (ho : names.Pairwise (· ≤ ·)) (hp : names[w.names.countP (· < name)]? = some name) :
      SelectionShown r w name
        (asksUse :: (r.tries.flatMap (fun x => menuShown names ++ [asksLetter, saysMissing x]) ++ (menuShown names ++ [asksLetter])))

/-- The patterns of a GDBMS of the world (none, if it is new). -/
def World.has (w : World) (name : Str) : List ChainText := (w.filter fun x => x.1 = name).flatMap Prod.snd

/-- The screen of a run. -/
def RunShown (w : World) (r : ProgRun) (out : List Shown) : Prop :=
  ∃ name sel ses, SelectionShown r w name sel ∧ SessionShown (w.has name) r.typed ses ∧
    out = greeting ++ (sel ++ (.using (gdbmsPath DBMS_FOLDER name) :: ses))

end WG
