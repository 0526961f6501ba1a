/-
What the whole program is for: named collections of patterns that survive from one run to the next.
-/
import Verif.Spec.Actual
import Verif.Spec.Usable
import Verif.Spec.Gdbms
import Verif.Model.Shell

namespace WG
variable [PyRuntime]

/-- The GDBMSs in the default folder and what each holds, in the order in which they were made. -/
abbrev Shelf (σ : Type) := List (Str × σ)

/-- The names of the GDBMSs. -/
def Shelf.names {σ : Type} (w : Shelf σ) : List Str := w.map Prod.fst

/-- Each GDBMS holds patterns, in the order in which they were made. -/
abbrev World := Shelf (List ChainText)

/-- Something typed into the shell: a well-formed query, or any other text. -/
inductive Typed where
  | query (t : TypedText)
  | other (s : Str)

/-- Its text. -/
def Typed.text : Typed → Str
  | .query t => t.render
  | .other s => s

/-- The other texts do not end the session and make nothing. -/
def Typed.OK : Typed → Prop
  | .query t => t.Runnable ∧ ¬ AsksHelp t.render
  | .other s => s ≠ c!"q" ∧ (AsksHelp s ∨ ∀ ms, ¬ Makes s ms)

/-- Any well-formed query is allowed whose MAKE, if there is one, has a relationship. -/
def Typed.Fair : Typed → Prop
  | .query t => t.Good ∧ (t.make = none ∨ ∃ c ∈ t.chains, c.rels ≠ []) ∧ ¬ AsksHelp t.render
  | .other s => s ≠ c!"q" ∧ (AsksHelp s ∨ ∀ ms, ¬ Makes s ms)

/-- The patterns that it makes. -/
def Typed.chains : Typed → List ChainText
  | .query t => t.chains
  | .other _ => []

/-- One run of the program: the answer to "Use existing dbms (y/n)", the attempts at a name or a letter, the accepted one
last, and what is typed into the shell before "q". -/
structure ProgRun where
  answer : Str
  tries : List Str
  pick : Str
  typed : List Typed

/-- All that is typed. -/
def ProgRun.inputs (r : ProgRun) : List Str := r.answer :: (r.tries ++ r.pick :: (r.typed.map Typed.text ++ [c!"q"]))

/-- The patterns made in a run. -/
def ProgRun.chains (r : ProgRun) : List ChainText := r.typed.flatMap Typed.chains

/-- The letter with the number `i`. -/
def menuLetter (i : Nat) : Str := [Char.ofNat (65 + i)]

/-- A run that leads from one world to the next; the texts typed into the shell are all `ok`. -/
inductive ProgRun.Leads (ok : Typed → Prop) (r : ProgRun) : World → World → Prop where
  /-- A new name; the names tried before are taken.  (If there is nothing to choose from, the answer does not matter.) -/
  | new (w : World) (hok : ∀ t ∈ r.typed, ok t) (ha : r.answer ∉ [c!"y", c!"yes"] ∨ w = []) (ht : ∀ x ∈ r.tries, x ∈ w.names)
      (hp : r.pick ∉ w.names) (hs : r.pick ∉ notGdbms) : r.Leads ok w (w ++ [(r.pick, r.chains)])
  /-- The letter of a GDBMS (as many letters after A as there are smaller names); what was tried before is no letter in use. -/
  | old (w w' : World) (name : Str) (cs : List ChainText) (hok : ∀ t ∈ r.typed, ok t) (ha : r.answer ∈ [c!"y", c!"yes"])
      (ht : ∀ x ∈ r.tries, ∀ i, i < 26 → i < (w ++ (name, cs) :: w').length → x ≠ menuLetter i)
      (hi : (w ++ (name, cs) :: w').names.countP (· < name) < 26)
      (hp : r.pick = menuLetter ((w ++ (name, cs) :: w').names.countP (· < name))) :
      r.Leads ok (w ++ (name, cs) :: w') (w ++ (name, cs ++ r.chains) :: w')

/-- The GDBMS holds exactly these patterns, in database, index and counter; `R` says what the records of a pattern are. -/
def Stock (R : Int → ChainText → Dict V → Prop) (fs : FS) (g : GPath) (cs : List ChainText) : Prop :=
  ∃ d labels names rels, Healthy fs g d labels names rels (sizeOfAll cs) ∧ BelowCounter d (sizeOfAll cs) ∧
    Records R 0 cs d ∧ Indexed cs d [] [] [] labels names rels

/-- The disk has exactly the GDBMSs of the shelf, and `S` relates each to what it holds; all other names are free. -/
structure KeepsAs {σ : Type} (S : FS → GPath → σ → Prop) (fs : FS) (w : Shelf σ) : Prop where
  folder : DBMS_FOLDER ∈ fs.folders
  dirs : fs.dirs.Nodup
  nodup : w.names.Nodup
  names : ∀ x, x ∈ w.names ↔ (DBMS_FOLDER, x) ∈ fs.dirs ∧ x ∉ notGdbms
  free : ∀ x, x ∉ w.names → x ∉ notGdbms → NameFree fs DBMS_FOLDER x
  stock : ∀ x ∈ w, S fs (gdbmsPath DBMS_FOLDER x.1) x.2

/-- The disk has exactly the GDBMSs of the world, each with its patterns; all other names are free. -/
abbrev Keeps (R : Int → ChainText → Dict V → Prop) (fs : FS) (w : World) : Prop := KeepsAs (Stock R) fs w

/-- The log of a session: one event for each typed text, the queries done, and "Good Bye!". -/
def GoodLog : List Typed → List Event → Prop
  | [], log => log = [.bye]
  | .query _ :: ts, ev :: log => ev = .done ∧ GoodLog ts log
  | .other _ :: ts, _ :: log => GoodLog ts log
  | _, _ => False

/-- The log of a session: one event for each typed text, the queries done or, if FIND fails, failed, and "Good Bye!". -/
def FairLog : List Typed → List Event → Prop
  | [], log => log = [.bye]
  | .query t :: ts, ev :: log => (ev = match t.find.first.findResult with
      | .ok _ => .done
      | .error e => .failed e) ∧ FairLog ts log
  | .other _ :: ts, _ :: log => FairLog ts log
  | _, _ => False

/-- Several runs, one after the other, each in a process of its own. -/
def LeadAll (ok : Typed → Prop) : World → List (Env × ProgRun) → World → Prop
  | w, [], w' => w = w'
  | w, r :: rs, w' => ∃ w1, r.2.Leads ok w w1 ∧ LeadAll ok w1 rs w'

/-- The disk after them. -/
def runAll : List (Env × ProgRun) → FS → FS
  | [], fs => fs
  | r :: rs, fs => runAll rs ((startWiggleShell r.1 r.2.inputs).run fs).2

end WG
