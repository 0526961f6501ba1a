/-
Lines typed in the shell: any number of statements, and a remark or a REPORT behind them.
-/
import Verif.Spec.Page
import Verif.Spec.Report

namespace WG
variable [PyRuntime]

/-- A line: its statements (each with the text before it), and what stands behind them. -/
structure TypedLine where
  row : List RowStmt
  tail : Str := []

def TypedLine.text (x : TypedLine) : Str := renderRow x.row ++ x.tail

/-- A line that is refused: its statements are, or something is wrong with its REPORT. -/
def TypedLine.Refused (x : TypedLine) : Prop := RowRefused x.row ∨ ∃ f, rowFind x.row = some f ∧ ¬ ReportsRight x.text f.first.handles

/-- The shell answers the line `x` with `ev` and the patterns `cs` are stored. -/
inductive TypedDoes (x : TypedLine) : Event → List ChainText → Prop where
  | help (h : AsksHelp x.text) : TypedDoes x .help []
  | refused (e : PyErr) (h : ¬ AsksHelp x.text) (hr : x.Refused) : TypedDoes x (.failed e) []
  | done (h : ¬ AsksHelp x.text) (hr : ¬ x.Refused) (f : StmtText) (hf : rowFind x.row = some f) (h2 : f.first.findResult = .ok true) :
      TypedDoes x .done (rowChains (fromMake x.row))
  | failed (h : ¬ AsksHelp x.text) (hr : ¬ x.Refused) (f : StmtText) (hf : rowFind x.row = some f) (e : PyErr)
      (h2 : f.first.findResult = .error e) : TypedDoes x (.failed e) (rowChains (fromMake x.row))

/-- The same for one line after another. -/
inductive TypedDo : List TypedLine → List Event → List ChainText → Prop where
  | nil : TypedDo [] [] []
  | cons {x ev cs ls evs css} (h : TypedDoes x ev cs) (hs : TypedDo ls evs css) : TypedDo (x :: ls) (ev :: evs) (cs ++ css)

/-- A remark behind statements that are as they should be but for arrow heads and names; not the command to quit. -/
structure TypedWritten (x : TypedLine) : Prop where
  loose : ∀ s ∈ x.row, s.Loose
  tail : Remark x.tail
  quit : x ≠ ⟨[], c!"q"⟩

/-- A line that is executed and has a MAKE, but no relationship in what it stores. -/
structure TypedRuins (x : TypedLine) : Prop where
  help : ¬ AsksHelp x.text
  accepted : ¬ x.Refused
  make : fromMake x.row ≠ []
  rel : ∀ c ∈ rowChains (fromMake x.row), c.rels = []

/-- A line as it should be that is not of that kind. -/
structure TypedFair (x : TypedLine) : Prop extends TypedWritten x where
  fair : ¬ TypedRuins x

/-- What the shell answers to the line `x` when the index is lost and the counter names a node that is there already. -/
inductive StuckDoes (x : TypedLine) : Event → Prop where
  | help (h : AsksHelp x.text) : StuckDoes x .help
  | refused (e : PyErr) (h : ¬ AsksHelp x.text) (hr : x.Refused) : StuckDoes x (.failed e)
  | stuck (h : ¬ AsksHelp x.text) (hr : ¬ x.Refused) (hm : fromMake x.row ≠ []) : StuckDoes x (.failed .nodeExists)
  | done (h : ¬ AsksHelp x.text) (hr : ¬ x.Refused) (hm : fromMake x.row = []) (f : StmtText) (hf : rowFind x.row = some f)
      (h2 : f.first.findResult = .ok true) : StuckDoes x .done
  | failed (h : ¬ AsksHelp x.text) (hr : ¬ x.Refused) (hm : fromMake x.row = []) (f : StmtText) (hf : rowFind x.row = some f) (e : PyErr)
      (h2 : f.first.findResult = .error e) : StuckDoes x (.failed e)

/-- The same for one line after another. -/
inductive StuckDo : List TypedLine → List Event → Prop where
  | nil : StuckDo [] []
  | cons {x ev ls evs} (h : StuckDoes x ev) (hs : StuckDo ls evs) : StuckDo (x :: ls) (ev :: evs)

end WG
