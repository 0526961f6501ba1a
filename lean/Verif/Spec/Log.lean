/-
What the log should say.
-/
import Verif.Model.Log
import Verif.Spec.Damage
import Verif.Spec.Gdbms

namespace WG
variable [PyRuntime]

/-- What is logged by a program that is run on a disk. -/
def Lg.logs {α : Type} (s : Lg α) (fs : FS) : List LogEntry :=
  match (s.prog.run fs).1 with
  | .ok x => x.2
  | .error _ => []

/-- The logging program has the outcome and the effect of the other one. -/
def Lg.Agrees {α : Type} (s : Lg α) (p : Prog α) : Prop :=
  ∀ fs, s.prog.run fs = (.ok ((p.run fs).1, s.logs fs), (p.run fs).2)

/-- An entry of level INFO. -/
def told (s : Str) : LogEntry := ⟨.info, s, none⟩
/-- An entry of level DEBUG. -/
def noted (s : Str) : LogEntry := ⟨.debug, s, none⟩
/-- An entry of level ERROR. -/
def warned (s : Str) : LogEntry := ⟨.error, s, none⟩

/-- What is said of a value that was read from the text `w` of a property. -/
inductive Described : V → Str → Prop where
  | yes : Described (.bool true) (c!"true" ++ c!" was determined to be ")
  | no : Described (.bool false) (c!"false" ++ c!" was determined to be ")
  | float (w : Str) (f : PyFloat PyRuntime.F) : PyRuntime.floatOfStr w = some f → Described (.flt f) (w ++ c!" was determined to be a float: ")
  | int (w : Str) (i : Int) : pyInt w = some i → Described (.int i) (w ++ c!" was determined to be an int: ")
  | list (w : Str) (v : V) : literalEval (pyKeywords w) = .ok v → Described v (w ++ c!" was determined to be a list: ")
  | str (w : Str) : Described (.str w) (w ++ c!" was determined to be a string: ")

/-- The entries about the values of properties: one for each, in their order; only `null` may be missing. -/
inductive ValuesLogged : List V → List LogEntry → Prop where
  | nil : ValuesLogged [] []
  | null (vs : List V) (es : List LogEntry) : ValuesLogged vs es → ValuesLogged (.none :: vs) es
  | value (v : V) (t : Str) (vs : List V) (es : List LogEntry) : Described v t → ValuesLogged vs es →
      ValuesLogged (v :: vs) (⟨.debug, t, some v⟩ :: es)

/-- What the user sees when FIND meets an index file that is not JSON. -/
def indexWarnings : List LogEntry :=
  [warned c!"Empty node_labels indexes, returning a new one", warned c!"Empty relationship_names indexes, returning a new one"]

/-- The entries the user of the shell sees, text by text: a query that ends normally although the index file is not JSON shows the two
warnings, everything else shows nothing. -/
inductive SeenLog (env : Env) (g : GPath) : FS → List Str → List LogEntry → Prop where
  | idle (fs : FS) : SeenLog env g fs [] []
  | quit (fs : FS) (rest : List Str) : SeenLog env g fs (c!"q" :: rest) []
  | help (fs : FS) (q : Str) (rest : List Str) (out : List LogEntry) : q ≠ c!"q" → AsksHelp q → SeenLog env g fs rest out →
      SeenLog env g fs (q :: rest) out
  | warn (fs fs' : FS) (q : Str) (rest : List Str) (out : List LogEntry) : q ≠ c!"q" → ¬ AsksHelp q → Unreadable fs g.idx →
      (query env q g).run fs = (.ok true, fs') → SeenLog env g fs' rest out → SeenLog env g fs (q :: rest) (indexWarnings ++ out)
  | failed (fs fs' : FS) (q : Str) (rest : List Str) (out : List LogEntry) (e : PyErr) : q ≠ c!"q" → ¬ AsksHelp q →
      (query env q g).run fs = (.error e, fs') → SeenLog env g fs' rest out → SeenLog env g fs (q :: rest) out
  | fine (fs fs' : FS) (q : Str) (rest : List Str) (out : List LogEntry) (b : Bool) : q ≠ c!"q" → ¬ AsksHelp q → ¬ Unreadable fs g.idx →
      (query env q g).run fs = (.ok b, fs') → SeenLog env g fs' rest out → SeenLog env g fs (q :: rest) out

end WG
