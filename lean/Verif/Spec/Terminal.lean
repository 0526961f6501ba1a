/-
What appears on the terminal.
-/
import Verif.Model.Terminal
import Verif.Spec.Screen
import Verif.Spec.Log

namespace WG
variable [PyRuntime]

/-- What is written to the terminal by a program that is run on a disk. -/
def Term.outs {α : Type} (t : Term α) (fs : FS) : List Out :=
  match (t.prog.run fs).1 with
  | .ok x => x.2
  | .error _ => []

/-- The program does what the other does, shows what the first shows and logs what the second logs. -/
def Term.Joins {α : Type} (t : Term α) (s : Scr α) (l : Lg α) (p : Prog α) : Prop :=
  ∀ fs, t.prog.run fs = (.ok ((p.run fs).1, t.outs fs), (p.run fs).2) ∧
    (t.outs fs).filterMap (fun o => match o with
      | .shown x => some x
      | .logged _ => none) = s.shows fs ∧
    (t.outs fs).filterMap (fun o => match o with
      | .shown _ => none
      | .logged x => some x) = l.logs fs

/-- The terminal of a session, text by text: the prompt and the text, and then
the answer to `q` or to `help`; the two warnings and "No results", if the index file is not JSON and the query ends normally;
the exception, if it raises one; otherwise "No results" or nothing. -/
inductive TerminalShows (env : Env) (g : GPath) : FS → List Str → List Out → Prop where
  | waiting (fs : FS) : TerminalShows env g fs [] [.shown asksQuery]
  | bye (fs : FS) (rest : List Str) : TerminalShows env g fs (c!"q" :: rest) [.shown asksQuery, .shown (echoes c!"q"), .shown saysBye]
  | help (fs : FS) (q : Str) (rest : List Str) (out : List Out) : q ≠ c!"q" → AsksHelp q → TerminalShows env g fs rest out →
      TerminalShows env g fs (q :: rest) (.shown asksQuery :: .shown (echoes q) :: .shown saysHelp :: out)
  | warned (fs fs' : FS) (q : Str) (rest : List Str) (out : List Out) : q ≠ c!"q" → ¬ AsksHelp q → Unreadable fs g.idx →
      (query env q g).run fs = (.ok true, fs') → TerminalShows env g fs' rest out →
      TerminalShows env g fs (q :: rest) (.shown asksQuery :: .shown (echoes q) ::
        .logged (warned c!"Empty node_labels indexes, returning a new one") ::
        .logged (warned c!"Empty relationship_names indexes, returning a new one") :: .shown saysNoResults :: out)
  | failed (fs fs' : FS) (q : Str) (rest : List Str) (out : List Out) (e : PyErr) : q ≠ c!"q" → ¬ AsksHelp q →
      (query env q g).run fs = (.error e, fs') → TerminalShows env g fs' rest out →
      TerminalShows env g fs (q :: rest) (.shown asksQuery :: .shown (echoes q) :: .shown (.error e) :: out)
  | silent (fs fs' : FS) (q : Str) (rest : List Str) (out : List Out) : q ≠ c!"q" → ¬ AsksHelp q → ¬ Unreadable fs g.idx →
      (query env q g).run fs = (.ok true, fs') → TerminalShows env g fs' rest out →
      TerminalShows env g fs (q :: rest) (.shown asksQuery :: .shown (echoes q) :: out)
  | noResults (fs fs' : FS) (q : Str) (rest : List Str) (out : List Out) : q ≠ c!"q" → ¬ AsksHelp q → ¬ Unreadable fs g.idx →
      (query env q g).run fs = (.ok true, fs') → TerminalShows env g fs' rest out →
      TerminalShows env g fs (q :: rest) (.shown asksQuery :: .shown (echoes q) :: .shown saysNoResults :: out)

/-- The terminal of a session on a GDBMS whose index file is not JSON, given the log: a query that ends normally shows the two warnings and
"No results", whatever it asks. -/
inductive BrokenShows : List Str → List Event → List Out → Prop where
  | waiting : BrokenShows [] [] [.shown asksQuery]
  | bye (rest : List Str) : BrokenShows (c!"q" :: rest) [.bye] [.shown asksQuery, .shown (echoes c!"q"), .shown saysBye]
  | help (q : Str) (rest : List Str) (log : List Event) (out : List Out) : BrokenShows rest log out →
      BrokenShows (q :: rest) (.help :: log) (.shown asksQuery :: .shown (echoes q) :: .shown saysHelp :: out)
  | done (q : Str) (rest : List Str) (log : List Event) (out : List Out) : BrokenShows rest log out →
      BrokenShows (q :: rest) (.done :: log) (.shown asksQuery :: .shown (echoes q) ::
        .logged (warned c!"Empty node_labels indexes, returning a new one") ::
        .logged (warned c!"Empty relationship_names indexes, returning a new one") :: .shown saysNoResults :: out)
  | failed (q : Str) (rest : List Str) (e : PyErr) (log : List Event) (out : List Out) : BrokenShows rest log out →
      BrokenShows (q :: rest) (.failed e :: log) (.shown asksQuery :: .shown (echoes q) :: .shown (.error e) :: out)

end WG
