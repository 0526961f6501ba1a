/-
What counts as a misspelt clause, and what counts as a REPORT, in any text.
-/
import Verif.Spec.Query

namespace WG
variable [PyRuntime]

/-- Somewhere in the query stand the letters of the keyword in some order, in what the regex engine takes for the same letters
under IGNORECASE, and after them `(`, with at most one white-space character between. -/
def LooksMisspelt (kw q : Str) : Prop :=
  ∃ a w sp b kw', q = a ++ (w ++ (sp ++ '(' :: b)) ∧ kw'.Perm kw ∧ CISpelling kw' w ∧ sp.length ≤ 1 ∧ sp.all isSpace = true

/-- The same for REPORT: after the letters something and a semicolon on the same line. -/
def LooksMisspeltReport (q : Str) : Prop :=
  ∃ a w body b kw', q = a ++ (w ++ (body ++ ';' :: b)) ∧ kw'.Perm c!"report" ∧ CISpelling kw' w ∧ body ≠ [] ∧ '\n' ∉ body

/-- What a line counts as a REPORT: the text from the first occurrence of the word on, wherever it stands, to the last semicolon of the
line, with something between. -/
def ReportIn (l s : Str) : Prop :=
  ∃ a w body b, l = a ++ (w ++ (body ++ c!";") ++ b) ∧ CISpelling c!"report" w ∧ body ≠ [] ∧ ';' ∉ b ∧
    (∀ a' w' b', l = a' ++ w' ++ b' → CISpelling c!"report" w' → a.length ≤ a'.length) ∧ s = w ++ (body ++ c!";")

/-- `rs` are the REPORTs of the lines `ls`, in their order. -/
def Reports : List Str → List Str → Prop
  | [], rs => rs = []
  | l :: ls, rs => (∃ s rs', ReportIn l s ∧ rs = s :: rs' ∧ Reports ls rs') ∨ ((∀ s, ¬ ReportIn l s) ∧ Reports ls rs)

/-- The lines of a text. -/
def splitLines : Str → List Str
  | [] => [[]]
  | c :: cs => if c = '\n' then [] :: splitLines cs else match splitLines cs with
    | [] => [[c]]
    | l :: ls => (c :: l) :: ls

/-- Nothing is wrong with the REPORTs of a query: there is none and nothing looks like a misspelt one, or there is one, its word is all in
upper or all in lower case, and the handles stand somewhere in it. -/
def ReportsRight (q : Str) (hs : List Str) : Prop :=
  (Reports (splitLines q) [] ∧ ¬ LooksMisspeltReport q) ∨
    ∃ s, Reports (splitLines q) [s] ∧ (c!"REPORT" <+: s ∨ c!"report" <+: s) ∧ ∀ h ∈ hs, h <:+: s

end WG
