/-
Vocabulary for the parsing properties: spellings of keywords, lines of a query.
-/
import Verif.Py.Basic

namespace WG

/-- `w` is an upper/lower-case spelling of the (lower-case) keyword `kw`. -/
def IsSpelling (kw w : Str) : Prop := w.map Char.toLower = kw

/-- The characters that count as the letter `l` (given in lower case) when case is ignored: both cases, and for `i`, `k` and `s` the
letters that are folded to them (dotted I, dotless i, Kelvin sign, long s). -/
def sameLetter (l : Char) (c : Char) : Bool :=
  c == l || c == l.toUpper
    || (l == 'i' && (c == 'İ' || c == 'ı'))
    || (l == 'k' && c == 'K')
    || (l == 's' && c == 'ſ')

/-- What the regex engine accepts as a spelling under IGNORECASE, character by character. -/
def CISpelling : Str → Str → Prop
  | [], [] => True
  | k :: ks, c :: cs => sameLetter k c = true ∧ CISpelling ks cs
  | _, _ => False

/-- The keyword does not occur in the text, in any spelling. -/
def NoKeyword (kw t : Str) : Prop := ∀ a w b, t = a ++ w ++ b → ¬ CISpelling kw w

/-- Lines joined by line feeds. -/
def joinLines : List Str → Str
  | [] => []
  | [l] => l
  | l :: ls => l ++ '\n' :: joinLines ls

/-- A statement `kw (body);` as it stands in a query. -/
def stmtText (w sp body : Str) : Str := w ++ (sp ++ '(' :: (body ++ c!");"))

/-- Blanks and tabs in front of a statement. -/
def Indent (t : Str) : Prop := ∀ c ∈ t, c = ' ' ∨ c = '\t'

/-- Lines of a query, with the statement that stands on them, if any: a line is an indented statement,
followed by a text without closing parenthesis and without the keyword, or it does not contain the
keyword. -/
inductive QLine [PyRuntime] (kw : Str) : Str → Option Str → Prop where
  | stmt (ind w sp body tail : Str) : Indent ind → IsSpelling kw w → sp.all isSpace = true → body ≠ [] →
      '\n' ∉ body → '\n' ∉ tail → ')' ∉ tail → NoKeyword kw tail →
      QLine kw (ind ++ (stmtText w sp body ++ tail)) (some (stmtText w sp body))
  | other (l : Str) : '\n' ∉ l → NoKeyword kw l → QLine kw l none

/-- Lines of a query with the REPORT that stands on them, if any. -/
inductive RLine : Str → Option Str → Prop where
  | stmt (ind w body tail : Str) : Indent ind → IsSpelling c!"report" w → body ≠ [] → '\n' ∉ body →
      '\n' ∉ tail → ';' ∉ tail → NoKeyword c!"report" tail →
      RLine (ind ++ (w ++ (body ++ c!";") ++ tail)) (some (w ++ (body ++ c!";")))
  | other (l : Str) : '\n' ∉ l → NoKeyword c!"report" l → RLine l none

/-- The characters that a statement may not contain. -/
def illegalChars : Str := c!"#%&*$"

/-- `w` has the letters of the keyword, in some order and any case. -/
def Misspelt (kw w : Str) : Prop := (w.map Char.toLower).Perm kw

/-- No statement `kw (body);` stands anywhere in the query. -/
def NoStatement [PyRuntime] (kw q : Str) : Prop :=
  ∀ a w sp body b, q = a ++ stmtText w sp body ++ b → CISpelling kw w → sp.all isSpace = true → body ≠ [] →
    '\n' ∉ body → False

/-- No `REPORT ...;` stands anywhere in the query. -/
def NoReport (q : Str) : Prop :=
  ∀ a w body b, q = a ++ (w ++ (body ++ c!";")) ++ b → CISpelling c!"report" w → body ≠ [] → '\n' ∉ body → False

end WG
