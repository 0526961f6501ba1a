/-
Property lists as they are written in a statement, and the values they stand for.
-/
import Verif.Model.Regexes
import Verif.Py.Num
import Verif.Py.Value

namespace WG
variable [PyRuntime]

/-- A plain literal: `null`, `true`/`false`, a decimal number (with leading zeros), `digits.digits`, a quoted
text (in double or single quotes). -/
inductive Atom where
  | null
  | bool (b : Bool)
  | int (zeros n : Nat)
  | float (d f : Str)
  | str (double : Bool) (s : Str)
deriving DecidableEq

/-- The quote. -/
def quoteChar (double : Bool) : Char := if double then '"' else '\''

/-- Its text. -/
def Atom.render : Atom → Str
  | .null => c!"null"
  | .bool true => c!"true"
  | .bool false => c!"false"
  | .int z n => List.replicate z '0' ++ natStr n
  | .float d f => d ++ '.' :: f
  | .str q s => quoteChar q :: (s ++ [quoteChar q])

/-- The value it stands for.  A float stands for Python's float of that literal. -/
def Atom.Means : Atom → V → Prop
  | .null, v => v = .none
  | .bool b, v => v = .bool b
  | .int _ n, v => v = .int n
  | .float d f, v => ∃ x, PyRuntime.floatOfStr (d ++ '.' :: f) = some x ∧ v = .flt x
  | .str _ s, v => v = .str s

/-- A character that is stripped from the ends of a quoted text. -/
def isEdge (double : Bool) (c : Char) : Bool := (double && c == '"') || c == '\'' || isSpace c

/-- A clean text: characters of the property regex, no white space or quote at its ends (a double quote may
stand there inside single quotes), and none of the spellings that are refused. -/
structure CleanStr (double : Bool) (s : Str) : Prop where
  chars : s.all isStrChar = true
  first : ∀ c, s.head? = some c → isEdge double c = false
  last : ∀ c, s.getLast? = some c → isEdge double c = false
  notNone : s ∉ [c!"Null", c!"None", c!"none"]
  notBool : s ∉ [c!"true", c!"True", c!"false", c!"False"]

/-- A plain literal that can stand alone. -/
def Atom.OK : Atom → Prop
  | .float d f => d ≠ [] ∧ d.all isDig = true ∧ f ≠ [] ∧ f.all isDig = true
  | .str q s => CleanStr q s
  | _ => True

/-- A clean text inside a list: characters of the list regex, not its own quote, no line breaks or NULs, and none of the
words that are replaced. -/
structure CleanItem (double : Bool) (s : Str) : Prop where
  chars : s.all isListChar = true
  plain : ∀ c ∈ s, c ≠ quoteChar double ∧ c ≠ '\n' ∧ c ≠ '\r' ∧ c ≠ '\x00'
  words : ¬ c!"true" <:+: s ∧ ¬ c!"false" <:+: s ∧ ¬ c!"null" <:+: s

/-- A plain literal that can stand in a list: no leading zeros, clean texts. -/
def Atom.ItemOK : Atom → Prop
  | .int z _ => z = 0
  | .float d f => d ≠ [] ∧ d.all isDig = true ∧ f ≠ [] ∧ f.all isDig = true
  | .str q s => CleanItem q s
  | _ => True

/-- Texts separated by commas. -/
def commaSep : List Str → Str
  | [] => []
  | [a] => a
  | a :: l => a ++ ',' :: commaSep l

/-- A literal: a plain one, or a list of plain ones, each after white space, with white space before the
closing bracket. -/
inductive Lit where
  | atom (a : Atom)
  | list (l : List (Str × Atom)) (sp : Str)

/-- Its text. -/
def Lit.render : Lit → Str
  | .atom a => a.render
  | .list l sp => '[' :: (commaSep (l.map fun x => x.1 ++ x.2.render) ++ (sp ++ [']']))

/-- A list stands for the values of its elements, in order. -/
def ListMeans : List (Str × Atom) → List V → Prop
  | [], vs => vs = []
  | x :: l, vs => ∃ v vs', vs = v :: vs' ∧ x.2.Means v ∧ ListMeans l vs'

/-- The value it stands for. -/
def Lit.Means : Lit → V → Prop
  | .atom a, v => a.Means v
  | .list l _, v => ∃ vs, v = .list vs ∧ ListMeans l vs

/-- White space inside a list: spaces, tabs, line feeds and form feeds. -/
def isGap (c : Char) : Bool := c == ' ' || c == '\t' || c == '\n' || c == '\x0c'

/-- A literal that can be read back.  A list has at least one character between its brackets. -/
def Lit.OK : Lit → Prop
  | .atom a => a.OK
  | .list l sp => (∀ x ∈ l, x.1.all isGap = true ∧ x.2.ItemOK) ∧ sp.all isGap = true ∧ (l = [] → sp ≠ [])

/-- One property as written. -/
structure PropText where
  sp1 : Str
  name : Str
  sp2 : Str
  sp3 : Str
  lit : Lit
  sp4 : Str

/-- Its text. -/
def PropText.render (p : PropText) : Str := p.sp1 ++ (p.name ++ (p.sp2 ++ ':' :: (p.sp3 ++ (p.lit.render ++ p.sp4))))

/-- The literal is a quoted text. -/
def Lit.isText : Lit → Bool
  | .atom (.str _ _) => true
  | _ => false

/-- The name is a word, the literal can be read back, and no white space stands after a quoted text. -/
structure PropText.OK (p : PropText) : Prop where
  sp1 : p.sp1.all isSpace = true
  name : p.name.all isWord = true
  name_ne : p.name ≠ []
  sp2 : p.sp2.all isSpace = true
  sp3 : p.sp3.all isSpace = true
  lit : p.lit.OK
  sp4 : p.sp4.all isSpace = true
  text : p.lit.isText = true → p.sp4 = []

/-- A property list as written. -/
def renderProps (l : List PropText) : Str := '{' :: (commaSep (l.map PropText.render) ++ ['}'])

/-- The value of the last property with a given name. -/
def lastValue (k : Str) (l : List (Str × V)) : Option V := (l.reverse.find? fun x => x.1 == k).map Prod.snd

/-- The text `{name: "s"}`. -/
def quotedProp (name : Str) (q : Bool) (s : Str) : Str := '{' :: (name ++ (c!": " ++ (quoteChar q :: (s ++ [quoteChar q, '}']))))

end WG
